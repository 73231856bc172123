import Verif.TestClient.Lemmas
/-! # The invariant of gsup_test_client -/
namespace Verif.TestClient
open Verif Verif.Gsup

attribute [local irreducible] imsiOf

/-- The state agrees with what happened. -/
structure Inv (l : List Ev) (s : St) : Prop where
  ok : s.crashed = false
  next : s.next = asked l
  nodup : s.ops.Nodup
  plain : ∀ o ∈ s.ops, o.armed = false
  ours : ∀ o ∈ s.ops, o.kind ≠ .isd → ∃ i, i < asked l ∧ o.imsi = imsiOf i
  sai : ∀ i, i < asked l → (⟨imsiOf i, .sai, false⟩ ∈ s.ops ↔ saiAnswer l i = none)
  lu : ∀ i, i < asked l → (⟨imsiOf i, .lu, false⟩ ∈ s.ops ↔ saiAnswer l i ≠ none ∧ luAnswer l i = none)
  adds : ∀ k, (s.stats k).alloc = (s.stats k).released + waiting s k
  tout : ∀ k, (s.stats k).timeout = 0
  saiAlloc : (s.stats .sai).alloc = asked l
  saiRel : (s.stats .sai).released = (s.stats .sai).success + (s.stats .sai).error
  saiOk : (s.stats .sai).success = howMany l (fun i => saiAnswer l i = some (SEND_AUTH_INFO + 2))
  saiErr : (s.stats .sai).error = howMany l (fun i => saiAnswer l i = some (SEND_AUTH_INFO + 1))
  luAlloc : (s.stats .lu).alloc = (s.stats .sai).released
  luRel : (s.stats .lu).released = (s.stats .lu).success + (s.stats .lu).error
  luOk : (s.stats .lu).success = howMany l (fun i => luAnswer l i = some (UPDATE_LOCATION + 2))
  luErr : (s.stats .lu).error = howMany l (fun i => luAnswer l i = some (UPDATE_LOCATION + 1))
  isdRel : (s.stats .isd).alloc = (s.stats .isd).success
  isdErr : (s.stats .isd).error = 0

theorem inv_init : Inv [] {} := by
  constructor <;> first | rfl | (intros; rfl) | (intro i h; exact absurd h (by simp [asked])) | simp

/-! ## The list of operations -/

theorem find_none {s : St} {x : Bytes} {k : Kind} (hp : ∀ o ∈ s.ops, o.armed = false) :
    find s x k = none ↔ (⟨x, k, false⟩ : Op) ∉ s.ops := by
  unfold find
  rw [List.find?_eq_none]
  constructor
  · intro h hm; have := h _ hm; simp at this
  · intro h o ho
    simp only [Bool.and_eq_true, decide_eq_true_eq, not_and]
    intro h1 h2
    have h3 := hp o ho
    obtain ⟨a, b, c⟩ := o
    cases h1; cases h2; cases h3; exact h ho

theorem find_some {s : St} {x : Bytes} {k : Kind} {o : Op} (hp : ∀ o ∈ s.ops, o.armed = false)
    (h : find s x k = some o) : o = ⟨x, k, false⟩ ∧ o ∈ s.ops := by
  unfold find at h
  have hm := List.mem_of_find?_eq_some h
  have h1 := List.find?_some h
  simp only [Bool.and_eq_true, decide_eq_true_eq] at h1
  have h3 := hp o hm
  refine ⟨?_, hm⟩
  obtain ⟨a, b, c⟩ := o
  cases h1.1; cases h1.2; cases h3; rfl

theorem alloc_old {s : St} {x : Bytes} {k : Kind} (hp : ∀ o ∈ s.ops, o.armed = false)
    (h : (⟨x, k, false⟩ : Op) ∈ s.ops) : alloc s x k = (s, none) := by
  unfold alloc
  cases hf : find s x k with
  | none => exact absurd h ((find_none hp).1 hf)
  | some o => rfl

theorem alloc_new {s : St} {x : Bytes} {k : Kind} (hp : ∀ o ∈ s.ops, o.armed = false) (hx : x.length ≤ 16)
    (h : (⟨x, k, false⟩ : Op) ∉ s.ops) :
    alloc s x k = ({ s with ops := ⟨x, k, false⟩ :: s.ops }.count k (fun t => { t with alloc := t.alloc + 1 }), some ⟨x, k, false⟩) := by
  unfold alloc
  rw [(find_none hp).2 h, strlcpy_short hx]

theorem countP_erase' {p : Op → Bool} {l : List Op} {o : Op} (h : o ∈ l) :
    l.countP p = (l.erase o).countP p + if p o then 1 else 0 := by
  rw [(List.perm_cons_erase h).countP_eq, List.countP_cons]

theorem ops_encSend (L : Lib) (s : St) (t : Nat) (x : Bytes) :
    (encSend L s t x).1 = { s with sent := (encSend L s t x).1.sent } := by
  unfold encSend; split <;> rfl

/-- A request for a subscriber without one of this kind. -/
theorem request_new {L : Lib} {s : St} {x : Bytes} {k : Kind} {t : Nat} (hp : ∀ o ∈ s.ops, o.armed = false) (hx : x.length ≤ 16)
    (h : (⟨x, k, false⟩ : Op) ∉ s.ops) : ∃ sent, (request L s x k t).1 =
      { s with ops := ⟨x, k, false⟩ :: s.ops, sent := sent }.count k (fun u => { u with alloc := u.alloc + 1 })
      ∧ sent = (if L.enc then s.sent ++ [(t, x)] else s.sent) := by
  unfold request
  rw [alloc_new hp hx h]
  dsimp only
  rw [strlcpy_short hx]
  unfold encSend
  split
  · exact ⟨_, rfl, rfl⟩
  · exact ⟨_, rfl, rfl⟩

/-! ## What a step does -/

/-- Main() asks for the next subscriber. -/
theorem loop_eq {l : List Ev} {s : St} {L : Lib} (hi : Inv l s) (hn : s.next < 10000) : ∃ sent,
    step s (.loop L) = { ({ s with ops := ⟨imsiOf s.next, .sai, false⟩ :: s.ops, sent := sent }.count .sai (fun u => { u with alloc := u.alloc + 1 })) with next := s.next + 1 }
    ∧ (⟨imsiOf s.next, .sai, false⟩ : Op) ∉ s.ops ∧ sent = (if L.enc then s.sent ++ [(SEND_AUTH_INFO, imsiOf s.next)] else s.sent) := by
  have hnew : (⟨imsiOf s.next, .sai, false⟩ : Op) ∉ s.ops := by
    intro h
    obtain ⟨j, hj, he⟩ := hi.ours _ h (by simp)
    have := imsiOf_inj hn (by have := asked_le' l; omega) he
    have := hi.next; omega
  obtain ⟨sent, h1, h2⟩ := request_new (L := L) (t := SEND_AUTH_INFO) hi.plain (imsiOf_short _) hnew
  refine ⟨sent, ?_, hnew, h2⟩
  show (if s.crashed then s else if s.next < 10000 then _ else _) = _
  rw [if_neg (by rw [hi.ok]; decide), if_pos hn, h1]

theorem asked_snoc_rx (l : List Ev) (e : Ev) (h : e.isLoop = false) : asked (l ++ [e]) = asked l := by
  unfold asked; rw [loops_snoc, h]; rfl

theorem asked_snoc_loop (l : List Ev) (L : Lib) (h : asked l < 10000) : asked (l ++ [.loop L]) = asked l + 1 := by
  unfold asked at *; rw [loops_snoc]; simp only [Ev.isLoop, if_true]; omega

theorem asked_eq {l : List Ev} (h : asked l < 10000) : asked l = l.countP Ev.isLoop := by
  unfold asked at *; omega

/-- Nothing is done, and nothing is answered. -/
theorem inv_noop {l : List Ev} {s : St} {e : Ev} (hi : Inv l s) (hst : step s e = s) (ha : asked (l ++ [e]) = asked l)
    (hs : ∀ i, i < asked l → saiAnswer (l ++ [e]) i = saiAnswer l i)
    (hl : ∀ i, i < asked l → luAnswer (l ++ [e]) i = luAnswer l i) : Inv (l ++ [e]) (step s e) := by
  rw [hst]
  constructor
  case ok => exact hi.ok
  case next => rw [ha]; exact hi.next
  case nodup => exact hi.nodup
  case plain => exact hi.plain
  case ours => rw [ha]; exact hi.ours
  case sai => intro i h; rw [ha] at h; rw [hs i h]; exact hi.sai i h
  case lu => intro i h; rw [ha] at h; rw [hs i h, hl i h]; exact hi.lu i h
  case adds => exact hi.adds
  case tout => exact hi.tout
  case saiAlloc => rw [ha]; exact hi.saiAlloc
  case saiRel => exact hi.saiRel
  case saiOk => exact hi.saiOk.trans (howMany_same ha (fun i h => by rw [hs i h])).symm
  case saiErr => exact hi.saiErr.trans (howMany_same ha (fun i h => by rw [hs i h])).symm
  case luAlloc => exact hi.luAlloc
  case luRel => exact hi.luRel
  case luOk => exact hi.luOk.trans (howMany_same ha (fun i h => by rw [hl i h])).symm
  case luErr => exact hi.luErr.trans (howMany_same ha (fun i h => by rw [hl i h])).symm
  case isdRel => exact hi.isdRel
  case isdErr => exact hi.isdErr

/-- An event that answers nothing changes no answer. -/
theorem sai_same {l : List Ev} {e : Ev} {i : Nat} (h : i < asked l) (hn : ans SEND_AUTH_INFO i e = none ∨ saiAnswer l i ≠ none) :
    saiAnswer (l ++ [e]) i = saiAnswer l i := by
  rw [saiAnswer_snoc _ _ _ (Nat.lt_of_lt_of_le h (asked_le l))]
  cases hc : saiAnswer l i with
  | none =>
    rcases hn with hn | hn
    · rw [hn]; rfl
    · exact absurd hc hn
  | some t => rfl

theorem lu_same {l : List Ev} {e : Ev} {i : Nat} (h : i < asked l)
    (hn : ans UPDATE_LOCATION i e = none ∨ saiAnswer l i = none ∨ luAnswer l i ≠ none) :
    luAnswer (l ++ [e]) i = luAnswer l i := by
  rw [luAnswer_snoc _ _ _ (Nat.lt_of_lt_of_le h (asked_le l))]
  cases hc : saiAnswer l i with
  | none => rw [luAnswer_none _ _ hc]; rfl
  | some t =>
    simp only [Option.isSome_some, if_true]
    cases hd : luAnswer l i with
    | some u => rfl
    | none =>
      rcases hn with hn | hn | hn
      · rw [hn]; rfl
      · rw [hc] at hn; cases hn
      · exact absurd hd hn

theorem inv_quiet {l : List Ev} {s : St} {e : Ev} (hi : Inv l s) (hst : step s e = s) (ha : asked (l ++ [e]) = asked l)
    (h1 : ∀ i, ans SEND_AUTH_INFO i e = none) (h2 : ∀ i, ans UPDATE_LOCATION i e = none) : Inv (l ++ [e]) (step s e) :=
  inv_noop hi hst ha (fun i h => sai_same h (.inl (h1 i))) (fun i h => lu_same h (.inl (h2 i)))

theorem inv_loop {l : List Ev} {s : St} {L : Lib} (hi : Inv l s) : Inv (l ++ [.loop L]) (step s (.loop L)) := by
  by_cases hn : s.next < 10000
  · obtain ⟨sent, he, hnew, _⟩ := loop_eq (L := L) hi hn
    have ha : asked l < 10000 := by rw [← hi.next]; exact hn
    have hasn := asked_snoc_loop l L ha
    have hlo := asked_eq ha
    have hs : ∀ i, i < asked l → saiAnswer (l ++ [.loop L]) i = saiAnswer l i := by
      intro i h; rw [saiAnswer_snoc _ _ _ (by omega)]; cases saiAnswer l i <;> rfl
    have hl : ∀ i, i < asked l → luAnswer (l ++ [.loop L]) i = luAnswer l i := by
      intro i h; rw [luAnswer_snoc _ _ _ (by omega)]
      cases hc : saiAnswer l i with
      | none => rw [luAnswer_none _ _ hc]; rfl
      | some t => simp only [Option.isSome_some, if_true]; cases luAnswer l i <;> rfl
    have hs' : saiAnswer (l ++ [.loop L]) (asked l) = none := saiAnswer_new _ _ _ (by omega)
    have hl' : luAnswer (l ++ [.loop L]) (asked l) = none := luAnswer_new _ _ _ (by omega)
    rw [he]
    have hnx := hi.next
    constructor
    case ok => exact hi.ok
    case next => show s.next + 1 = _; rw [hasn, hi.next]
    case nodup => exact List.nodup_cons.2 ⟨hnew, hi.nodup⟩
    case plain =>
      intro o ho
      rcases List.mem_cons.1 ho with rfl | ho
      · rfl
      · exact hi.plain o ho
    case ours =>
      intro o ho hk
      rw [hasn]
      rcases List.mem_cons.1 ho with rfl | ho
      · exact ⟨s.next, by omega, rfl⟩
      · obtain ⟨i, h1, h2⟩ := hi.ours o ho hk
        exact ⟨i, by omega, h2⟩
    case sai =>
      intro i h
      rw [hasn] at h
      show _ ∈ _ :: s.ops ↔ _
      rw [List.mem_cons]
      by_cases hc : i = asked l
      · subst hc; rw [hs', hnx]; simp
      · rw [hs i (by omega), ← hi.sai i (by omega)]
        constructor
        · rintro (h' | h')
          · have := imsiOf_inj (by omega) hn (congrArg Op.imsi h'); omega
          · exact h'
        · exact Or.inr
    case lu =>
      intro i h
      rw [hasn] at h
      show _ ∈ _ :: s.ops ↔ _
      rw [List.mem_cons]
      by_cases hc : i = asked l
      · subst hc; rw [hs']
        constructor
        · rintro (h' | h')
          · cases congrArg Op.kind h'
          · obtain ⟨j, hj, hje⟩ := hi.ours _ h' (by simp)
            have := imsiOf_inj ha (by omega) hje; omega
        · intro h'; exact absurd rfl h'.1
      · rw [hs i (by omega), hl i (by omega), ← hi.lu i (by omega)]
        constructor
        · rintro (h' | h')
          · cases congrArg Op.kind h'
          · exact h'
        · exact Or.inr
    case adds =>
      intro k
      have := hi.adds k
      unfold waiting at this ⊢
      cases k <;> simp [St.count, List.countP_cons] <;> omega
    case tout => intro k; have := hi.tout k; cases k <;> simpa [St.count] using this
    case saiAlloc => rw [hasn, ← hi.saiAlloc]; rfl
    case saiRel => exact hi.saiRel
    case saiOk => exact hi.saiOk.trans (howMany_new hasn (fun i h => by rw [hs i h]) (by rw [hs']; rfl)).symm
    case saiErr => exact hi.saiErr.trans (howMany_new hasn (fun i h => by rw [hs i h]) (by rw [hs']; rfl)).symm
    case luAlloc => exact hi.luAlloc
    case luRel => exact hi.luRel
    case luOk => exact hi.luOk.trans (howMany_new hasn (fun i h => by rw [hl i h]) (by rw [hl']; rfl)).symm
    case luErr => exact hi.luErr.trans (howMany_new hasn (fun i h => by rw [hl i h]) (by rw [hl']; rfl)).symm
    case isdRel => exact hi.isdRel
    case isdErr => exact hi.isdErr
  · have ha : asked (l ++ [.loop L]) = asked l := by
      have h1 := hi.next
      have h2 := asked_le' l
      unfold asked at *; rw [loops_snoc]; simp only [Ev.isLoop, if_true]; omega
    refine inv_quiet hi ?_ ha (fun _ => rfl) (fun _ => rfl)
    show (if s.crashed then s else if s.next < 10000 then _ else _) = _
    rw [if_neg (by rw [hi.ok]; decide), if_neg hn]

theorem inv_expire {l : List Ev} {s : St} {k : Nat} (hi : Inv l s) : Inv (l ++ [.expire k]) (step s (.expire k)) := by
  refine inv_quiet hi ?_ (asked_snoc_rx _ _ rfl) (fun _ => rfl) (fun _ => rfl)
  unfold step
  split
  · rfl
  · dsimp only
    cases h : s.ops[k]? with
    | none => rfl
    | some o => dsimp only; rw [if_neg (by rw [hi.plain o (List.mem_of_getElem? h)]; decide)]

/-! ## A message arrives -/

theorem ans_none {req i : Nat} {L : Lib} {m : Rx} (h : ¬ (m.imsi = imsiOf i ∧ (m.typ = req + 1 ∨ m.typ = req + 2))) :
    ans req i (.rx L (some m)) = none := if_neg h

theorem ans_some {req i : Nat} {L : Lib} {m : Rx} (h : m.imsi = imsiOf i ∧ (m.typ = req + 1 ∨ m.typ = req + 2)) :
    ans req i (.rx L (some m)) = some m.typ := if_pos h

theorem step_rx {l : List Ev} {s : St} (hi : Inv l s) (L : Lib) (m : Option Rx) : step s (.rx L m) = readCb L s m := by
  show (if s.crashed then s else _) = _
  rw [if_neg (by rw [hi.ok]; decide)]

theorem kindOf_sai {t : Nat} (h : kindOf t = some .sai) : t = SEND_AUTH_INFO + 1 ∨ t = SEND_AUTH_INFO + 2 := by
  unfold kindOf at h
  split at h
  · omega
  · split at h
    · cases h
    · split at h <;> cases h

theorem kindOf_lu {t : Nat} (h : kindOf t = some .lu) : t = UPDATE_LOCATION + 1 ∨ t = UPDATE_LOCATION + 2 := by
  unfold kindOf at h
  split at h
  · cases h
  · split at h
    · omega
    · split at h <;> cases h

theorem kindOf_isd {t : Nat} (h : kindOf t = some .isd) : t = INSERT_DATA := by
  unfold kindOf at h
  split at h
  · cases h
  · split at h
    · cases h
    · split at h
      · assumption
      · cases h

theorem kindOf_none {t : Nat} (h : kindOf t = none) : ¬ (t = SEND_AUTH_INFO + 1 ∨ t = SEND_AUTH_INFO + 2) ∧
    ¬ (t = UPDATE_LOCATION + 1 ∨ t = UPDATE_LOCATION + 2) ∧ t ≠ INSERT_DATA := by
  unfold kindOf at h
  split at h
  · cases h
  · split at h
    · cases h
    · split at h
      · cases h
      · refine ⟨by omega, by omega, by omega⟩

/-- The state once the answer about authentication data was handled. -/
theorem saiRx_eq {s : St} {L : Lib} {x : Bytes} {typ : Nat} (hp : ∀ o ∈ s.ops, o.armed = false) (hx : x.length ≤ 16)
    (hnl : (⟨x, .lu, false⟩ : Op) ∉ s.ops) : ∃ sent,
    opRx L s ⟨x, .sai, false⟩ typ = { s with
      ops := ((⟨x, .lu, false⟩ : Op) :: s.ops).erase ⟨x, .sai, false⟩
      sent := sent
      stats := fun k => match k with
        | .sai => { s.stats .sai with
          released := (s.stats .sai).released + 1
          success := (s.stats .sai).success + (if isError typ then 0 else 1)
          error := (s.stats .sai).error + (if isError typ then 1 else 0) }
        | .lu => { s.stats .lu with alloc := (s.stats .lu).alloc + 1 }
        | .isd => s.stats .isd }
    ∧ sent = (if L.enc then s.sent ++ [(UPDATE_LOCATION, x)] else s.sent) := by
  unfold opRx
  dsimp only
  obtain ⟨sent, h1, h2⟩ := request_new (L := L) (t := UPDATE_LOCATION) (k := .lu)
    (s := s.count .sai (fun t => if isError typ then { t with error := t.error + 1 } else { t with success := t.success + 1 })) hp hx hnl
  refine ⟨sent, ?_, h2⟩
  rw [h1]
  unfold release St.count
  dsimp only
  congr 1
  funext k
  cases k <;> cases isError typ <;> simp

theorem luRx_eq {s : St} {L : Lib} {x : Bytes} {typ : Nat} :
    opRx L s ⟨x, .lu, false⟩ typ = { s with
      ops := s.ops.erase ⟨x, .lu, false⟩
      stats := fun k => match k with
        | .lu => { s.stats .lu with
          released := (s.stats .lu).released + 1
          success := (s.stats .lu).success + (if isError typ then 0 else 1)
          error := (s.stats .lu).error + (if isError typ then 1 else 0) }
        | .sai => s.stats .sai
        | .isd => s.stats .isd } := by
  unfold opRx
  dsimp only
  unfold release St.count
  dsimp only
  congr 1
  funext k
  cases k <;> cases isError typ <;> simp

theorem inv_sai {l : List Ev} {s : St} {L : Lib} {m : Rx} (hi : Inv l s) (hk : m.typ = SEND_AUTH_INFO + 1 ∨ m.typ = SEND_AUTH_INFO + 2)
    (hm : (⟨m.imsi, .sai, false⟩ : Op) ∈ s.ops) (hst : step s (.rx L (some m)) = opRx L s ⟨m.imsi, .sai, false⟩ m.typ) :
    Inv (l ++ [.rx L (some m)]) (step s (.rx L (some m))) := by
  obtain ⟨j, hj, hx⟩ := hi.ours _ hm (by simp)
  dsimp only at hx
  have hj' : j < 10000 := Nat.lt_of_lt_of_le hj (asked_le' l)
  rw [hx] at hm hst
  have hnone := (hi.sai j hj).1 hm
  have hnl : (⟨imsiOf j, .lu, false⟩ : Op) ∉ s.ops := fun h => ((hi.lu j hj).1 h).1 hnone
  have ha : asked (l ++ [.rx L (some m)]) = asked l := asked_snoc_rx _ _ rfl
  have hs : ∀ i, i < asked l → i ≠ j → saiAnswer (l ++ [.rx L (some m)]) i = saiAnswer l i := fun i h hne =>
    sai_same h (.inl (ans_none (fun hc => hne (imsiOf_inj (Nat.lt_of_lt_of_le h (asked_le' l)) hj' (hc.1.symm.trans hx)))))
  have hl : ∀ i, i < asked l → luAnswer (l ++ [.rx L (some m)]) i = luAnswer l i := fun i h =>
    lu_same h (.inl (ans_none (fun hc => by simp only [SEND_AUTH_INFO, UPDATE_LOCATION] at hk hc; omega)))
  have hsj : saiAnswer (l ++ [.rx L (some m)]) j = some m.typ := by
    rw [saiAnswer_snoc _ _ _ (Nat.lt_of_lt_of_le hj (asked_le l)), hnone, ans_some ⟨hx, hk⟩]; rfl
  obtain ⟨sent, he, _⟩ := saiRx_eq (L := L) (typ := m.typ) hi.plain (imsiOf_short j) hnl
  rw [hst, he]
  have hnd : ((⟨imsiOf j, .lu, false⟩ : Op) :: s.ops).Nodup := List.nodup_cons.2 ⟨hnl, hi.nodup⟩
  have hin : (⟨imsiOf j, .sai, false⟩ : Op) ∈ (⟨imsiOf j, .lu, false⟩ : Op) :: s.ops := List.mem_cons_of_mem _ hm
  constructor
  case ok => exact hi.ok
  case next => rw [ha]; exact hi.next
  case nodup => exact hnd.erase _
  case plain =>
    intro o ho
    rcases List.mem_cons.1 (List.mem_of_mem_erase ho) with rfl | ho
    · rfl
    · exact hi.plain o ho
  case ours =>
    intro o ho hk
    rw [ha]
    rcases List.mem_cons.1 (List.mem_of_mem_erase ho) with rfl | ho
    · exact ⟨j, hj, rfl⟩
    · exact hi.ours o ho hk
  case sai =>
    intro i h
    rw [ha] at h
    show _ ∈ List.erase _ _ ↔ _
    rw [hnd.mem_erase_iff, List.mem_cons]
    by_cases hc : i = j
    · subst hc; rw [hsj]; simp
    · rw [hs i h hc, ← hi.sai i h]
      constructor
      · rintro ⟨_, h' | h'⟩
        · cases congrArg Op.kind h'
        · exact h'
      · intro h'
        exact ⟨fun h2 => hc (imsiOf_inj (Nat.lt_of_lt_of_le h (asked_le' l)) hj' (congrArg Op.imsi h2)), .inr h'⟩
  case lu =>
    intro i h
    rw [ha] at h
    show _ ∈ List.erase _ _ ↔ _
    rw [hnd.mem_erase_iff, List.mem_cons, hl i h]
    by_cases hc : i = j
    · subst hc; rw [hsj, luAnswer_none _ _ hnone]; simp
    · rw [hs i h hc, ← hi.lu i h]
      constructor
      · rintro ⟨_, h' | h'⟩
        · exact absurd (imsiOf_inj (Nat.lt_of_lt_of_le h (asked_le' l)) hj' (congrArg Op.imsi h')) hc
        · exact h'
      · intro h'
        exact ⟨fun h2 => (by cases congrArg Op.kind h2), .inr h'⟩
  case adds =>
    intro k
    have h1 := hi.adds k
    have h2 := countP_erase' (p := fun o => o.kind = k) hin
    unfold waiting at h1 ⊢
    rw [List.countP_cons] at h2
    cases k <;> simp at h2 ⊢ <;> omega
  case tout => intro k; have := hi.tout k; cases k <;> exact this
  case saiAlloc => rw [ha]; exact hi.saiAlloc
  case saiRel => have := hi.saiRel; show (s.stats .sai).released + 1 = _ + _ + (_ + _); cases isError m.typ <;> simp <;> omega
  case saiOk =>
    show (s.stats .sai).success + _ = _
    rw [hi.saiOk]
    rcases hk with hk | hk
    · rw [howMany_same ha (p := fun i => saiAnswer l i = some (SEND_AUTH_INFO + 2)), hk]
      · rfl
      · intro i h
        by_cases hc : i = j
        · subst hc; rw [hsj, hnone, hk]; decide
        · rw [hs i h hc]
    · rw [howMany_one j ha hj (p := fun i => saiAnswer l i = some (SEND_AUTH_INFO + 2)), hk]
      · rfl
      · intro i h hc; rw [hs i h hc]
      · rw [hnone]; decide
      · rw [hsj, hk]; decide
  case saiErr =>
    show (s.stats .sai).error + _ = _
    rw [hi.saiErr]
    rcases hk with hk | hk
    · rw [howMany_one j ha hj (p := fun i => saiAnswer l i = some (SEND_AUTH_INFO + 1)), hk]
      · rfl
      · intro i h hc; rw [hs i h hc]
      · rw [hnone]; decide
      · rw [hsj, hk]; decide
    · rw [howMany_same ha (p := fun i => saiAnswer l i = some (SEND_AUTH_INFO + 1)), hk]
      · rfl
      · intro i h
        by_cases hc : i = j
        · subst hc; rw [hsj, hnone, hk]; decide
        · rw [hs i h hc]
  case luAlloc => have := hi.luAlloc; show (s.stats .lu).alloc + 1 = (s.stats .sai).released + 1; omega
  case luRel => exact hi.luRel
  case luOk => exact hi.luOk.trans (howMany_same ha (fun i h => by rw [hl i h])).symm
  case luErr => exact hi.luErr.trans (howMany_same ha (fun i h => by rw [hl i h])).symm
  case isdRel => exact hi.isdRel
  case isdErr => exact hi.isdErr

theorem inv_lu {l : List Ev} {s : St} {L : Lib} {m : Rx} (hi : Inv l s) (hk : m.typ = UPDATE_LOCATION + 1 ∨ m.typ = UPDATE_LOCATION + 2)
    (hm : (⟨m.imsi, .lu, false⟩ : Op) ∈ s.ops) (hst : step s (.rx L (some m)) = opRx L s ⟨m.imsi, .lu, false⟩ m.typ) :
    Inv (l ++ [.rx L (some m)]) (step s (.rx L (some m))) := by
  obtain ⟨j, hj, hx⟩ := hi.ours _ hm (by simp)
  dsimp only at hx
  have hj' : j < 10000 := Nat.lt_of_lt_of_le hj (asked_le' l)
  rw [hx] at hm hst
  have hnone := (hi.lu j hj).1 hm
  have ha : asked (l ++ [.rx L (some m)]) = asked l := asked_snoc_rx _ _ rfl
  have hl : ∀ i, i < asked l → i ≠ j → luAnswer (l ++ [.rx L (some m)]) i = luAnswer l i := fun i h hne =>
    lu_same h (.inl (ans_none (fun hc => hne (imsiOf_inj (Nat.lt_of_lt_of_le h (asked_le' l)) hj' (hc.1.symm.trans hx)))))
  have hs : ∀ i, i < asked l → saiAnswer (l ++ [.rx L (some m)]) i = saiAnswer l i := fun i h =>
    sai_same h (.inl (ans_none (fun hc => by simp only [SEND_AUTH_INFO, UPDATE_LOCATION] at hk hc; omega)))
  have hlj : luAnswer (l ++ [.rx L (some m)]) j = some m.typ := by
    rw [luAnswer_snoc _ _ _ (Nat.lt_of_lt_of_le hj (asked_le l)), hnone.2, ans_some ⟨hx, hk⟩,
      if_pos (Option.isSome_iff_ne_none.2 hnone.1)]; rfl
  rw [hst, luRx_eq]
  have hnd := hi.nodup
  constructor
  case ok => exact hi.ok
  case next => rw [ha]; exact hi.next
  case nodup => exact hnd.erase _
  case plain => intro o ho; exact hi.plain o (List.mem_of_mem_erase ho)
  case ours => rw [ha]; intro o ho hk; exact hi.ours o (List.mem_of_mem_erase ho) hk
  case sai =>
    intro i h
    rw [ha] at h
    show _ ∈ List.erase _ _ ↔ _
    rw [hnd.mem_erase_iff, hs i h, ← hi.sai i h]
    exact ⟨fun h' => h'.2, fun h' => ⟨fun h2 => (by cases congrArg Op.kind h2), h'⟩⟩
  case lu =>
    intro i h
    rw [ha] at h
    show _ ∈ List.erase _ _ ↔ _
    rw [hnd.mem_erase_iff, hs i h]
    by_cases hc : i = j
    · subst hc; rw [hlj]; simp
    · rw [hl i h hc, ← hi.lu i h]
      exact ⟨fun h' => h'.2, fun h' => ⟨fun h2 => hc (imsiOf_inj (Nat.lt_of_lt_of_le h (asked_le' l)) hj' (congrArg Op.imsi h2)), h'⟩⟩
  case adds =>
    intro k
    have h1 := hi.adds k
    have h2 := countP_erase' (p := fun o => o.kind = k) hm
    unfold waiting at h1 ⊢
    cases k <;> simp at h2 ⊢ <;> omega
  case tout => intro k; have := hi.tout k; cases k <;> exact this
  case saiAlloc => rw [ha]; exact hi.saiAlloc
  case saiRel => exact hi.saiRel
  case saiOk => exact hi.saiOk.trans (howMany_same ha (fun i h => by rw [hs i h])).symm
  case saiErr => exact hi.saiErr.trans (howMany_same ha (fun i h => by rw [hs i h])).symm
  case luAlloc => exact hi.luAlloc
  case luRel => have := hi.luRel; show (s.stats .lu).released + 1 = _ + _ + (_ + _); cases isError m.typ <;> simp <;> omega
  case luOk =>
    show (s.stats .lu).success + _ = _
    rw [hi.luOk]
    rcases hk with hk | hk
    · rw [howMany_same ha (p := fun i => luAnswer l i = some (UPDATE_LOCATION + 2)), hk]
      · rfl
      · intro i h
        by_cases hc : i = j
        · subst hc; rw [hlj, hnone.2, hk]; decide
        · rw [hl i h hc]
    · rw [howMany_one j ha hj (p := fun i => luAnswer l i = some (UPDATE_LOCATION + 2)), hk]
      · rfl
      · intro i h hc; rw [hl i h hc]
      · rw [hnone.2]; decide
      · rw [hlj, hk]; decide
  case luErr =>
    show (s.stats .lu).error + _ = _
    rw [hi.luErr]
    rcases hk with hk | hk
    · rw [howMany_one j ha hj (p := fun i => luAnswer l i = some (UPDATE_LOCATION + 1)), hk]
      · rfl
      · intro i h hc; rw [hl i h hc]
      · rw [hnone.2]; decide
      · rw [hlj, hk]; decide
    · rw [howMany_same ha (p := fun i => luAnswer l i = some (UPDATE_LOCATION + 1)), hk]
      · rfl
      · intro i h
        by_cases hc : i = j
        · subst hc; rw [hlj, hnone.2, hk]; decide
        · rw [hl i h hc]
  case isdRel => exact hi.isdRel
  case isdErr => exact hi.isdErr

end Verif.TestClient
