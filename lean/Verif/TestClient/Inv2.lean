import Verif.TestClient.Inv
/-! # gsup_test_client: subscriber data, and any sequence of events -/
namespace Verif.TestClient
open Verif Verif.Gsup

attribute [local irreducible] imsiOf

/-- The state once subscriber data were handled. -/
theorem isdRx_eq {s : St} {L : Lib} {x : Bytes} (hx : x.length ≤ 16) :
    opRx L ({ s with ops := (⟨x, .isd, false⟩ : Op) :: s.ops }.count .isd (fun t => { t with alloc := t.alloc + 1 })) ⟨x, .isd, false⟩ INSERT_DATA = { s with
      ops := if L.enc then s.ops else (⟨x, .isd, false⟩ : Op) :: s.ops
      sent := if L.enc then s.sent ++ [(INSERT_DATA + 2, x)] else s.sent
      stats := fun k => match k with
        | .isd => { s.stats .isd with
          alloc := (s.stats .isd).alloc + 1
          released := (s.stats .isd).released + (if L.enc then 1 else 0)
          success := (s.stats .isd).success + 1 }
        | .lu => s.stats .lu
        | .sai => s.stats .sai } := by
  unfold opRx
  dsimp only
  unfold respIsd release St.count
  dsimp only
  rw [strlcpy_short hx]
  cases L.enc
  · simp only [Bool.false_eq_true, if_false]
    congr 1
    funext k
    cases k <;> simp [isError, INSERT_DATA]
  · simp only [if_true, List.erase_cons_head]
    congr 1
    funext k
    cases k <;> simp [isError, INSERT_DATA]

theorem inv_isd {l : List Ev} {s : St} {L : Lib} {m : Rx} (hi : Inv l s) (hk : m.typ = INSERT_DATA)
    (hm : (⟨m.imsi, .isd, false⟩ : Op) ∉ s.ops)
    (hst : step s (.rx L (some m)) = opRx L ({ s with ops := (⟨m.imsi, .isd, false⟩ : Op) :: s.ops }.count .isd (fun t => { t with alloc := t.alloc + 1 })) ⟨m.imsi, .isd, false⟩ m.typ) :
    Inv (l ++ [.rx L (some m)]) (step s (.rx L (some m))) := by
  have ha : asked (l ++ [.rx L (some m)]) = asked l := asked_snoc_rx _ _ rfl
  have hs : ∀ i, i < asked l → saiAnswer (l ++ [.rx L (some m)]) i = saiAnswer l i := fun i h =>
    sai_same h (.inl (ans_none (fun hc => by simp only [SEND_AUTH_INFO, INSERT_DATA] at hk hc; omega)))
  have hl : ∀ i, i < asked l → luAnswer (l ++ [.rx L (some m)]) i = luAnswer l i := fun i h =>
    lu_same h (.inl (ans_none (fun hc => by simp only [UPDATE_LOCATION, INSERT_DATA] at hk hc; omega)))
  rw [hst, hk, isdRx_eq m.short]
  have hmem : ∀ o : Op, o ∈ (if L.enc then s.ops else (⟨m.imsi, .isd, false⟩ : Op) :: s.ops) → o ∈ s.ops ∨ o = ⟨m.imsi, .isd, false⟩ := by
    intro o ho; split at ho
    · exact .inl ho
    · exact (List.mem_cons.1 ho).symm
  have hmem' : ∀ o : Op, o.kind ≠ .isd → (o ∈ (if L.enc then s.ops else (⟨m.imsi, .isd, false⟩ : Op) :: s.ops) ↔ o ∈ s.ops) := by
    intro o ho
    constructor
    · intro h; rcases hmem o h with h | h
      · exact h
      · rw [h] at ho; exact absurd rfl ho
    · intro h; split
      · exact h
      · exact List.mem_cons_of_mem _ h
  constructor
  case ok => exact hi.ok
  case next => rw [ha]; exact hi.next
  case nodup =>
    show (if L.enc then _ else _ : List Op).Nodup
    split
    · exact hi.nodup
    · exact List.nodup_cons.2 ⟨hm, hi.nodup⟩
  case plain =>
    intro o ho
    rcases hmem o ho with h | h
    · exact hi.plain o h
    · rw [h]
  case ours => rw [ha]; intro o ho hk'; exact hi.ours o ((hmem' o hk').1 ho) hk'
  case sai => intro i h; rw [ha] at h; rw [hs i h, ← hi.sai i h]; exact hmem' _ (by simp)
  case lu => intro i h; rw [ha] at h; rw [hs i h, hl i h, ← hi.lu i h]; exact hmem' _ (by simp)
  case adds =>
    intro k
    have h1 := hi.adds k
    unfold waiting at h1 ⊢
    cases k <;> cases L.enc <;> simp <;> omega
  case tout => intro k; have := hi.tout k; cases k <;> exact this
  case saiAlloc => rw [ha]; exact hi.saiAlloc
  case saiRel => exact hi.saiRel
  case saiOk => exact hi.saiOk.trans (howMany_same ha (fun i h => by rw [hs i h])).symm
  case saiErr => exact hi.saiErr.trans (howMany_same ha (fun i h => by rw [hs i h])).symm
  case luAlloc => exact hi.luAlloc
  case luRel => exact hi.luRel
  case luOk => exact hi.luOk.trans (howMany_same ha (fun i h => by rw [hl i h])).symm
  case luErr => exact hi.luErr.trans (howMany_same ha (fun i h => by rw [hl i h])).symm
  case isdRel => have := hi.isdRel; show _ + 1 = _ + 1; omega
  case isdErr => exact hi.isdErr

/-- What an event does, one of six. -/
inductive Did (l : List Ev) (s : St) (e : Ev) : Prop where
  | ask (L : Lib) (he : e = .loop L) (h : s.next < 10000)
  | sai (L : Lib) (m : Rx) (he : e = .rx L (some m)) (hk : m.typ = SEND_AUTH_INFO + 1 ∨ m.typ = SEND_AUTH_INFO + 2)
      (hm : (⟨m.imsi, .sai, false⟩ : Op) ∈ s.ops) (hst : step s e = opRx L s ⟨m.imsi, .sai, false⟩ m.typ)
  | lu (L : Lib) (m : Rx) (he : e = .rx L (some m)) (hk : m.typ = UPDATE_LOCATION + 1 ∨ m.typ = UPDATE_LOCATION + 2)
      (hm : (⟨m.imsi, .lu, false⟩ : Op) ∈ s.ops) (hst : step s e = opRx L s ⟨m.imsi, .lu, false⟩ m.typ)
  | isd (L : Lib) (m : Rx) (he : e = .rx L (some m)) (hk : m.typ = INSERT_DATA) (hx : m.imsi ≠ [])
      (hm : (⟨m.imsi, .isd, false⟩ : Op) ∉ s.ops)
      (hst : step s e = opRx L ({ s with ops := (⟨m.imsi, .isd, false⟩ : Op) :: s.ops }.count .isd (fun t => { t with alloc := t.alloc + 1 })) ⟨m.imsi, .isd, false⟩ m.typ)
  | none (hst : step s e = s) (ha : asked (l ++ [e]) = asked l)
      (hs : ∀ i, i < asked l → saiAnswer (l ++ [e]) i = saiAnswer l i)
      (hl : ∀ i, i < asked l → luAnswer (l ++ [e]) i = luAnswer l i)
      (hd : ∀ x, isdOf e = some x → (⟨x, .isd, false⟩ : Op) ∈ s.ops)

theorem did {l : List Ev} {s : St} (hi : Inv l s) (e : Ev) : Did l s e := by
  cases e with
  | loop L =>
    by_cases hn : s.next < 10000
    · exact .ask L rfl hn
    · have ha : asked (l ++ [.loop L]) = asked l := by
        have h1 := hi.next
        have h2 := asked_le' l
        unfold asked at *; rw [loops_snoc]; simp only [Ev.isLoop, if_true]; omega
      refine .none ?_ ha (fun i h => sai_same h (.inl rfl)) (fun i h => lu_same h (.inl rfl)) (fun x hx => by cases hx)
      show (if s.crashed then s else if s.next < 10000 then _ else _) = _
      rw [if_neg (by rw [hi.ok]; decide), if_neg hn]
  | expire k =>
    refine .none ?_ (asked_snoc_rx _ _ rfl) (fun i h => sai_same h (.inl rfl)) (fun i h => lu_same h (.inl rfl)) (fun x hx => by cases hx)
    unfold step
    split
    · rfl
    · dsimp only
      cases h : s.ops[k]? with
      | none => rfl
      | some o => dsimp only; rw [if_neg (by rw [hi.plain o (List.mem_of_getElem? h)]; decide)]
  | rx L m =>
    have hst := step_rx hi L m
    have ha : asked (l ++ [.rx L m]) = asked l := asked_snoc_rx _ _ rfl
    cases m with
    | none => exact .none hst ha (fun i h => sai_same h (.inl rfl)) (fun i h => lu_same h (.inl rfl)) (fun x hx => by cases hx)
    | some m =>
      unfold readCb at hst
      dsimp only at hst
      by_cases hx : m.imsi = []
      · rw [if_pos hx] at hst
        refine .none hst ha (fun i h => sai_same h (.inl (ans_none (fun hc => imsiOf_ne i (hc.1.symm.trans hx)))))
          (fun i h => lu_same h (.inl (ans_none (fun hc => imsiOf_ne i (hc.1.symm.trans hx))))) ?_
        intro x h
        unfold isdOf at h; dsimp only at h
        rw [if_neg (fun hc => hc.2 hx)] at h; cases h
      · rw [if_neg hx] at hst
        have hdn : m.typ ≠ INSERT_DATA → ∀ x, isdOf (.rx L (some m)) = some x → (⟨x, .isd, false⟩ : Op) ∈ s.ops := by
          intro hne x h
          unfold isdOf at h; dsimp only at h
          rw [if_neg (fun hc => hne hc.1)] at h; cases h
        cases hk : kindOf m.typ with
        | none =>
          rw [hk] at hst
          obtain ⟨h1, h2, h3⟩ := kindOf_none hk
          exact .none hst ha (fun i h => sai_same h (.inl (ans_none (fun hc => h1 hc.2)))) (fun i h => lu_same h (.inl (ans_none (fun hc => h2 hc.2)))) (hdn h3)
        | some k =>
          rw [hk] at hst
          cases k with
          | sai =>
            dsimp only at hst
            have ht := kindOf_sai hk
            cases hf : find s m.imsi .sai with
            | none =>
              rw [hf] at hst
              have hn := (find_none hi.plain).1 hf
              refine .none hst ha (fun i h => sai_same h ?_) (fun i h => lu_same h (.inl (ans_none (fun hc => ?_)))) (hdn ?_)
              · by_cases hc : m.imsi = imsiOf i
                · right; intro h2; apply hn; rw [hc]; exact (hi.sai i h).2 h2
                · exact .inl (ans_none (fun h2 => hc h2.1))
              · simp only [SEND_AUTH_INFO, UPDATE_LOCATION] at ht hc; omega
              · simp only [SEND_AUTH_INFO, INSERT_DATA] at ht ⊢; omega
            | some o =>
              rw [hf] at hst
              obtain ⟨rfl, hm⟩ := find_some hi.plain hf
              exact .sai L m rfl ht hm hst
          | lu =>
            dsimp only at hst
            have ht := kindOf_lu hk
            cases hf : find s m.imsi .lu with
            | none =>
              rw [hf] at hst
              have hn := (find_none hi.plain).1 hf
              refine .none hst ha (fun i h => sai_same h (.inl (ans_none (fun hc => ?_)))) (fun i h => lu_same h ?_) (hdn ?_)
              · simp only [SEND_AUTH_INFO, UPDATE_LOCATION] at ht hc; omega
              · by_cases hc : m.imsi = imsiOf i
                · right
                  have h3 := mt (hi.lu i h).2 (by rw [← hc]; exact hn)
                  by_cases h4 : saiAnswer l i = none
                  · exact .inl h4
                  · exact .inr (fun h5 => h3 ⟨h4, h5⟩)
                · exact .inl (ans_none (fun h2 => hc h2.1))
              · simp only [UPDATE_LOCATION, INSERT_DATA] at ht ⊢; omega
            | some o =>
              rw [hf] at hst
              obtain ⟨rfl, hm⟩ := find_some hi.plain hf
              exact .lu L m rfl ht hm hst
          | isd =>
            dsimp only at hst
            have ht := kindOf_isd hk
            by_cases hm : (⟨m.imsi, .isd, false⟩ : Op) ∈ s.ops
            · rw [alloc_old hi.plain hm] at hst
              refine .none hst ha (fun i h => sai_same h (.inl (ans_none (fun hc => ?_)))) (fun i h => lu_same h (.inl (ans_none (fun hc => ?_)))) ?_
              · simp only [SEND_AUTH_INFO, INSERT_DATA] at ht hc; omega
              · simp only [UPDATE_LOCATION, INSERT_DATA] at ht hc; omega
              · intro x h
                unfold isdOf at h; dsimp only at h
                split at h
                · cases h; exact hm
                · cases h
            · rw [alloc_new hi.plain m.short hm] at hst
              exact .isd L m rfl ht hx hm hst

theorem inv_step {l : List Ev} {s : St} (hi : Inv l s) (e : Ev) : Inv (l ++ [e]) (step s e) := by
  rcases did hi e with ⟨L, rfl, h⟩ | ⟨L, m, rfl, hk, hm, hst⟩ | ⟨L, m, rfl, hk, hm, hst⟩ | ⟨L, m, rfl, hk, hx, hm, hst⟩ | ⟨hst, ha, hs, hl, _⟩
  · exact inv_loop hi
  · exact inv_sai hi hk hm hst
  · exact inv_lu hi hk hm hst
  · exact inv_isd hi hk hm hst
  · exact inv_noop hi hst ha hs hl

theorem run_snoc (l : List Ev) (e : Ev) : run (l ++ [e]) = step (run l) e := by
  unfold run; rw [List.foldl_append]; rfl

/-- A statement about histories, from the beginning on. -/
theorem hist_induction {P : List Ev → Prop} (h0 : P []) (h1 : ∀ l e, P l → P (l ++ [e])) (l : List Ev) : P l := by
  have : ∀ n, ∀ l : List Ev, l.length = n → P l := by
    intro n
    induction n with
    | zero => intro l h; rw [List.length_eq_zero_iff.1 h]; exact h0
    | succ n ih =>
      intro l h
      have hne : l ≠ [] := by intro h'; rw [h'] at h; cases h
      rw [← List.dropLast_concat_getLast hne]
      exact h1 _ _ (ih _ (by rw [List.length_dropLast, h]; rfl))
  exact this _ l rfl

theorem run_inv (l : List Ev) : Inv l (run l) := by
  refine hist_induction (P := fun l => Inv l (run l)) inv_init (fun l e h => ?_) l
  rw [run_snoc]; exact inv_step h e

/-! ## What was sent -/

/-- The messages sent agree with what happened; everything could be encoded. -/
structure Sent (l : List Ev) (s : St) : Prop where
  idle : ∀ o ∈ s.ops, o.kind ≠ .isd
  isdCount : (s.stats .isd).success = (isdReqs l).length
  sai : sentOf s SEND_AUTH_INFO = (List.range (asked l)).map imsiOf
  isd : sentOf s (INSERT_DATA + 2) = isdReqs l
  lu : ∀ i, i < asked l → (sentOf s UPDATE_LOCATION).count (imsiOf i) = if saiAnswer l i = none then 0 else 1
  luOurs : ∀ x ∈ sentOf s UPDATE_LOCATION, ∃ i, i < asked l ∧ x = imsiOf i
  types : ∀ m ∈ s.sent, m.1 = SEND_AUTH_INFO ∨ m.1 = UPDATE_LOCATION ∨ m.1 = INSERT_DATA + 2

theorem isdReqs_snoc (l : List Ev) (e : Ev) : isdReqs (l ++ [e]) = isdReqs l ++ (isdOf e).toList := by
  unfold isdReqs; rw [List.filterMap_append]
  have : [e].filterMap isdOf = (isdOf e).toList := by
    simp only [List.filterMap_cons, List.filterMap_nil]; cases isdOf e <;> rfl
  rw [this]

theorem sentOf_append {s : St} {l : List (Nat × Bytes)} {t u : Nat} {x : Bytes} (h : s.sent = l ++ [(t, x)]) :
    sentOf s u = ((l.filter (fun m => m.1 = u)).map Prod.snd) ++ if t = u then [x] else [] := by
  unfold sentOf; rw [h, List.filter_append, List.map_append]; congr 1
  by_cases hc : t = u <;> simp [hc]

theorem sent_step {l : List Ev} {s : St} (hi : Inv l s) (hs : Sent l s) (e : Ev) (hen : e.enc = true) : Sent (l ++ [e]) (step s e) := by
  rcases did hi e with ⟨L, rfl, h⟩ | ⟨L, m, rfl, hk, hm, hst⟩ | ⟨L, m, rfl, hk, hm, hst⟩ | ⟨L, m, rfl, hk, hx, hm, hst⟩ | ⟨hst, ha, hsa, hl, hd⟩
  · obtain ⟨sent, he, hnew, hse⟩ := loop_eq (L := L) hi h
    have ha : asked l < 10000 := by rw [← hi.next]; exact h
    have hasn := asked_snoc_loop l L ha
    have hlo := asked_eq ha
    have hL : L.enc = true := hen
    rw [if_pos hL] at hse
    rw [he]
    have hp : ∀ u, sentOf { ({ s with ops := ⟨imsiOf s.next, .sai, false⟩ :: s.ops, sent := sent }.count .sai (fun u => { u with alloc := u.alloc + 1 })) with next := s.next + 1 } u
        = sentOf s u ++ if SEND_AUTH_INFO = u then [imsiOf s.next] else [] := fun u => sentOf_append hse
    constructor
    case idle =>
      intro o ho
      rcases List.mem_cons.1 ho with rfl | ho
      · simp
      · exact hs.idle o ho
    case isdCount => rw [isdReqs_snoc]; simp only [isdOf, Option.toList_none, List.append_nil]; exact hs.isdCount
    case sai => rw [hp, hs.sai, hasn, List.range_succ, List.map_append, hi.next]; rfl
    case isd => rw [hp, hs.isd, isdReqs_snoc]; rfl
    case lu =>
      intro i h'
      rw [hasn] at h'
      rw [hp]
      rw [if_neg (by decide), List.append_nil]
      by_cases hc : i = asked l
      · subst hc
        rw [saiAnswer_new _ _ _ (by omega), if_pos rfl]
        apply List.count_eq_zero.2
        intro hin
        obtain ⟨j, hj, hje⟩ := hs.luOurs _ hin
        have := imsiOf_inj ha (by omega) hje
        omega
      · rw [hs.lu i (by omega), sai_same (by omega) (.inl rfl)]
    case luOurs =>
      intro x hx
      rw [hp, if_neg (by decide), List.append_nil] at hx
      obtain ⟨i, h1, h2⟩ := hs.luOurs x hx
      exact ⟨i, by omega, h2⟩
    case types =>
      intro m hm
      have hm' : m ∈ sent := hm
      rw [hse] at hm'
      rcases List.mem_append.1 hm' with hm' | hm'
      · exact hs.types m hm'
      · rw [List.mem_singleton.1 hm']; exact .inl rfl
  · obtain ⟨j, hj, hx⟩ := hi.ours _ hm (by simp)
    dsimp only at hx
    have hj' : j < 10000 := Nat.lt_of_lt_of_le hj (asked_le' l)
    rw [hx] at hm hst
    have hnone := (hi.sai j hj).1 hm
    have hnl : (⟨imsiOf j, .lu, false⟩ : Op) ∉ s.ops := fun h => ((hi.lu j hj).1 h).1 hnone
    have ha : asked (l ++ [.rx L (some m)]) = asked l := asked_snoc_rx _ _ rfl
    obtain ⟨sent, he, hse⟩ := saiRx_eq (L := L) (typ := m.typ) hi.plain (imsiOf_short j) hnl
    have hL : L.enc = true := hen
    rw [if_pos hL] at hse
    have hisd : isdOf (.rx L (some m)) = none := by
      unfold isdOf; dsimp only; rw [if_neg]; intro hc; simp only [SEND_AUTH_INFO, INSERT_DATA] at hk hc; omega
    rw [hst]
    have hp : ∀ u, sentOf (opRx L s ⟨imsiOf j, .sai, false⟩ m.typ) u = sentOf s u ++ if UPDATE_LOCATION = u then [imsiOf j] else [] :=
      fun u => by rw [he]; exact sentOf_append hse
    constructor
    case idle =>
      rw [he]
      intro o ho
      rcases List.mem_cons.1 (List.mem_of_mem_erase ho) with rfl | ho
      · simp
      · exact hs.idle o ho
    case isdCount => rw [isdReqs_snoc, hisd, he]; simpa using hs.isdCount
    case sai => rw [hp, hs.sai, ha]; exact List.append_nil _
    case isd => rw [hp, hs.isd, isdReqs_snoc, hisd]; rfl
    case lu =>
      intro i h'
      rw [ha] at h'
      rw [hp, if_pos rfl, List.count_append, hs.lu i h']
      by_cases hc : i = j
      · subst hc
        rw [saiAnswer_snoc _ _ _ (Nat.lt_of_lt_of_le h' (asked_le l)), hnone, ans_some ⟨hx, hk⟩]
        simp
      · rw [sai_same h' (.inl (ans_none (fun h2 => hc (imsiOf_inj (Nat.lt_of_lt_of_le h' (asked_le' l)) hj' (h2.1.symm.trans hx)))))]
        have : [imsiOf j].count (imsiOf i) = 0 := by
          apply List.count_eq_zero.2; intro h2
          exact hc (imsiOf_inj (Nat.lt_of_lt_of_le h' (asked_le' l)) hj' (List.mem_singleton.1 h2))
        rw [this]; rfl
    case luOurs =>
      intro x hx
      rw [ha]
      rw [hp, if_pos rfl] at hx
      rcases List.mem_append.1 hx with hx | hx
      · exact hs.luOurs x hx
      · exact ⟨j, hj, List.mem_singleton.1 hx⟩
    case types =>
      rw [he]
      intro m' hm
      have hm' : m' ∈ sent := hm
      rw [hse] at hm'
      rcases List.mem_append.1 hm' with hm' | hm'
      · exact hs.types m' hm'
      · rw [List.mem_singleton.1 hm']; exact .inr (.inl rfl)
  · have ha : asked (l ++ [.rx L (some m)]) = asked l := asked_snoc_rx _ _ rfl
    have hisd : isdOf (.rx L (some m)) = none := by
      unfold isdOf; dsimp only; rw [if_neg]; intro hc; simp only [UPDATE_LOCATION, INSERT_DATA] at hk hc; omega
    rw [hst, luRx_eq]
    constructor
    case idle => intro o ho; exact hs.idle o (List.mem_of_mem_erase ho)
    case isdCount => rw [isdReqs_snoc, hisd]; simpa using hs.isdCount
    case sai => rw [ha]; exact hs.sai
    case isd => rw [isdReqs_snoc, hisd, Option.toList_none, List.append_nil]; exact hs.isd
    case lu =>
      intro i h'
      rw [ha] at h'
      rw [sai_same h' (.inl (ans_none (fun hc => by simp only [SEND_AUTH_INFO, UPDATE_LOCATION] at hk hc; omega)))]
      exact hs.lu i h'
    case luOurs => rw [ha]; exact hs.luOurs
    case types => exact hs.types
  · have ha : asked (l ++ [.rx L (some m)]) = asked l := asked_snoc_rx _ _ rfl
    have hL : L.enc = true := hen
    have hisd : isdOf (.rx L (some m)) = some m.imsi := by
      unfold isdOf; dsimp only; rw [if_pos ⟨hk, hx⟩]
    have he := isdRx_eq (s := s) (L := L) m.short
    rw [if_pos hL, if_pos hL, if_pos hL] at he
    rw [hst, hk]
    have hp : ∀ u, sentOf (opRx L ({ s with ops := (⟨m.imsi, .isd, false⟩ : Op) :: s.ops }.count .isd (fun t => { t with alloc := t.alloc + 1 })) ⟨m.imsi, .isd, false⟩ INSERT_DATA) u
        = sentOf s u ++ if INSERT_DATA + 2 = u then [m.imsi] else [] := fun u => by rw [he]; exact sentOf_append rfl
    constructor
    case idle => rw [he]; exact hs.idle
    case isdCount => rw [isdReqs_snoc, hisd, he, List.length_append, ← hs.isdCount]; rfl
    case sai => rw [hp, hs.sai, ha]; exact List.append_nil _
    case isd => rw [hp, hs.isd, isdReqs_snoc, hisd]; rfl
    case lu =>
      intro i h'
      rw [ha] at h'
      rw [hp, if_neg (by decide), List.append_nil, sai_same h' (.inl (ans_none (fun hc => by simp only [SEND_AUTH_INFO, INSERT_DATA] at hk hc; omega)))]
      exact hs.lu i h'
    case luOurs => intro x hx; rw [hp, if_neg (by decide), List.append_nil] at hx; rw [ha]; exact hs.luOurs x hx
    case types =>
      rw [he]
      intro m' hm'
      rcases List.mem_append.1 hm' with hm' | hm'
      · exact hs.types m' hm'
      · rw [List.mem_singleton.1 hm']; exact .inr (.inr rfl)
  · have hisd : isdOf e = none := by
      cases h : isdOf e with
      | none => rfl
      | some x => exact absurd rfl (hs.idle _ (hd x h))
    rw [hst]
    constructor
    case idle => exact hs.idle
    case isdCount => rw [isdReqs_snoc, hisd]; simpa using hs.isdCount
    case sai => rw [ha]; exact hs.sai
    case isd => rw [isdReqs_snoc, hisd]; simpa using hs.isd
    case lu => intro i h'; rw [ha] at h'; rw [hsa i h']; exact hs.lu i h'
    case luOurs => rw [ha]; exact hs.luOurs
    case types => exact hs.types

theorem run_sent (l : List Ev) (h : ∀ e ∈ l, e.enc = true) : Sent l (run l) := by
  refine hist_induction (P := fun l => (∀ e ∈ l, e.enc = true) → Sent l (run l)) (fun _ => ?_) (fun l e ih h => ?_) l h
  · constructor <;> first | rfl | (intro i h; exact absurd h (by simp [asked])) | (intro x hx; cases hx)
  · rw [run_snoc]
    exact sent_step (run_inv l) (ih (fun e' he' => h e' (List.mem_append_left _ he'))) e (h e (by simp))

end Verif.TestClient
