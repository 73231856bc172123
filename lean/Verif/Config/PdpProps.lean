import Verif.Config.Props
/-!
# C63: PDP profiles

`Spec.apnOf s c` is the APN (encoded) of the profile with context id `c`, `none` if there is no such
profile; `sentPdps` are the PDP contexts in the messages that tell an SGSN about a subscriber.
-/
namespace Verif.Config
open Verif Verif.Sys Verif.Mslookup Verif.Mslookup.Mdns Verif.Config.Spec

theorem find_set {l : List Pdp} {i : Nat} {q : Pdp} {p : Pdp → Bool} (hi : i < l.length) (h1 : p l[i] = false) (h2 : p q = false) :
    (l.set i q).find? p = l.find? p := by
  induction l generalizing i with
  | nil => cases hi
  | cons x l ih =>
    cases i with
    | zero =>
      rw [List.set_cons_zero, List.find?_cons, List.find?_cons, h2]
      have h1 : p x = false := h1
      rw [h1]
    | succ i =>
      rw [List.set_cons_succ, List.find?_cons, List.find?_cons, ih (by simpa using hi) h1]

theorem find_modify {l : List Pdp} {i : Nat} {f : Pdp → Pdp} {p : Pdp → Bool} (h1 : ∀ x, l[i]? = some x → p x = false ∧ p (f x) = false) :
    (l.modify i f).find? p = l.find? p := by
  induction l generalizing i with
  | nil => cases i <;> rfl
  | cons x l ih =>
    cases i with
    | zero =>
      obtain ⟨h1, h2⟩ := h1 x rfl
      rw [List.modify_zero_cons, List.find?_cons, List.find?_cons, h2, h1]
    | succ i =>
      rw [List.modify_succ_cons, List.find?_cons, List.find?_cons, ih h1]

theorem find_ctx {l : List Pdp} (hn : (ctxs l).Nodup) {i : Nat} {p : Pdp} (hi : l[i]? = some p) (hp : p.ctx ≠ 0) :
    (l.find? fun x => x.ctx == p.ctx) = some p := by
  induction l generalizing i with
  | nil => cases hi
  | cons x l ih =>
    rw [ctxs_cons] at hn
    cases i with
    | zero =>
      cases hi
      rw [List.find?_cons, beq_self_eq_true]
    | succ i =>
      have hi : l[i]? = some p := hi
      have hm : p.ctx ∈ ctxs l := mem_ctxs.2 ⟨hp, p, List.mem_of_getElem? hi, rfl⟩
      by_cases hx : x.ctx = 0
      · rw [if_pos hx] at hn
        have : (x.ctx == p.ctx) = false := by rw [beq_eq_false_iff_ne, hx]; exact fun h => hp h.symm
        rw [List.find?_cons, this]
        exact ih hn hi
      · rw [if_neg hx, List.nodup_cons] at hn
        have : (x.ctx == p.ctx) = false := by
          rw [beq_eq_false_iff_ne]; intro h; rw [h] at hn; exact hn.1 hm
        rw [List.find?_cons, this]
        exact ih hn.2 hi

theorem find_none {l : List Pdp} {c : Nat} (h : ∀ p ∈ l, p.ctx ≠ c) : (l.find? fun x => x.ctx == c) = none :=
  List.find?_eq_none.2 fun x hx e => h x hx (by simpa using e)

theorem nodup_le {l m : List Nat} (hn : l.Nodup) (h : l ⊆ m) : l.length ≤ m.length := by
  induction l generalizing m with
  | nil => exact Nat.zero_le _
  | cons x l ih =>
    rw [List.nodup_cons] at hn
    have hx := h List.mem_cons_self
    have : l ⊆ m.erase x := fun y hy => (List.mem_erase_of_ne (fun e : y = x => hn.1 (e ▸ hy))).2 (h (List.mem_cons_of_mem _ hy))
    have := ih hn.2 this
    rw [List.length_erase_of_mem hx] at this
    have := List.length_pos_of_mem hx
    rw [List.length_cons]
    omega

/-- More than ten context ids in use there are not: a profile finds a free slot. -/
theorem free_slot {e : Env} {s : St} (h : Inv e s) {c : Nat} (hc : 1 ≤ c ∧ c ≤ 10) (hn : getPdp c s.slots = none) :
    ∃ i, getPdp 0 s.slots = some i := by
  cases hg : getPdp 0 s.slots with
  | some i => exact ⟨i, rfl⟩
  | none =>
    exfalso
    have hl : ctxs s.slots = s.slots.map (·.ctx) := by
      have := getPdp_none hg
      generalize s.slots = l at this ⊢
      induction l with
      | nil => rfl
      | cons p l ih =>
        rw [ctxs_cons, if_neg (this p List.mem_cons_self), ih fun q hq => this q (List.mem_cons_of_mem _ hq)]
        rfl
    have hlen : (c :: ctxs s.slots).length = 11 := by rw [List.length_cons, hl, List.length_map, h.slots]
    have hnd : (c :: ctxs s.slots).Nodup := List.nodup_cons.2 ⟨fun hm => by
      obtain ⟨-, p, hp, hpc⟩ := mem_ctxs.1 hm
      exact getPdp_none hn p hp hpc, h.ctx⟩
    have hsub : (c :: ctxs s.slots) ⊆ List.range' 1 10 := by
      intro x hx
      rw [List.mem_range'_1]
      rcases List.mem_cons.1 hx with rfl | hx
      · omega
      · obtain ⟨h0, p, hp, rfl⟩ := mem_ctxs.1 hx
        have := (h.pdp p hp).2.1
        omega
    have := nodup_le hnd hsub
    rw [hlen, List.length_range'] at this
    omega


/-- Setting up a profile always succeeds, also when all the others are there; it changes no other
profile, nor this one if it is there already, and leads to the place where it is configured. -/
theorem c63_profile (e : Env) (h : List Input) (hv : ∀ x ∈ h, x.valid = true) (file : Bool) (n : Node) (c : Nat)
    (hc : 1 ≤ c ∧ c ≤ 10) :
    ∃ i s, exec file n (config e h) (.profile c) = (.ok, .profile i, s) ∧ (s.slots[i]?).map (·.ctx) = some c ∧
      apnOf s c = some ((apnOf (config e h) c).getD none) ∧
      ∀ d, d ≠ 0 → d ≠ c → apnOf s d = apnOf (config e h) d := by
  have hi := inv_config e h hv
  generalize config e h = s at hi ⊢
  unfold exec
  dsimp only
  cases hg : getPdp c s.slots with
  | some i =>
    obtain ⟨hl, h1, -⟩ := getPdp_some hg
    have hf := find_ctx hi.ctx (List.getElem?_eq_getElem hl) (by omega)
    rw [h1] at hf
    refine ⟨i, s, rfl, by rw [List.getElem?_eq_getElem hl, Option.map_some, h1], ?_, fun _ _ _ => rfl⟩
    unfold apnOf
    rw [hf]
    rfl
  | none =>
    obtain ⟨i, h0⟩ := free_slot hi hc hg
    obtain ⟨hl, h1, -⟩ := getPdp_some h0
    have hinv := inv_profile hi hc hg (i := i) (s' := { s with slots := s.slots.set i { ctx := c, info := true }, num := s.num + 1 })
      (by unfold createPdp; rw [h0]; rfl)
    refine ⟨i, { s with slots := s.slots.set i { ctx := c, info := true }, num := s.num + 1 }, ?_, ?_, ?_, ?_⟩
    · unfold createPdp
      rw [h0]
      rfl
    · rw [List.getElem?_set_self hl]
      rfl
    · unfold apnOf
      rw [find_none (getPdp_none hg)]
      rw [show c = ({ ctx := c, info := true } : Pdp).ctx from rfl, find_ctx hinv.ctx (i := i) (List.getElem?_set_self hl)
        (show c ≠ 0 by omega)]
      rfl
    · intro d h0 hd
      unfold apnOf
      rw [find_set hl (by rw [h1, beq_eq_false_iff_ne]; exact fun e => h0 e.symm)
        (by rw [beq_eq_false_iff_ne]; exact fun e => hd e.symm)]

/-- Removing a profile removes it, and changes no other one. -/
theorem c63_noProfile (e : Env) (h : List Input) (hv : ∀ x ∈ h, x.valid = true) (file : Bool) (n : Node) (c : Nat)
    (hc : 1 ≤ c ∧ c ≤ 10) :
    ∃ s, exec file n (config e h) (.noProfile c) = (.ok, n, s) ∧ apnOf s c = none ∧
      ∀ d, d ≠ 0 → d ≠ c → apnOf s d = apnOf (config e h) d := by
  have hi := inv_config e h hv
  generalize config e h = s at hi ⊢
  unfold exec
  dsimp only
  cases hg : getPdp c s.slots with
  | none =>
    refine ⟨s, rfl, ?_, fun _ _ _ => rfl⟩
    unfold apnOf
    rw [find_none (getPdp_none hg)]
    rfl
  | some i =>
    obtain ⟨hl, h1, -⟩ := getPdp_some hg
    refine ⟨destroyPdp i s, rfl, ?_, ?_⟩
    · have hp := ctxs_set_used hl (by omega) (q := {}) rfl
      have hn := hp.nodup_iff.1 hi.ctx
      rw [List.nodup_cons, h1] at hn
      unfold apnOf
      rw [find_none]
      · rfl
      · intro p hp hpc
        exact hn.1 (mem_ctxs.2 ⟨by omega, p, hp, hpc⟩)
    · intro d h0 hd
      unfold apnOf destroyPdp
      dsimp only
      rw [find_set hl (by rw [h1, beq_eq_false_iff_ne]; exact fun e => hd e.symm)
        (by rw [beq_eq_false_iff_ne]; exact fun e => h0 e.symm)]

/-- In the place where the profile `c` is configured, `apn` gives it this APN, or is refused and
changes nothing if the APN is too long, and `no apn` takes its APN; no other profile is changed. -/
theorem c63_apn (e : Env) (h : List Input) (hv : ∀ x ∈ h, x.valid = true) (file : Bool) (i c : Nat) (hc : c ≠ 0)
    (hi : ((config e h).slots[i]?).map (·.ctx) = some c) (a : Bytes) :
    (a.length ≤ 99 → ∃ s, exec file (.profile i) (config e h) (.apn a) = (.ok, .profile i, s) ∧
      apnOf s c = some (some (apnEnc a)) ∧ ∀ d, d ≠ c → apnOf s d = apnOf (config e h) d) ∧
    (99 < a.length → exec file (.profile i) (config e h) (.apn a) = (.incomplete, .profile i, config e h)) ∧
    (∃ s, exec file (.profile i) (config e h) .noApn = (.ok, .profile i, s) ∧
      apnOf s c = some none ∧ ∀ d, d ≠ c → apnOf s d = apnOf (config e h) d) := by
  have hinv := inv_config e h hv
  generalize config e h = s at hi hinv ⊢
  obtain ⟨p, hp, hpc⟩ := Option.map_eq_some_iff.1 hi
  have key : ∀ f : Pdp → Pdp, (∀ p, (f p).ctx = p.ctx) →
      apnOf { s with slots := s.slots.modify i f } c = some (f p).apn ∧
      ∀ d, d ≠ c → apnOf { s with slots := s.slots.modify i f } d = apnOf s d := by
    intro f hf
    constructor
    · unfold apnOf
      dsimp only
      have hn : (ctxs (s.slots.modify i f)).Nodup := by rw [ctxs_modify hf]; exact hinv.ctx
      have hg : (s.slots.modify i f)[i]? = some (f p) := by rw [List.getElem?_modify_eq, hp]; rfl
      have := find_ctx hn hg (by rw [hf, hpc]; exact hc)
      rw [hf, hpc] at this
      rw [this]
      rfl
    · intro d hd
      unfold apnOf
      dsimp only
      rw [find_modify]
      intro x hx
      rw [hp] at hx
      cases hx
      rw [hf, hpc, beq_eq_false_iff_ne]
      exact ⟨fun e => hd e.symm, fun e => hd e.symm⟩
  refine ⟨fun ha => ?_, fun ha => ?_, ?_⟩
  · obtain ⟨k1, k2⟩ := key (fun p => { p with apn := some (apnEnc a) }) (fun _ => rfl)
    refine ⟨_, ?_, k1, k2⟩
    unfold exec
    dsimp only
    rw [if_neg (show ¬ a.length + 1 > 100 by omega)]
  · unfold exec
    dsimp only
    rw [if_pos (show a.length + 1 > 100 by omega)]
  · obtain ⟨k1, k2⟩ := key (fun p => { p with apn := none }) (fun _ => rfl)
    exact ⟨_, rfl, k1, k2⟩

/-- The commands of the profiles. -/
def isPdp : Cmd → Bool
  | .profile _ | .noProfile _ | .apn _ | .noApn => true
  | _ => false

theorem exec_notPdp (file : Bool) (n : Node) (s : St) {c : Cmd} (h : isPdp c = false) :
    (exec file n s c).2.2.slots = s.slots ∧ (exec file n s c).2.2.num = s.num := by
  cases c with
  | _ =>
    first
      | cases h; done
      | (unfold exec
         try dsimp only
         repeat' split
         all_goals first
           | exact ⟨rfl, rfl⟩
           | (obtain ⟨m, hm⟩ := execMsl_msl n s _; rw [hm]; exact ⟨rfl, rfl⟩))

/-- No other command changes a profile. -/
theorem c63_others (file : Bool) (n : Node) (s : St) (c : Cmd) (h : isPdp c = false) (d : Nat) :
    apnOf (exec file n s c).2.2 d = apnOf s d := by
  unfold apnOf
  rw [(exec_notPdp file n s h).1]

theorem slot_exec (file : Bool) (n : Node) (s : St) {x : Cmd} {i c : Nat} (hc : c ≠ 0) (hx : x ≠ .noProfile c)
    (h : (s.slots[i]?).map (·.ctx) = some c) : ((exec file n s x).2.2.slots[i]?).map (·.ctx) = some c := by
  have hm : ∀ (f : Pdp → Pdp) j, (∀ p, (f p).ctx = p.ctx) → ((s.slots.modify j f)[i]?).map (·.ctx) = some c := by
    intro f j hf
    rw [List.getElem?_modify, ← h]
    cases s.slots[i]? with
    | none => rfl
    | some p =>
      show some _ = some _
      split <;> simp [hf]
  have hs : ∀ j p (hj : j < s.slots.length), s.slots[j].ctx ≠ c → ((s.slots.set j p)[i]?).map (·.ctx) = some c := by
    intro j p hj hne
    rw [List.getElem?_set_ne]
    · exact h
    · rintro rfl
      rw [List.getElem?_eq_getElem hj] at h
      exact hne (Option.some.inj h)
  by_cases hp : isPdp x = true
  case neg => rw [(exec_notPdp file n s (by simpa using hp)).1]; exact h
  cases x with
  | profile d =>
    unfold exec
    dsimp only
    split
    · exact h
    · split
      · rename_i j s' hs'
        obtain ⟨k, hk, he⟩ := Option.map_eq_some_iff.1 hs'
        cases he
        obtain ⟨hl, h1, -⟩ := getPdp_some hk
        exact hs _ _ hl (by rw [h1]; exact fun e => hc e.symm)
      · exact h
  | noProfile d =>
    unfold exec
    dsimp only
    split
    · rename_i j hj
      obtain ⟨hl, h1, -⟩ := getPdp_some hj
      exact hs _ _ hl (by rw [h1]; rintro rfl; exact hx rfl)
    · exact h
  | apn a =>
    unfold exec
    dsimp only
    split
    · split
      · exact h
      · exact hm _ _ fun _ => rfl
    · exact h
  | noApn =>
    unfold exec
    dsimp only
    split
    · exact hm _ _ fun _ => rfl
    · exact h
  | _ => cases hp

/-- The place where a profile is configured stays that of the same profile as long as the profile is
not removed, whatever other sessions do. -/
theorem c63_place_partial (e : Env) (h g : List Input) (i c : Nat) (hc : c ≠ 0)
    (hi : ((config e h).slots[i]?).map (·.ctx) = some c) (hg : ∀ x ∈ g, parse e x.node x.words ≠ some (.noProfile c)) :
    ((config e (h ++ g)).slots[i]?).map (·.ctx) = some c := by
  unfold config at *
  rw [List.foldl_append]
  generalize h.foldl (after e) {} = s at hi ⊢
  induction g generalizing s with
  | nil => exact hi
  | cons x g ih =>
    refine ih (fun y hy => hg y (List.mem_cons_of_mem _ hy)) _ ?_
    unfold after
    split
    · exact hi
    · rename_i y hy
      exact slot_exec _ _ _ hc (fun e => hg x List.mem_cons_self (e ▸ hy)) hi

/-! ## What is sent -/

theorem ctxs_filter (l : List Pdp) : ctxs l = (l.filter fun p => p.ctx != 0).map (·.ctx) := by
  induction l with
  | nil => rfl
  | cons p l ih =>
    rw [ctxs_cons, List.filter_cons, ih]
    by_cases h : p.ctx = 0
    · rw [if_pos h, if_neg (by simpa using h)]
    · rw [if_neg h, if_pos (by simpa using h)]
      rfl

theorem take_filter {l : List Pdp} {n : Nat} (hn : n = (l.filter fun p => p.ctx != 0).length) :
    (∀ p ∈ l.take n, p.ctx ≠ 0) ↔ l.take n = l.filter fun p => p.ctx != 0 := by
  constructor
  · intro h
    have h1 : (l.take n).filter (fun p => p.ctx != 0) = l.take n :=
      List.filter_eq_self.2 fun p hp => by simpa using h p hp
    have h2 : l.filter (fun p => p.ctx != 0) = l.take n ++ (l.drop n).filter fun p => p.ctx != 0 := by
      rw [← h1, ← List.filter_append, List.take_append_drop]
    have h3 := congrArg List.length h2
    rw [List.length_append, List.length_take, ← hn] at h3
    have h4 : n ≤ l.length := by rw [hn]; exact List.length_filter_le ..
    rw [h2, List.eq_nil_of_length_eq_zero (l := (l.drop n).filter _) (by omega), List.append_nil]
  · intro h p hp
    rw [h] at hp
    simpa using (List.mem_filter.1 hp).2

/-- With the profiles enabled, exactly the configured ones are sent if and only if no empty one is
sent among them. -/
theorem c63_sent_iff (e : Env) (h : List Input) (hv : ∀ x ∈ h, x.valid = true) (on : (config e h).pdpOn = true) :
    (∀ p ∈ sentPdps (config e h), p.ctx ≠ 0) ↔
    ∀ p, p ∈ sentPdps (config e h) ↔ p.ctx ≠ 0 ∧ p ∈ (config e h).slots := by
  have hi := inv_config e h hv
  have hn := hi.num
  rw [ctxs_filter, List.length_map] at hn
  unfold sentPdps
  rw [if_pos on, take_filter hn]
  constructor
  · intro h p
    rw [h, List.mem_filter, and_comm]
    simp
  · intro h
    exact (take_filter hn).1 fun p hp => ((h p).1 hp).1

/-- There are no holes between the profiles. -/
def Packed (s : St) : Prop := ∀ (i : Nat) (p : Pdp), s.slots[i]? = some p → (p.ctx ≠ 0 ↔ i < s.num)

theorem packed_exec {s : St} (h : Packed s) (file : Bool) (n : Node) {c : Cmd} (hc : ∀ x, c ≠ .noProfile x)
    (h0 : ∀ x, c = .profile x → x ≠ 0) : Packed (exec file n s c).2.2 := by
  have hm : ∀ (f : Pdp → Pdp) j, (∀ p, (f p).ctx = p.ctx) → Packed { s with slots := s.slots.modify j f } := by
    intro f j hf i p hp
    have hp : (s.slots.modify j f)[i]? = some p := hp
    rw [List.getElem?_modify] at hp
    cases hs : s.slots[i]? with
    | none => rw [hs] at hp; cases hp
    | some q =>
      rw [hs] at hp
      have hp : some _ = some p := hp
      cases hp
      have : (if j = i then f q else q).ctx = q.ctx := by split <;> simp [hf]
      rw [this]
      exact h i q hs
  by_cases hp : isPdp c = true
  case neg =>
    obtain ⟨h1, h2⟩ := exec_notPdp file n s (by simpa using hp : isPdp c = false)
    unfold Packed
    rw [h1, h2]
    exact h
  cases c with
  | profile d =>
    unfold exec
    dsimp only
    split
    · exact h
    · split
      · rename_i j s' hs'
        obtain ⟨k, hk, he⟩ := Option.map_eq_some_iff.1 hs'
        obtain ⟨rfl, rfl⟩ := Prod.mk.inj he
        obtain ⟨hl, h1, h2⟩ := getPdp_some hk
        have hk : k = s.num := by
          have a1 : ¬ k < s.num := fun hlt => (h k _ (List.getElem?_eq_getElem hl)).2 hlt h1
          have a2 : ¬ s.num < k := fun hlt => by
            have := (h s.num _ (List.getElem?_eq_getElem (by omega))).1 (h2 s.num hlt)
            omega
          omega
        intro i p hp
        have hp : (s.slots.set k { ctx := d, info := true })[i]? = some p := hp
        show _ ↔ i < s.num + 1
        by_cases hik : k = i
        · subst hik
          rw [List.getElem?_set_self hl] at hp
          cases hp
          have := h0 d rfl
          exact ⟨fun _ => by omega, fun _ => this⟩
        · rw [List.getElem?_set_ne hik] at hp
          rw [h i p hp]
          omega
      · exact h
  | noProfile d => exact absurd rfl (hc d)
  | apn a =>
    unfold exec
    dsimp only
    split
    · split
      · exact h
      · exact hm _ _ fun _ => rfl
    · exact h
  | noApn =>
    unfold exec
    dsimp only
    split
    · exact hm _ _ fun _ => rfl
    · exact h
  | _ => cases hp

theorem packed_config (e : Env) (h : List Input) (hv : ∀ x ∈ h, x.valid = true)
    (hn : ∀ x ∈ h, ∀ c, parse e x.node x.words ≠ some (.noProfile c)) : Packed (config e h) := by
  unfold config
  have : Packed {} := by
    intro i p hp
    have hp : (List.replicate 10 ({} : Pdp))[i]? = some p := hp
    have := List.eq_of_mem_replicate (List.mem_of_getElem? hp)
    subst this
    exact ⟨fun h => absurd rfl h, fun h => absurd h (Nat.not_lt_zero i)⟩
  generalize ({} : St) = s at this ⊢
  induction h generalizing s with
  | nil => exact this
  | cons x h ih =>
    refine ih (fun y hy => hv y (List.mem_cons_of_mem _ hy)) (fun y hy => hn y (List.mem_cons_of_mem _ hy)) _ ?_
    unfold after
    split
    · exact this
    · rename_i c hc
      refine packed_exec this _ _ (fun y e => hn x List.mem_cons_self y (e ▸ hc)) ?_
      rintro y rfl
      have := parse_ok (fun w hw => (goodWord_iff w).1 (List.all_eq_true.1 (hv x List.mem_cons_self) w hw)) hc
      have : 1 ≤ y ∧ y ≤ 10 := this
      omega

/-- C63: if no profile was ever removed and the profiles are enabled, an SGSN is sent exactly the
configured profiles, each once and with its APN.  Missing: a profile was removed
(`c63_hole_violated`). -/
theorem c63_sent_partial (e : Env) (h : List Input) (hv : ∀ x ∈ h, x.valid = true) (on : (config e h).pdpOn = true)
    (hn : ∀ x ∈ h, ∀ c, parse e x.node x.words ≠ some (.noProfile c)) :
    ((sentPdps (config e h)).map (·.ctx)).Nodup ∧
    ∀ c a, (∃ p ∈ sentPdps (config e h), p.ctx = c ∧ p.apn = a) ↔ c ≠ 0 ∧ apnOf (config e h) c = some a := by
  have hi := inv_config e h hv
  have hz : ∀ p ∈ sentPdps (config e h), p.ctx ≠ 0 := by
    unfold sentPdps
    rw [if_pos on]
    intro p hp
    obtain ⟨i, hl⟩ := List.getElem?_of_mem hp
    rw [List.getElem?_take] at hl
    split at hl
    · exact (packed_config e h hv hn i p hl).2 (by assumption)
    · cases hl
  have hs := (c63_sent_iff e h hv on).1 hz
  constructor
  · have hm := hi.num
    rw [ctxs_filter, List.length_map] at hm
    have hc := hi.ctx
    unfold sentPdps at hz ⊢
    rw [if_pos on] at hz ⊢
    rw [(take_filter hm).1 hz, ← ctxs_filter]
    exact hc
  · intro c a
    constructor
    · rintro ⟨p, hp, rfl, rfl⟩
      obtain ⟨h0, hm⟩ := (hs p).1 hp
      obtain ⟨i, hl⟩ := List.getElem?_of_mem hm
      refine ⟨h0, ?_⟩
      unfold apnOf
      rw [find_ctx hi.ctx hl h0]
      rfl
    · rintro ⟨h0, hc⟩
      obtain ⟨p, hp, hpa⟩ := Option.map_eq_some_iff.1 hc
      have hpc : p.ctx = c := by simpa using List.find?_some hp
      exact ⟨p, (hs p).2 ⟨by omega, List.mem_of_find?_eq_some hp⟩, hpc, hpa⟩

/-- Three profiles, one of them changed twice. -/
def exPdps : List Input :=
  [typed .ps ["pdp-profiles", "default"], typed .profiles ["profile", "3"], typed (.profile 0) ["apn", "internet"],
   typed .profiles ["profile", "1"], typed (.profile 1) ["apn", "ims"], typed (.profile 1) ["no", "apn"],
   typed .profiles ["profile", "7"], typed .profiles ["profile", "3"], typed (.profile 0) ["apn", "web.example"]]

example : (∀ x ∈ exPdps, x.valid = true) ∧ (config e0 exPdps).pdpOn = true ∧
    (sentPdps (config e0 exPdps)).map (fun p => (p.ctx, p.apn)) =
      [(3, some (apnEnc (b "web.example"))), (1, none), (7, none)] ∧
    ((config e0 exPdps).slots[0]?).map (·.ctx) = some 3 ∧ apnOf (config e0 exPdps) 3 = some (some (apnEnc (b "web.example"))) := by
  decide +kernel

example : ∀ x ∈ exPdps, ∀ c, parse e0 x.node x.words ≠ some (.noProfile c) := by
  intro x hx c
  have : ∀ x ∈ exPdps, (match parse e0 x.node x.words with | some (.noProfile _) => false | _ => true) = true := by decide +kernel
  have := this x hx
  intro e
  rw [e] at this
  cases this

/-- After a profile was removed, another one, which is still configured, is not sent; an empty one is
sent. -/
theorem c63_hole_violated : ∃ h : List Input, (∀ x ∈ h, x.valid = true) ∧ (config e0 h).pdpOn = true ∧
    apnOf (config e0 h) 2 = some (some (apnEnc (b "ims"))) ∧ (sentPdps (config e0 h)) = [{}] :=
  ⟨[typed .ps ["pdp-profiles", "default"], typed .profiles ["profile", "1"], typed .profiles ["profile", "2"],
    typed (.profile 1) ["apn", "ims"], typed .profiles ["no", "profile", "1"]],
    by decide +kernel, by decide +kernel, by decide +kernel, by decide +kernel⟩

/-- A session that configures profile 1 changes profile 2 when another session has removed profile 1
and set up profile 2. -/
theorem c63_place_violated : ∃ h g : List Input, (∀ x ∈ h ++ g, x.valid = true) ∧
    (exec false .profiles (config e0 h) (.profile 1)).2.1 = .profile 0 ∧
    apnOf (config e0 (h ++ typed .profiles ["profile", "1"] :: g)) 2 = some none ∧
    apnOf (config e0 (h ++ typed .profiles ["profile", "1"] :: g ++ [typed (.profile 0) ["apn", "ims"]])) 2 =
      some (some (apnEnc (b "ims"))) :=
  ⟨[typed .ps ["pdp-profiles", "default"]], [typed .profiles ["no", "profile", "1"], typed .profiles ["profile", "2"]],
    by decide +kernel, by decide +kernel, by decide +kernel, by decide +kernel⟩

end Verif.Config
