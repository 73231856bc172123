import Verif.Mslookup.ClientSpec
/-!
# The invariant of the mslookup client
-/
namespace Verif.Mslookup.Client
open Verif Verif.Mslookup Verif.Mslookup.Client.Spec

/-- The number of requests that can be made before handles repeat. -/
def MAX : Nat := 4294967294

/-- The handle of the request number `u`. -/
def hOf (u : Nat) : Nat := u % 4294967295 + 1

theorem hOf_small {u : Nat} (h : u ≤ MAX) : hOf u = u + 1 := by
  unfold hOf MAX at *
  omega

theorem hOf_pos (u : Nat) : hOf u ≠ 0 := by
  unfold hOf
  omega

theorem hOf_next (u : Nat) : (if (hOf u + 1) % 4294967296 = 0 then 1 else (hOf u + 1) % 4294967296) = hOf (u + 1) := by
  unfold hOf
  split <;> omega

theorem hOf_inj {b u v : Nat} (hu : b ≤ u ∧ u < b + 4294967295) (hv : b ≤ v ∧ v < b + 4294967295) (h : hOf u = hOf v) : u = v := by
  unfold hOf at h
  omega

/-- No handle was given out while it stood for another request, or there were too few
requests for that since the request number `b`. -/
def Fine (b : Nat) (c : Client) : Prop := c.clash = false ∨ c.uids ≤ b + 4294967295

/-- Requests are only added, and a clash is not forgotten. -/
def Mono (c c' : Client) : Prop := c.uids ≤ c'.uids ∧ (c'.clash = false → c.clash = false)

theorem Mono.refl (c : Client) : Mono c c := ⟨Nat.le_refl _, id⟩

theorem Mono.trans {a b c : Client} (h : Mono a b) (h' : Mono b c) : Mono a c :=
  ⟨Nat.le_trans h.1 h'.1, fun e => h.2 (h'.2 e)⟩

theorem Mono.fine {b : Nat} {c c' : Client} (h : Mono c c') (hf : Fine b c') : Fine b c :=
  hf.elim (fun e => .inl (h.2 e)) fun e => .inr (Nat.le_trans h.1 e)

/-! ## Lookups -/

@[simp] theorem hist_same (u : Nat) (o : Obs) (l : List (Nat × Obs)) : hist u ((u, o) :: l) = o :: hist u l := by
  simp [hist]

theorem hist_other {u v : Nat} (h : v ≠ u) (o : Obs) (l : List (Nat × Obs)) : hist u ((v, o) :: l) = hist u l := by
  simp [hist, h]

theorem req?_some {c : Client} {u : Nat} {r : Req} (h : c.req? u = some r) : r ∈ c.reqs ∧ r.uid = u := by
  refine ⟨List.mem_of_find?_eq_some h, ?_⟩
  have := List.find?_some h
  simpa using this

theorem find_eq {l : List Req} (hn : (l.map (·.uid)).Nodup) {r : Req} (hr : r ∈ l) :
    l.find? (·.uid == r.uid) = some r := by
  induction l with
  | nil => cases hr
  | cons x l ih =>
    rw [List.map_cons, List.nodup_cons] at hn
    rcases List.mem_cons.1 hr with rfl | hr
    · rw [List.find?_cons_of_pos (by simp)]
    · have : x.uid ≠ r.uid := fun e => hn.1 (e ▸ List.mem_map_of_mem (f := (·.uid)) hr)
      rw [List.find?_cons_of_neg (by simpa using this), ih hn.2 hr]

theorem put_uids (c : Client) (r : Req) : (c.put r).reqs.map (·.uid) = c.reqs.map (·.uid) := by
  unfold Client.put
  rw [List.map_map]
  apply List.map_congr_left
  intro x _
  simp only [Function.comp]
  split
  · rename_i h; exact h.symm
  · rfl

theorem mem_put {c : Client} {r x : Req} (h : x ∈ (c.put r).reqs) : (x = r ∧ ∃ r0 ∈ c.reqs, r0.uid = r.uid)
    ∨ (x ∈ c.reqs ∧ x.uid ≠ r.uid) := by
  obtain ⟨y, hy, e⟩ := List.mem_map.1 h
  split at e
  · rename_i hu
    exact .inl ⟨e.symm, y, hy, hu⟩
  · rename_i hu
    subst e
    exact .inr ⟨hy, hu⟩

theorem req?_put_self {c : Client} {r r0 : Req} (h : c.req? r.uid = some r0) : (c.put r).req? r.uid = some r := by
  unfold Client.req? Client.put at *
  dsimp only
  generalize c.reqs = l at h
  induction l with
  | nil => cases h
  | cons x l ih =>
    rw [List.map_cons]
    by_cases hx : x.uid = r.uid
    · rw [if_pos hx, List.find?_cons_of_pos (by simp)]
    · rw [if_neg hx, List.find?_cons_of_neg (by simpa using hx)]
      rw [List.find?_cons_of_neg (by simpa using hx)] at h
      exact ih h

theorem req?_put_other {c : Client} {r : Req} {u : Nat} (h : u ≠ r.uid) : (c.put r).req? u = c.req? u := by
  unfold Client.req? Client.put
  dsimp only
  generalize c.reqs = l
  induction l with
  | nil => rfl
  | cons x l ih =>
    rw [List.map_cons]
    by_cases hx : x.uid = r.uid
    · rw [if_pos hx, List.find?_cons_of_neg (by simpa using fun e : r.uid = u => h e.symm),
        List.find?_cons_of_neg (by simpa using fun e : x.uid = u => h (e.symm.trans hx)), ih]
    · rw [if_neg hx]
      by_cases hxu : x.uid = u
      · rw [List.find?_cons_of_pos (by simpa using hxu), List.find?_cons_of_pos (by simpa using hxu)]
      · rw [List.find?_cons_of_neg (by simpa using hxu), List.find?_cons_of_neg (by simpa using hxu), ih]

theorem req?_cleanup_self (c : Client) (u : Nat) : (c.cleanup u).req? u = none := by
  unfold Client.req? Client.cleanup
  rw [List.find?_eq_none]
  intro x hx
  have := (List.mem_filter.1 hx).2
  simpa using this

theorem req?_cleanup_other {c : Client} {u v : Nat} (h : v ≠ u) : (c.cleanup u).req? v = c.req? v := by
  unfold Client.req? Client.cleanup
  dsimp only
  rw [List.find?_filter]
  congr 1
  funext x
  by_cases e : x.uid = v
  · simp [e, h]
  · simp [e]

theorem put_self {c : Client} (hn : (c.reqs.map (·.uid)).Nodup) {r : Req} (hr : r ∈ c.reqs) : c.put r = c := by
  unfold Client.put
  have : c.reqs.map (fun x => if x.uid = r.uid then r else x) = c.reqs := by
    conv => rhs; rw [← List.map_id c.reqs]
    apply List.map_congr_left
    intro x hx
    split
    · rename_i e
      have h1 := find_eq hn hx
      rw [e, find_eq hn hr] at h1
      exact Option.some.inj h1
    · rfl
  rw [this]

/-! ## The invariant -/

/-- What is stored for a request that is under way agrees with its history. -/
structure Live (r : Req) (t : List Obs) : Prop where
  best : r.result.rc = .result → ∃ x, Best x (arrived t) ∧ Same r.result x
  none : r.result.rc ≠ .result → arrived t = []
  quiet : r.waiting = true → reported t = []
  told : r.waiting = false → Waited t ∧ (r.result.rc = .result → ∃ y ∈ reported t, Same y r.result)
  old : ∀ y ∈ reported t, r.result.rc = .result ∧ r.result.age ≤ y.age
  wait : r.waiting = true → r.minWait ≠ 0
  ticks : expiries t + (if r.waiting then phases r.minWait r.timeout else 1) = phases r.minWait r.timeout
  young : r.result.rc = .result → r.result.age ≠ 0

/-- `X` is the request that is being worked on; the requests before the number `b` are gone. -/
structure Inv (b : Nat) (X : Option Nat) (c : Client) : Prop where
  low : b ≤ c.uids ∧ ∀ r ∈ c.reqs, b ≤ r.uid
  clash : c.clash = false
  next : (if c.next = 0 then 1 else c.next) = hOf c.uids
  nodup : (c.reqs.map (·.uid)).Nodup
  uniq : ∀ x ∈ c.reqs, ∀ y ∈ c.reqs, x.handle = y.handle → x.uid = y.uid
  base : ∀ r ∈ c.reqs, r.uid < c.uids ∧ r.handle = hOf r.uid
    ∧ Obs.issued r.handle r.minWait r.timeout ∈ hist r.uid c.log ∧ Obs.cancel ∉ hist r.uid c.log
  live : ∀ r ∈ c.reqs, some r.uid ≠ X → ¬ Ended (hist r.uid c.log) → Live r (hist r.uid c.log)
  ok : ∀ u, Ok (hist u c.log)
  fresh : ∀ u, c.uids ≤ u → hist u c.log = []
  known : ∀ u, u < c.uids → (∃ r, c.req? u = some r) ∨ Ended (hist u c.log) ∨ Obs.cancel ∈ hist u c.log
  handle : ∀ u h mn to, Obs.issued h mn to ∈ hist u c.log → h = hOf u

theorem Inv.weak {b : Nat} {c : Client} (h : Inv b none c) (X : Option Nat) : Inv b X c where
  low := h.low
  clash := h.clash
  next := h.next
  nodup := h.nodup
  uniq := h.uniq
  base := h.base
  live r hr _ := h.live r hr (fun e => by cases e)
  ok := h.ok
  fresh := h.fresh
  known := h.known
  handle := h.handle

theorem ended_cons {o : Obs} {t : List Obs} : Ended (o :: t) ↔ (∃ r, o = .cb r ∧ r.last = true) ∨ Ended t := by
  unfold Ended
  constructor
  · rintro ⟨r, h, hl⟩
    rcases List.mem_cons.1 h with e | h
    · exact .inl ⟨r, e.symm, hl⟩
    · exact .inr ⟨r, h, hl⟩
  · rintro (⟨r, rfl, hl⟩ | ⟨r, h, hl⟩)
    · exact ⟨r, List.mem_cons_self, hl⟩
    · exact ⟨r, List.mem_cons_of_mem _ h, hl⟩

/-- Writing to a request while something happens to it. -/
theorem Inv.upd {b : Nat} {X : Option Nat} {c : Client} (h : Inv b X c) {r r0 : Req} (hX : X = none ∨ X = some r.uid) {o : Obs}
    (h0 : c.req? r.uid = some r0) (hh : r.handle = r0.handle ∧ r.minWait = r0.minWait ∧ r.timeout = r0.timeout)
    (ha : Allowed (hist r.uid c.log) o) (ho : o ≠ .cancel) (hi : ∀ a b d, o ≠ .issued a b d) {Y : Option Nat}
    (hl : Y = some r.uid ∨ Y = none ∧ (¬ Ended (o :: hist r.uid c.log) → Live r (o :: hist r.uid c.log))) :
    Inv b Y ((c.put r).emit r.uid o) := by
  obtain ⟨m0, u0⟩ := req?_some h0
  have hY : ∀ v, v ≠ r.uid → (some v ≠ X) := by
    rintro v hv rfl
    rcases hX with e | e
    · cases e
    · exact hv (Option.some.inj e)
  constructor
  · refine ⟨h.low.1, fun x hx => ?_⟩
    rcases mem_put hx with ⟨rfl, -⟩ | ⟨hx, -⟩
    · rw [← u0]; exact h.low.2 r0 m0
    · exact h.low.2 x hx
  · exact h.clash
  · exact h.next
  · show ((c.put r).reqs.map _).Nodup
    rw [put_uids]; exact h.nodup
  · intro x hx y hy e
    rcases mem_put hx with ⟨rfl, -⟩ | ⟨hx, -⟩
    · rcases mem_put hy with ⟨rfl, -⟩ | ⟨hy, -⟩
      · rfl
      · rw [← h.uniq r0 m0 y hy (hh.1.symm.trans e), u0]
    · rcases mem_put hy with ⟨rfl, -⟩ | ⟨hy, -⟩
      · rw [h.uniq x (by assumption) r0 m0 (e.trans hh.1), u0]
      · exact h.uniq x (by assumption) y hy e
  · intro x hx
    rcases mem_put hx with ⟨rfl, -⟩ | ⟨hx, hne⟩
    · obtain ⟨b1, b2, b3, b4⟩ := h.base r0 m0
      refine ⟨by rw [← u0]; exact b1, by rw [hh.1, b2, u0], ?_, ?_⟩
      · show _ ∈ hist _ ((x.uid, o) :: c.log)
        rw [hist_same, hh.1, hh.2.1, hh.2.2, ← u0]
        exact List.mem_cons_of_mem _ b3
      · show _ ∉ hist _ ((x.uid, o) :: c.log)
        rw [hist_same]
        intro e
        rcases List.mem_cons.1 e with e | e
        · exact ho e.symm
        · exact b4 (by rw [u0]; exact e)
    · obtain ⟨b1, b2, b3, b4⟩ := h.base x hx
      refine ⟨b1, b2, ?_⟩
      show _ ∈ hist _ ((r.uid, o) :: c.log) ∧ _ ∉ hist _ ((r.uid, o) :: c.log)
      rw [hist_other (fun e => hne e.symm)]
      exact ⟨b3, b4⟩
  · intro x hx hxY he
    rcases mem_put hx with ⟨rfl, -⟩ | ⟨hx, hne⟩
    · rcases hl with rfl | ⟨-, hl⟩
      · exact absurd rfl hxY
      · have he : ¬ Ended (hist x.uid ((x.uid, o) :: c.log)) := he
        rw [hist_same] at he
        show Live _ (hist x.uid ((x.uid, o) :: c.log))
        rw [hist_same]
        exact hl he
    · have he : ¬ Ended (hist x.uid ((r.uid, o) :: c.log)) := he
      rw [hist_other (fun e => hne e.symm)] at he
      show Live _ (hist x.uid ((r.uid, o) :: c.log))
      rw [hist_other (fun e => hne e.symm)]
      exact h.live x hx (hY _ hne) he
  · intro u
    show Ok (hist u ((r.uid, o) :: c.log))
    by_cases e : r.uid = u
    · subst e
      rw [hist_same]
      exact ⟨h.ok _, ha⟩
    · rw [hist_other e]; exact h.ok u
  · intro u hu
    show hist u ((r.uid, o) :: c.log) = []
    have hu : c.uids ≤ u := hu
    have : r.uid < c.uids := by rw [← u0]; exact (h.base r0 m0).1
    rw [hist_other (by omega)]
    exact h.fresh u hu
  · intro u hu
    show (∃ x, (c.put r).req? u = some x) ∨ Ended (hist u ((r.uid, o) :: c.log)) ∨ _ ∈ hist u ((r.uid, o) :: c.log)
    by_cases e : r.uid = u
    · subst e
      exact .inl ⟨r, req?_put_self h0⟩
    · rw [hist_other e, req?_put_other (fun e' => e e'.symm)]
      exact h.known u hu
  · intro u a b d hm
    have hm : Obs.issued a b d ∈ hist u ((r.uid, o) :: c.log) := hm
    by_cases e : r.uid = u
    · subst e
      rw [hist_same] at hm
      rcases List.mem_cons.1 hm with e | hm
      · exact absurd e.symm (hi _ _ _)
      · exact h.handle _ _ _ _ hm
    · rw [hist_other e] at hm
      exact h.handle u a b d hm

/-- The request is gone. -/
theorem Inv.cleanup {b : Nat} {c : Client} (h : Inv b none c) {u : Nat} (hu : Ended (hist u c.log) ∨ Obs.cancel ∈ hist u c.log ∨ c.uids ≤ u) :
    Inv b none (c.cleanup u) where
  low := ⟨h.low.1, fun r hr => h.low.2 r (List.mem_filter.1 hr).1⟩
  clash := h.clash
  next := h.next
  nodup := h.nodup.sublist (List.Sublist.map _ List.filter_sublist)
  uniq x hx y hy := h.uniq x (List.mem_filter.1 hx).1 y (List.mem_filter.1 hy).1
  base r hr := h.base r (List.mem_filter.1 hr).1
  live r hr := h.live r (List.mem_filter.1 hr).1
  ok := h.ok
  fresh := h.fresh
  known v hv := by
    by_cases e : v = u
    · subst e
      rcases hu with hu | hu | hu
      · exact .inr (.inl hu)
      · exact .inr (.inr hu)
      · have hv : v < c.uids := hv
        omega
    · rw [req?_cleanup_other e]; exact h.known v hv
  handle := h.handle

theorem getReq_some {b : Nat} {X : Option Nat} {c : Client} (h : Inv b X c) {n : Nat} {r : Req} (hg : c.getReq n = some r) :
    n = r.handle ∧ n = hOf r.uid ∧ c.req? r.uid = some r := by
  unfold Client.getReq at hg
  split at hg
  · cases hg
  · have h1 := List.mem_of_find?_eq_some hg
    have h2 := List.find?_some hg
    have h2 : r.handle = n := by simpa using h2
    exact ⟨h2.symm, by rw [← h2, (h.base r h1).2.1], find_eq h.nodup h1⟩

/-- The handle of a request that is there finds it. -/
theorem getReq_of {b : Nat} {X : Option Nat} {c : Client} (h : Inv b X c) {u : Nat} {r : Req} (hr : c.req? u = some r) :
    c.getReq (hOf u) = some r := by
  obtain ⟨mr, rfl⟩ := req?_some hr
  have hb := (h.base r mr).2.1
  cases hg : c.getReq (hOf r.uid) with
  | none =>
    unfold Client.getReq at hg
    rw [if_neg (hOf_pos _)] at hg
    have := List.find?_eq_none.1 hg r mr
    simp [hb] at this
  | some x =>
    obtain ⟨e1, e2, hx⟩ := getReq_some h hg
    have := h.uniq r mr x (req?_some hx).1 (by rw [hb, e1])
    rw [← this, hr] at hx
    exact hx.symm

/-- While no handle repeats, a handle stands for one request. -/
theorem getReq_eq {b : Nat} {X : Option Nat} {c : Client} (h : Inv b X c) (hm : c.uids ≤ MAX) {u : Nat} (hu : u ≤ MAX) :
    c.getReq (u + 1) = c.req? u := by
  rw [← hOf_small hu]
  cases hr : c.req? u with
  | some r => exact getReq_of h hr
  | none =>
    cases hg : c.getReq (hOf u) with
    | none => rfl
    | some x =>
      obtain ⟨-, e, hx⟩ := getReq_some h hg
      have hb := (h.base x (req?_some hx).1).1
      unfold MAX at hm hu
      have : u = x.uid := hOf_inj (b := 0) (by omega) (by omega) e
      rw [this, hx] at hr
      cases hr

theorem drop_mono (c : Client) (h u : Nat) : Mono c (c.drop h u) := by
  unfold Client.drop
  split
  · exact Mono.refl _
  · exact ⟨Nat.le_refl _, fun e => (Bool.or_eq_false_iff.1 e).1⟩

theorem drop_eq {b : Nat} {X : Option Nat} {c : Client} (h : Inv b X c) {u : Nat} (hu : b ≤ u ∧ u < c.uids) (hf : Fine b (c.drop (hOf u) u)) :
    c.drop (hOf u) u = c.cleanup u := by
  unfold Client.drop at hf ⊢
  cases hg : c.getReq (hOf u) with
  | none =>
    show c = c.cleanup u
    unfold Client.cleanup
    have : c.reqs.filter (fun x => !(x.uid == u)) = c.reqs := by
      rw [List.filter_eq_self]
      intro x hx
      by_cases e : x.uid = u
      · have := getReq_of h (find_eq h.nodup hx)
        have hx' : c.req? u = some x := by rw [← e]; exact find_eq h.nodup hx
        rw [getReq_of h hx'] at hg
        cases hg
      · simpa using e
    rw [this]
  | some r =>
    rw [hg] at hf
    dsimp only at hf ⊢
    obtain ⟨-, e, hr⟩ := getReq_some h hg
    have hb := (h.base r (req?_some hr).1).1
    have : r.uid = u := by
      rcases hf with hf | hf
      · have := (Bool.or_eq_false_iff.1 hf).2
        simpa using this
      · have hf : c.uids ≤ b + 4294967295 := hf
        have := h.low.2 r (req?_some hr).1
        exact (hOf_inj (b := b) (by omega) (by omega) e).symm
    subst this
    unfold Client.cleanup
    simp [h.clash]

/-! ## What a callback may do to the requests `b` -/

def Frame (b : Nat → Prop) (c c' : Client) : Prop := ∀ u, b u →
  (hist u c'.log = hist u c.log ∧ c'.req? u = c.req? u)
  ∨ (hist u c'.log = .cancel :: hist u c.log ∧ (∃ r, c.req? u = some r) ∧ c'.req? u = none)

theorem Frame.refl (b : Nat → Prop) (c : Client) : Frame b c c := fun _ _ => .inl ⟨rfl, rfl⟩

theorem Frame.trans {b : Nat → Prop} {c1 c2 c3 : Client} (h : Frame b c1 c2) (h' : Frame b c2 c3) : Frame b c1 c3 := by
  intro u hu
  rcases h u hu with ⟨e1, e2⟩ | ⟨e1, e2, e3⟩
  · rcases h' u hu with ⟨f1, f2⟩ | ⟨f1, f2, f3⟩
    · exact .inl ⟨f1.trans e1, f2.trans e2⟩
    · exact .inr ⟨by rw [f1, e1], by rw [← e2]; exact f2, f3⟩
  · rcases h' u hu with ⟨f1, f2⟩ | ⟨f1, ⟨r, f2⟩, f3⟩
    · exact .inr ⟨f1.trans e1, e2, f2.trans e3⟩
    · rw [e3] at f2; cases f2

theorem Frame.mono {b b' : Nat → Prop} {c c' : Client} (h : Frame b c c') (hb : ∀ u, b' u → b u) : Frame b' c c' :=
  fun u hu => h u (hb u hu)

theorem Frame.upd {b : Nat → Prop} {c : Client} {r : Req} {o : Obs} (hb : ¬ b r.uid) :
    Frame b c ((c.put r).emit r.uid o) := by
  intro u hu
  have hne : r.uid ≠ u := fun e => hb (e ▸ hu)
  exact .inl ⟨hist_other hne _ _, req?_put_other (fun e => hne e.symm)⟩

theorem Frame.cleanup {b : Nat → Prop} {c : Client} {v : Nat} (hb : ¬ b v) : Frame b c (c.cleanup v) := by
  intro u hu
  have hne : u ≠ v := fun e => hb (e ▸ hu)
  exact .inl ⟨rfl, req?_cleanup_other hne⟩

/-- How long the timer of a request runs: the minimum wait, then the rest of the timeout. -/
def due (r : Req) : Nat := if r.waiting then r.minWait else r.timeout - r.minWait

/-- A request that has got its last result is gone, and otherwise its timer is armed. -/
def Qt (u : Nat) (c : Client) : Prop := ∀ r, c.req? u = some r → ¬ Ended (hist u c.log) ∧ r.timer = due r

theorem Qt.frame {b : Nat → Prop} {c c' : Client} {u : Nat} (h : Qt u c) (hf : Frame b c c') (hb : b u) : Qt u c' := by
  intro r hr
  rcases hf u hb with ⟨e1, e2⟩ | ⟨-, -, e⟩
  · rw [e1]; exact h r (by rw [← e2]; exact hr)
  · rw [e] at hr; cases hr

theorem Qt.gone {c : Client} {u : Nat} (h : c.req? u = none) : Qt u c := fun r hr => by rw [h] at hr; cases hr

theorem Qt.cleanup {c : Client} {u : Nat} (h : Qt u c) (v : Nat) : Qt u (c.cleanup v) := by
  by_cases e : u = v
  · subst e; exact Qt.gone (req?_cleanup_self _ _)
  · intro r hr
    rw [req?_cleanup_other e] at hr
    exact h r hr

/-- The calls from a callback keep the invariant and touch no request that was there before,
except to cancel it. -/
structure Good (b : Nat) (out : Client → Client) : Prop where
  mono : ∀ c, Mono c (out c)
  inv : ∀ c, Inv b none c → Fine b (out c) →
    Inv b none (out c) ∧ Frame (· < c.uids) c (out c) ∧ ∀ u, c.uids ≤ u → Qt u (out c)

theorem sendResult_uids {b : Nat} {out : Client → Client} (g : Good b out) (c : Client) (r : Req) (f : Bool) :
    Mono c (sendResult out c r f) := by
  unfold sendResult
  dsimp only
  have h1 : Mono c _ := g.mono ((c.put { r with result := { r.result with last := f } }).emit r.uid
    (.cb { r.result with last := f }))
  split
  · exact h1.trans (drop_mono _ _ _)
  · exact h1

theorem sendResult_spec {b : Nat} {out : Client → Client} (g : Good b out) {X : Option Nat} {c : Client} (h : Inv b X c) {r r0 : Req}
    (hX : X = none ∨ X = some r.uid) (h0 : c.req? r.uid = some r0)
    (hh : r.handle = r0.handle ∧ r.minWait = r0.minWait ∧ r.timeout = r0.timeout) (f : Bool)
    (ha : Allowed (hist r.uid c.log) (.cb { r.result with last := f }))
    (hl : f = false → Live { r with result := { r.result with last := f } } (.cb { r.result with last := f } :: hist r.uid c.log))
    (hm : Fine b (sendResult out c r f)) :
    Inv b none (sendResult out c r f) ∧ Frame (fun u => u < c.uids ∧ u ≠ r.uid) c (sendResult out c r f)
    ∧ (∀ u, c.uids ≤ u ∨ (u = r.uid ∧ (f = false → r.timer = due r)) → Qt u (sendResult out c r f))
    ∧ (f = false → ¬ Ended (hist r.uid (sendResult out c r f).log) ∧ ((sendResult out c r f).req? r.uid = none
      ∨ (sendResult out c r f).req? r.uid = some { r with result := { r.result with last := f } })) := by
  have hi : Inv b none ((c.put { r with result := { r.result with last := f } }).emit r.uid
      (.cb { r.result with last := f })) := by
    refine h.upd (r := { r with result := { r.result with last := f } }) hX h0 hh ha (fun e => by cases e)
      (fun _ _ _ e => by cases e) (.inr ⟨rfl, fun he => ?_⟩)
    cases f with
    | true => exact absurd (ended_cons.2 (.inl ⟨_, rfl, rfl⟩)) he
    | false => exact hl rfl
  have hfr : Frame (fun u => u < c.uids ∧ u ≠ r.uid) c ((c.put { r with result := { r.result with last := f } }).emit r.uid
      (.cb { r.result with last := f })) :=
    Frame.upd (r := { r with result := { r.result with last := f } }) (fun e => e.2 rfl)
  have hself : ((c.put { r with result := { r.result with last := f } }).emit r.uid
      (.cb { r.result with last := f })).req? r.uid = some { r with result := { r.result with last := f } } :=
    req?_put_self (r := { r with result := { r.result with last := f } }) h0
  have hlog : hist r.uid ((c.put { r with result := { r.result with last := f } }).emit r.uid
      (.cb { r.result with last := f })).log = .cb { r.result with last := f } :: hist r.uid c.log := hist_same _ _ _
  have hub : b ≤ r.uid := by
    obtain ⟨m0, u0⟩ := req?_some h0
    rw [← u0]; exact h.low.2 r0 m0
  have hu0 : r.uid < c.uids := by
    obtain ⟨m0, u0⟩ := req?_some h0
    rw [← u0]; exact (h.base r0 m0).1
  have hhan : r.handle = hOf r.uid := by
    obtain ⟨m0, u0⟩ := req?_some h0
    rw [hh.1, ← u0]; exact (h.base r0 m0).2.1
  unfold sendResult at hm ⊢
  dsimp only at hm ⊢
  generalize hc1 : (c.put { r with result := { r.result with last := f } }).emit r.uid
    (.cb { r.result with last := f }) = c1 at *
  have hc1u : c1.uids = c.uids := by rw [← hc1]; rfl
  cases f with
  | false =>
    rw [if_neg (by simp)] at hm ⊢
    obtain ⟨i2, f2, q2⟩ := g.inv c1 hi hm
    have hne : ¬ Ended (hist r.uid c1.log) := by
      rw [hlog]
      intro he
      rcases ended_cons.1 he with ⟨y, e, hy⟩ | he
      · cases e; cases hy
      · exact ha.1.2.1 he
    refine ⟨i2, hfr.trans (f2.mono fun u hu => by rw [hc1u]; exact hu.1), ?_, fun _ => ?_⟩
    · rintro u (hu | ⟨rfl, ht⟩)
      · exact q2 u (by rw [hc1u]; exact hu)
      · refine Qt.frame (c := c1) ?_ f2 (by rw [hc1u]; exact hu0)
        intro x hx
        rw [hself] at hx
        cases hx
        exact ⟨hne, ht rfl⟩
    rcases f2 r.uid (by rw [hc1u]; exact hu0) with ⟨e', e⟩ | ⟨e', -, e⟩
    · rw [e']; exact ⟨hne, .inr (e.trans hself)⟩
    · rw [e']
      refine ⟨fun he => ?_, .inl e⟩
      rcases ended_cons.1 he with ⟨y, e, hy⟩ | he
      · cases e
      · exact hne he
  | true =>
    rw [if_pos rfl] at hm ⊢
    have hm' : Fine b (out c1) := (drop_mono _ _ _).fine hm
    obtain ⟨i2, f2, q2⟩ := g.inv c1 hi hm'
    rw [hhan] at hm ⊢
    rw [drop_eq i2 ⟨hub, Nat.lt_of_lt_of_le (by rw [hc1u]; exact hu0) (g.mono c1).1⟩ hm]
    have hend : Ended (hist r.uid c1.log) := by rw [hlog]; exact ended_cons.2 (.inl ⟨_, rfl, rfl⟩)
    refine ⟨i2.cleanup (.inl ?_), (hfr.trans (f2.mono fun u hu => by rw [hc1u]; exact hu.1)).trans
      (Frame.cleanup fun e => e.2 rfl), ?_, fun e => by cases e⟩
    · rcases f2 r.uid (by rw [hc1u]; exact hu0) with ⟨e, -⟩ | ⟨e, -, -⟩
      · rw [e]; exact hend
      · rw [e]; exact ended_cons.2 (.inr hend)
    · rintro u (hu | ⟨rfl, -⟩)
      · exact (q2 u (by rw [hc1u]; exact hu)).cleanup _
      · exact Qt.gone (req?_cleanup_self _ _)

/-! ## The functions -/

theorem open_of {b : Nat} {X : Option Nat} {c : Client} (h : Inv b X c) {u : Nat} {r : Req} (hr : c.req? u = some r) (hq : Qt u c) :
    Open (hist u c.log) := by
  obtain ⟨m, rfl⟩ := req?_some hr
  obtain ⟨-, -, b3, b4⟩ := h.base r m
  exact ⟨⟨_, _, _, b3⟩, (hq r hr).1, b4⟩

theorem rxResult_uids {b : Nat} {out : Client → Client} (g : Good b out) (c : Client) (h : Nat) (res : Result) :
    Mono c (rxResult out c h res) := by
  unfold rxResult
  split
  · exact Mono.refl _
  · dsimp only
    split
    · exact Mono.refl _
    split
    · exact Mono.refl _
    split
    · exact Mono.trans (Mono.refl c) (sendResult_uids g ((c.emit _ _).put _) _ _)
    split
    · exact Mono.refl _
    · exact Mono.trans (Mono.refl c) (sendResult_uids g ((c.emit _ _).put _) _ _)

theorem Same.refl (r : Result) : Same r r := ⟨rfl, rfl, rfl⟩

theorem rxResult_spec {b : Nat} {out : Client → Client} (g : Good b out) {c : Client} (h : Inv b none c) (n u : Nat)
    (hn : ∀ r, c.getReq n = some r → r.uid = u) (hq : Qt u c)
    (res : Result) (hm : Fine b (rxResult out c n res)) :
    Inv b none (rxResult out c n res) ∧ Frame (fun v => v < c.uids ∧ v ≠ u) c (rxResult out c n res)
    ∧ (∀ v, c.uids ≤ v ∨ v = u → Qt v (rxResult out c n res)) := by
  unfold rxResult at hm ⊢
  cases hg : c.getReq n with
  | none =>
    refine ⟨h, Frame.refl _ _, ?_⟩
    rintro v (hv | rfl)
    · intro x hx
      obtain ⟨m, e⟩ := req?_some hx
      have := (h.base x m).1
      rw [e] at this; omega
    · exact hq
  | some r =>
    rw [hg] at hm
    obtain rfl := hn r hg
    have hr := (getReq_some h hg).2.2
    have mr := (req?_some hr).1
    have hop := open_of h hr hq
    have hlive := h.live r mr (fun e => by cases e) hop.2.1
    dsimp only at hm ⊢
    have arr : arrived (.rx res :: hist r.uid c.log) = if res.rc = .result then res :: arrived (hist r.uid c.log)
      else arrived (hist r.uid c.log) := rfl
    have rep : reported (.rx res :: hist r.uid c.log) = reported (hist r.uid c.log) := rfl
    have wai : Waited (hist r.uid c.log) → Waited (.rx res :: hist r.uid c.log) := by
      rintro (⟨a, b, hw⟩ | hw)
      · exact .inl ⟨a, b, List.mem_cons_of_mem _ hw⟩
      · exact .inr (List.mem_cons_of_mem _ hw)
    have hem : ∀ t : List Obs, ¬ Ended t → ¬ Ended (.rx res :: t) := by
      intro t ht he
      rcases ended_cons.1 he with ⟨y, e, -⟩ | he
      · cases e
      · exact ht he
    -- the case in which only the arrival is noted
    have note : (¬ Ended (.rx res :: hist r.uid c.log) → Live r (.rx res :: hist r.uid c.log)) →
        Inv b none (c.emit r.uid (.rx res)) ∧ Frame (fun v => v < c.uids ∧ v ≠ r.uid) c (c.emit r.uid (.rx res))
        ∧ (∀ v, c.uids ≤ v ∨ v = r.uid → Qt v (c.emit r.uid (.rx res))) := by
      intro hl
      have hi := h.upd (Y := none) (.inl rfl) hr ⟨rfl, rfl, rfl⟩ (o := .rx res) hop (fun e => by cases e) (fun _ _ _ e => by cases e)
        (.inr ⟨rfl, hl⟩)
      have hf : Frame (fun v => v < c.uids ∧ v ≠ r.uid) c ((c.put r).emit r.uid (.rx res)) := Frame.upd fun e => e.2 rfl
      rw [put_self h.nodup mr] at hi hf
      refine ⟨hi, hf, ?_⟩
      rintro v (hv | rfl)
      · intro x hx
        obtain ⟨m, e⟩ := req?_some hx
        have := (h.base x m).1
        rw [e] at this; omega
      · intro x hx
        show ¬ Ended (hist r.uid ((r.uid, .rx res) :: c.log)) ∧ _
        rw [hist_same]
        exact ⟨hem _ hop.2.1, (hq x hx).2⟩
    by_cases hrc : res.rc ≠ .result
    · rw [if_pos hrc]
      refine note fun _ => ?_
      have e1 : arrived (.rx res :: hist r.uid c.log) = arrived (hist r.uid c.log) := by rw [arr, if_neg hrc]
      exact ⟨by rw [e1]; exact hlive.best, by rw [e1]; exact hlive.none, hlive.quiet,
        (fun hw => ⟨wai (hlive.told hw).1, (hlive.told hw).2⟩), hlive.old, hlive.wait, hlive.ticks, hlive.young⟩
    rw [if_neg hrc] at hm ⊢
    have hrc : res.rc = .result := by
      cases hx : res.rc <;> simp [hx] at hrc ⊢
    rw [if_pos hrc] at arr
    by_cases hold : r.result.rc = .result ∧ res.age ≥ r.result.age
    · rw [if_pos hold]
      refine note fun _ => ?_
      refine ⟨fun _ => ?_, fun e => absurd hold.1 e, hlive.quiet, (fun hw => ⟨wai (hlive.told hw).1, (hlive.told hw).2⟩), hlive.old, hlive.wait, hlive.ticks, hlive.young⟩
      obtain ⟨x, ⟨b1, b2⟩, hs⟩ := hlive.best hold.1
      rw [arr]
      refine ⟨x, ⟨List.mem_cons_of_mem _ b1, ?_⟩, hs⟩
      intro y hy
      rcases List.mem_cons.1 hy with rfl | hy
      · rw [← hs.2.2]; exact hold.2
      · exact b2 y hy
    rw [if_neg hold] at hm ⊢
    -- a better result
    have better : ∀ y ∈ arrived (hist r.uid c.log), res.age < y.age := by
      intro y hy
      by_cases e : r.result.rc = .result
      · obtain ⟨x, ⟨-, b2⟩, hs⟩ := hlive.best e
        have := b2 y hy
        rw [← hs.2.2] at this
        have : ¬ res.age ≥ r.result.age := fun h => hold ⟨e, h⟩
        omega
      · rw [hlive.none e] at hy; cases hy
    have youngest : ∀ y ∈ reported (hist r.uid c.log), res.age < y.age := by
      intro y hy
      obtain ⟨e1, e2⟩ := hlive.old y hy
      have : ¬ res.age ≥ r.result.age := fun h => hold ⟨e1, h⟩
      omega
    have hbest : Best res (arrived (.rx res :: hist r.uid c.log)) := by
      rw [arr]
      refine ⟨List.mem_cons_self, ?_⟩
      intro y hy
      rcases List.mem_cons.1 hy with rfl | hy
      · exact Nat.le_refl _
      · exact Nat.le_of_lt (better y hy)
    have hop' : Open (.rx res :: hist r.uid c.log) :=
      ⟨(let ⟨a, b, d, hm⟩ := hop.1; ⟨a, b, d, List.mem_cons_of_mem _ hm⟩), hem _ hop.2.1,
        fun e => by rcases List.mem_cons.1 e with e | e
                    · cases e
                    · exact hop.2.2 e⟩
    -- the state with the result stored, in which the callback has not been called
    have comm : (c.emit r.uid (.rx res)).put { r with result := res } = (c.put { r with result := res }).emit r.uid (.rx res) := rfl
    rw [comm] at hm ⊢
    have hi : Inv b (some r.uid) ((c.put { r with result := res }).emit r.uid (.rx res)) :=
      h.upd (r := { r with result := res }) (o := .rx res) (.inl rfl) hr ⟨rfl, rfl, rfl⟩ hop (fun e => by cases e) (fun _ _ _ e => by cases e) (.inl rfl)
    have hf : Frame (fun v => v < c.uids ∧ v ≠ r.uid) c ((c.put { r with result := res }).emit r.uid (.rx res)) :=
      Frame.upd (r := { r with result := res }) fun e => e.2 rfl
    have h0 : ((c.put { r with result := res }).emit r.uid (.rx res)).req? r.uid = some { r with result := res } :=
      req?_put_self (r := { r with result := res }) hr
    have hh : hist r.uid ((c.put { r with result := res }).emit r.uid (.rx res)).log = .rx res :: hist r.uid c.log := hist_same _ _ _
    have hcu : ((c.put { r with result := res }).emit r.uid (.rx res)).uids = c.uids := rfl
    have livemk : r.waiting = true → res.age ≠ 0 → Live { r with result := res } (.rx res :: hist r.uid c.log) := by
      intro hw ha
      refine ⟨fun _ => ⟨res, hbest, Same.refl _⟩, fun e => absurd hrc e, fun _ => hlive.quiet hw, (fun e => ?_), ?_, hlive.wait, hlive.ticks, fun _ => ha⟩
      · have e : r.waiting = false := e
        rw [hw] at e; cases e
      · intro y hy
        rw [rep, hlive.quiet hw] at hy; cases hy
    have hi2 : r.waiting = true → res.age ≠ 0 → Inv b none ((c.put { r with result := res }).emit r.uid (.rx res)) := fun hw ha =>
      h.upd (r := { r with result := res }) (o := .rx res) (.inl rfl) hr ⟨rfl, rfl, rfl⟩ hop (fun e => by cases e) (fun _ _ _ e => by cases e)
        (.inr ⟨rfl, fun _ => livemk hw ha⟩)
    generalize hc1 : (c.put { r with result := res }).emit r.uid (.rx res) = c1 at *
    have finish : ∀ f, (f = false → r.waiting = false ∧ res.age ≠ 0) → (f = true → res.age = 0) → Fine b (sendResult out c1 { r with result := res } f) →
        Inv b none (sendResult out c1 { r with result := res } f)
        ∧ Frame (fun v => v < c.uids ∧ v ≠ r.uid) c (sendResult out c1 { r with result := res } f)
        ∧ (∀ v, c.uids ≤ v ∨ v = r.uid → Qt v (sendResult out c1 { r with result := res } f)) := by
      intro f hfw hf0 hm
      have hW : f = false → Waited (.rx res :: hist r.uid c.log) := fun e => wai (hlive.told (hfw e).1).1
      obtain ⟨s1, s2, s3, -⟩ := sendResult_spec g hi (r := { r with result := res }) (.inr rfl) h0 ⟨rfl, rfl, rfl⟩ f
        (by
          rw [hh]
          refine ⟨hop', fun _ => ⟨⟨res, hbest, rfl, rfl, rfl⟩, ?_, ?_⟩, fun e => ⟨hrc, (hfw e).2, _, _, _, List.mem_cons_of_mem _ (h.base r mr).2.2.1, ?_⟩, fun _ => .inl hrc, fun e => .inl ⟨hrc, hf0 e⟩⟩
          · rw [rep]; exact youngest
          · cases f with
            | true => exact .inl (hf0 rfl)
            | false => exact .inr (hW rfl)
          · have := hlive.ticks
            rw [(hfw e).1, if_neg (by simp)] at this
            show expiries (hist r.uid c.log) < _
            omega)
        (by
          intro e
          rw [hh]
          have earr : arrived (.cb { res with last := f } :: .rx res :: hist r.uid c.log) = arrived (.rx res :: hist r.uid c.log) := rfl
          have erep : reported (.cb { res with last := f } :: .rx res :: hist r.uid c.log)
              = { res with last := f } :: reported (hist r.uid c.log) := by
            show (if res.rc = .result then _ else _) = _
            rw [if_pos hrc]; rfl
          refine ⟨fun _ => ⟨res, by rw [earr]; exact hbest, rfl, rfl, rfl⟩, fun e => absurd hrc e, fun hw => ?_, fun _ => ⟨?_, fun _ => ?_⟩, ?_, hlive.wait, hlive.ticks, fun _ => (hfw e).2⟩
          · have hw : r.waiting = true := hw
            rw [(hfw e).1] at hw; cases hw
          · rcases hW e with ⟨a, b, hw⟩ | hw
            · exact .inl ⟨a, b, List.mem_cons_of_mem _ hw⟩
            · exact .inr (List.mem_cons_of_mem _ hw)
          · rw [erep]; exact ⟨_, List.mem_cons_self, rfl, rfl, rfl⟩
          · rw [erep]
            intro y hy
            refine ⟨hrc, ?_⟩
            rcases List.mem_cons.1 hy with rfl | hy
            · exact Nat.le_refl _
            · exact Nat.le_of_lt (youngest y hy)) hm
      refine ⟨s1, hf.trans (s2.mono fun v hv => by rw [hcu]; exact hv), ?_⟩
      intro v hv
      refine s3 v (hv.elim (fun e => .inl (by rw [hcu]; exact e)) fun e => .inr ⟨e, fun _ => ?_⟩)
      exact (hq r hr).2
    by_cases ha : res.age = 0
    · rw [if_pos ha] at hm ⊢
      exact finish true (fun e => by cases e) (fun _ => ha) hm
    rw [if_neg ha] at hm ⊢
    by_cases hw : r.waiting = true
    · rw [if_pos hw]
      refine ⟨hi2 hw ha, hf, ?_⟩
      rintro v (hv | rfl)
      · intro x hx
        obtain ⟨m, e⟩ := req?_some hx
        have := (hi.base x m).1
        rw [e, hcu] at this; omega
      · intro x hx
        rw [h0] at hx
        cases hx
        exact ⟨by rw [hh]; exact hop'.2.1, (hq r hr).2⟩
    · rw [if_neg hw] at hm ⊢
      exact finish false (fun _ => ⟨by simpa using hw, ha⟩) (fun e => by cases e) hm

theorem fresh_none {b : Nat} {X : Option Nat} {c : Client} (h : Inv b X c) {u : Nat} (hu : c.uids ≤ u) : c.req? u = none := by
  cases hr : c.req? u with
  | none => rfl
  | some r =>
    obtain ⟨m, e⟩ := req?_some hr
    have := (h.base r m).1
    omega

theorem cancel_uids (c : Client) (h : Nat) : (c.cancel h).uids = c.uids := by
  unfold Client.cancel
  split <;> rfl

theorem cancel_mono (c : Client) (h : Nat) : Mono c (c.cancel h) := by
  unfold Client.cancel
  split <;> exact Mono.refl c

theorem cancel_spec {b : Nat} {c : Client} (h : Inv b none c) (n : Nat) :
    Inv b none (c.cancel n) ∧ Frame (fun _ => True) c (c.cancel n) := by
  unfold Client.cancel
  cases hg : c.getReq n with
  | none => exact ⟨h, Frame.refl _ _⟩
  | some r =>
    dsimp only
    obtain ⟨-, -, hr⟩ := getReq_some h hg
    obtain ⟨mr, -⟩ := req?_some hr
    obtain ⟨b1, b2, b3, b4⟩ := h.base r mr
    have hs : hist r.uid ((r.uid, .cancel) :: c.log) = .cancel :: hist r.uid c.log := hist_same _ _ _
    refine ⟨?_, ?_⟩
    · constructor
      · exact ⟨h.low.1, fun x hx => h.low.2 x (List.mem_filter.1 hx).1⟩
      · exact h.clash
      · exact h.next
      · exact h.nodup.sublist (List.Sublist.map _ List.filter_sublist)
      · intro x hx y hy
        exact h.uniq x (List.mem_filter.1 hx).1 y (List.mem_filter.1 hy).1
      · intro x hx
        obtain ⟨hx, hne⟩ := List.mem_filter.1 hx
        have hne : x.uid ≠ r.uid := by simpa using hne
        show _ ∧ _ ∧ _ ∈ hist _ ((r.uid, .cancel) :: c.log) ∧ _ ∉ hist _ ((r.uid, .cancel) :: c.log)
        rw [hist_other fun e => hne e.symm]
        exact h.base x hx
      · intro x hx hX he
        obtain ⟨hx, hne⟩ := List.mem_filter.1 hx
        have hne : x.uid ≠ r.uid := by simpa using hne
        have he : ¬ Ended (hist x.uid ((r.uid, .cancel) :: c.log)) := he
        show Live x (hist x.uid ((r.uid, .cancel) :: c.log))
        rw [hist_other fun e => hne e.symm] at he ⊢
        exact h.live x hx hX he
      · intro u
        show Ok (hist u ((r.uid, .cancel) :: c.log))
        by_cases e : r.uid = u
        · subst e
          rw [hist_same]
          exact ⟨h.ok _, ⟨_, _, _, b3⟩, b4⟩
        · rw [hist_other e]; exact h.ok u
      · intro u hu
        have hu : c.uids ≤ u := hu
        show hist u ((r.uid, .cancel) :: c.log) = []
        rw [hist_other (by omega)]
        exact h.fresh u hu
      · intro u hu
        show _ ∨ Ended (hist u ((r.uid, .cancel) :: c.log)) ∨ _ ∈ hist u ((r.uid, .cancel) :: c.log)
        by_cases e : r.uid = u
        · subst e
          rw [hist_same]
          exact .inr (.inr List.mem_cons_self)
        · rw [req?_cleanup_other fun e' => e e'.symm, hist_other e]
          exact h.known u hu
      · intro u a b d hm
        have hm : Obs.issued a b d ∈ hist u ((r.uid, .cancel) :: c.log) := hm
        by_cases e : r.uid = u
        · subst e
          rw [hist_same] at hm
          rcases List.mem_cons.1 hm with e | hm
          · cases e
          · exact h.handle _ _ _ _ hm
        · rw [hist_other e] at hm
          exact h.handle _ _ _ _ hm
    · intro u _
      by_cases e : r.uid = u
      · subst e
        exact .inr ⟨hs, ⟨r, hr⟩, req?_cleanup_self _ _⟩
      · exact .inl ⟨hist_other e _ _, req?_cleanup_other fun e' => e e'.symm⟩

theorem issued_unique {t : List Obs} (h : Ok t) {a b d a' b' d' : Nat} (h1 : Obs.issued a b d ∈ t) (h2 : Obs.issued a' b' d' ∈ t) :
    a = a' ∧ b = b' ∧ d = d' := by
  induction t with
  | nil => cases h1
  | cons o t ih =>
    obtain ⟨h, ha⟩ := h
    have key : ∀ x y z, o = .issued x y z → t = [] := by
      rintro x y z rfl
      exact ha.1
    rcases List.mem_cons.1 h1 with e1 | h1
    · rcases List.mem_cons.1 h2 with e2 | h2
      · rw [← e1] at e2
        cases e2
        exact ⟨rfl, rfl, rfl⟩
      · rw [key _ _ _ e1.symm] at h2; cases h2
    · rcases List.mem_cons.1 h2 with e2 | h2
      · rw [key _ _ _ e2.symm] at h1; cases h1
      · exact ih h h1 h2

theorem setTimer_spec {b : Nat} {c : Client} (h : Inv b none c) (u ms : Nat) :
    Inv b none (setTimer c u ms) ∧ Frame (· ≠ u) c (setTimer c u ms) ∧ (∀ v, hist v (setTimer c u ms).log = hist v c.log)
    ∧ (setTimer c u ms).req? u = (c.req? u).map (fun r => { r with timer := ms }) := by
  unfold setTimer
  cases hr : c.req? u with
  | none => exact ⟨⟨h.low, h.clash, h.next, h.nodup, h.uniq, h.base, h.live, h.ok, h.fresh, h.known, h.handle⟩, Frame.refl _ _, fun _ => rfl, hr⟩
  | some r =>
    dsimp only
    obtain ⟨mr, rfl⟩ := req?_some hr
    refine ⟨?_, ?_, fun _ => rfl, req?_put_self (r := { r with timer := ms }) hr⟩
    · constructor
      · refine ⟨h.low.1, fun x hx => ?_⟩
        rcases mem_put hx with ⟨rfl, -⟩ | ⟨hx, -⟩
        · exact h.low.2 r mr
        · exact h.low.2 x hx
      · exact h.clash
      · exact h.next
      · rw [put_uids]; exact h.nodup
      · intro x hx y hy e
        rcases mem_put hx with ⟨rfl, -⟩ | ⟨hx, -⟩
        · rcases mem_put hy with ⟨rfl, -⟩ | ⟨hy, -⟩
          · rfl
          · exact h.uniq r mr y hy e
        · rcases mem_put hy with ⟨rfl, -⟩ | ⟨hy, -⟩
          · exact h.uniq x hx r mr e
          · exact h.uniq x hx y hy e
      · intro x hx
        rcases mem_put hx with ⟨rfl, -⟩ | ⟨hx, -⟩
        · exact h.base r mr
        · exact h.base x hx
      · intro x hx hX he
        rcases mem_put hx with ⟨rfl, -⟩ | ⟨hx, -⟩
        · have := h.live r mr hX he
          exact ⟨this.best, this.none, this.quiet, this.told, this.old, this.wait, this.ticks, this.young⟩
        · exact h.live x hx hX he
      · exact h.ok
      · exact h.fresh
      · intro v hv
        rcases h.known v hv with ⟨y, hy⟩ | e
        · by_cases e : v = r.uid
          · subst e
            exact .inl ⟨_, req?_put_self (r := { r with timer := ms }) hr⟩
          · exact .inl ⟨y, (req?_put_other (r := { r with timer := ms }) e).trans hy⟩
        · exact .inr e
      · exact h.handle
    · intro v hv
      exact .inl ⟨rfl, req?_put_other hv⟩

theorem setTimer_uids (c : Client) (u ms : Nat) : Mono c (setTimer c u ms) := by
  unfold setTimer
  split <;> exact Mono.refl c

theorem timeoutCb_uids {b : Nat} {out : Client → Client} (g : Good b out) (c : Client) (u : Nat) :
    Mono c (timeoutCb out c u) := by
  unfold timeoutCb
  split
  · exact Mono.refl _
  · dsimp only
    split
    · split
      · exact Mono.trans (Mono.refl c) (sendResult_uids g (((c.emit _ _).put _).put _) _ _)
      · refine Mono.trans ?_ (setTimer_uids _ _ _)
        split
        · exact Mono.trans (Mono.refl c) (sendResult_uids g ((c.emit _ _).put _) _ _)
        · exact Mono.refl c
    · exact Mono.trans (Mono.refl c) (sendResult_uids g ((c.emit _ _).put _) _ _)

theorem put_put {c : Client} {a b : Req} (e : a.uid = b.uid) : (c.put a).put b = c.put b := by
  unfold Client.put
  dsimp only
  rw [List.map_map]
  congr 1
  apply List.map_congr_left
  intro x _
  show (if (if x.uid = a.uid then a else x).uid = b.uid then b else (if x.uid = a.uid then a else x)) = _
  by_cases h : x.uid = a.uid
  · rw [if_pos h, if_pos e, if_pos (h.trans e)]
  · rw [if_neg h]

theorem Same.trans {a b d : Result} (h : Same a b) (h' : Same b d) : Same a d :=
  ⟨h.1.trans h'.1, h.2.1.trans h'.2.1, h.2.2.trans h'.2.2⟩

theorem timeoutCb_spec {b : Nat} {out : Client → Client} (g : Good b out) {c : Client} (h : Inv b none c) (u : Nat) (hq : Qt u c)
    (hm : Fine b (timeoutCb out c u)) :
    Inv b none (timeoutCb out c u) ∧ Frame (fun v => v < c.uids ∧ v ≠ u) c (timeoutCb out c u)
    ∧ (∀ v, c.uids ≤ v ∨ v = u → Qt v (timeoutCb out c u)) := by
  unfold timeoutCb at hm ⊢
  cases hr : c.req? u with
  | none =>
    refine ⟨h, Frame.refl _ _, ?_⟩
    rintro v (hv | rfl)
    · exact Qt.gone (fresh_none h hv)
    · exact hq
  | some r =>
    rw [hr] at hm
    obtain ⟨mr, rfl⟩ := req?_some hr
    have hop := open_of h hr hq
    have hlive := h.live r mr (fun e => by cases e) hop.2.1
    obtain ⟨b1, b2, b3, b4⟩ := h.base r mr
    dsimp only at hm ⊢
    have hrep : reported (.tick :: hist r.uid c.log) = reported (hist r.uid c.log) := rfl
    have harr : arrived (.tick :: hist r.uid c.log) = arrived (hist r.uid c.log) := rfl
    have hexp : expiries (.tick :: hist r.uid c.log) = expiries (hist r.uid c.log) + 1 := rfl
    have hne' : ¬ Ended (.tick :: hist r.uid c.log) := by
      intro he
      rcases ended_cons.1 he with ⟨y, e, -⟩ | he
      · cases e
      · exact hop.2.1 he
    have hop' : Open (.tick :: hist r.uid c.log) :=
      ⟨(let ⟨a, b, d, hm⟩ := hop.1; ⟨a, b, d, List.mem_cons_of_mem _ hm⟩), hne',
        fun e => by rcases List.mem_cons.1 e with e | e
                    · cases e
                    · exact hop.2.2 e⟩
    have hlt : expiries (hist r.uid c.log) < phases r.minWait r.timeout := by
      have := hlive.ticks
      have hp : phases r.minWait r.timeout ≥ 1 := by unfold phases; split <;> omega
      split at this <;> omega
    have hal : Allowed (hist r.uid c.log) .tick := by
      refine ⟨hop, ?_⟩
      intro a b d hi
      obtain ⟨-, e1, e2⟩ := issued_unique (h.ok _) b3 hi
      rw [← e1, ← e2]; exact hlt
    have htime : expiries (hist r.uid c.log) + 1 = phases r.minWait r.timeout → TimedOut (.tick :: hist r.uid c.log) := by
      intro he a b d hi
      rcases List.mem_cons.1 hi with e | hi
      · cases e
      obtain ⟨-, e1, e2⟩ := issued_unique (h.ok _) b3 hi
      rw [hexp, he, e1, e2]
    -- the state when the callback is about to be called
    have start : ∀ r', r'.uid = r.uid → r'.handle = r.handle → r'.minWait = r.minWait → r'.timeout = r.timeout →
        Inv b (some r.uid) ((c.put r').emit r.uid .tick)
        ∧ Frame (fun v => v < c.uids ∧ v ≠ r.uid) c ((c.put r').emit r.uid .tick)
        ∧ ((c.put r').emit r.uid .tick).req? r.uid = some r'
        ∧ hist r.uid ((c.put r').emit r.uid .tick).log = .tick :: hist r.uid c.log
        ∧ ((c.put r').emit r.uid .tick).uids = c.uids := by
      intro r' e1 e2 e3 e4
      rw [← e1] at hr hal ⊢
      exact ⟨h.upd (.inl rfl) hr ⟨e2, e3, e4⟩ hal (fun e => by cases e) (fun _ _ _ e => by cases e) (.inl rfl),
        Frame.upd fun e => e.2 rfl, req?_put_self hr, hist_same _ _ _, rfl⟩
    -- a final callback
    have final : ∀ r', r'.uid = r.uid → r'.handle = r.handle → r'.minWait = r.minWait → r'.timeout = r.timeout →
        expiries (hist r.uid c.log) + 1 = phases r.minWait r.timeout →
        (r'.result.rc = .result → r'.result = r.result ∧ r.waiting = true) →
        (r'.result.rc = .result ∨ (r'.result.rc = .notFound ∧ r.result.rc ≠ .result)
          ∨ (r'.result.rc = .none ∧ r.result.rc = .result ∧ r.waiting = false)) →
        Fine b (sendResult out ((c.put r').emit r.uid .tick) r' true) →
        Inv b none (sendResult out ((c.put r').emit r.uid .tick) r' true)
        ∧ Frame (fun v => v < c.uids ∧ v ≠ r.uid) c (sendResult out ((c.put r').emit r.uid .tick) r' true)
        ∧ (∀ v, c.uids ≤ v ∨ v = r.uid → Qt v (sendResult out ((c.put r').emit r.uid .tick) r' true)) := by
      intro r' e1 e2 e3 e4 he hres hcase hm
      obtain ⟨s1, s2, s3, s4, s5⟩ := start r' e1 e2 e3 e4
      rw [← e1] at s1 s2 s3 s4 s5
      have hcl : r'.result.rc = .result → (∃ x, Best x (arrived (.tick :: hist r.uid c.log)) ∧ Same { r'.result with last := true } x)
          ∧ (∀ y ∈ reported (.tick :: hist r.uid c.log), { r'.result with last := true }.age < y.age)
          ∧ ({ r'.result with last := true }.age = 0 ∨ Waited (.tick :: hist r.uid c.log)) := by
        intro hx
        obtain ⟨e, hw⟩ := hres hx
        rw [e] at hx ⊢
        refine ⟨hlive.best hx, ?_, .inr (.inr List.mem_cons_self)⟩
        rw [hrep, hlive.quiet hw]
        intro y hy; cases hy
      obtain ⟨t1, t2, t3, -⟩ := sendResult_spec g (r := r') s1 (.inr rfl) s3 ⟨rfl, rfl, rfl⟩ true
        (by
          rw [s4, e1]
          refine ⟨hop', hcl, fun e => (by cases e), fun _ => ?_, fun _ => .inr (htime he)⟩
          rcases hcase with hc | ⟨hc, hc'⟩ | ⟨hc, hc', hw⟩
          · exact .inl hc
          · exact .inr (.inl ⟨hc, hlive.none hc'⟩)
          · obtain ⟨x, hx, hs⟩ := hlive.best hc'
            obtain ⟨y, hy, hs'⟩ := (hlive.told hw).2 hc'
            exact .inr (.inr ⟨hc, x, hx, y, hy, Same.trans hs' hs⟩))
        (fun e => by cases e) (by rw [e1]; exact hm)
      rw [e1] at t1 t2 t3 s2
      refine ⟨t1, s2.trans (t2.mono fun v hv => hv), ?_⟩
      intro v hv
      exact t3 v (hv.elim .inl fun e => .inr ⟨e, fun e => by cases e⟩)
    by_cases hw : r.waiting = true
    · rw [if_pos hw] at hm ⊢
      have hex : expiries (hist r.uid c.log) = 0 := by
        have := hlive.ticks
        rw [if_pos hw] at this; omega
      by_cases hto : r.timeout ≤ r.minWait
      · rw [if_pos hto] at hm ⊢
        have hph : expiries (hist r.uid c.log) + 1 = phases r.minWait r.timeout := by
          unfold phases
          rw [if_pos (.inr hto), hex]
        by_cases hrc : r.result.rc = .result
        · rw [if_neg (fun e => e hrc)] at hm ⊢
          have e : ((c.emit r.uid .tick).put { r with waiting := false }).put { r with waiting := false }
              = (c.put { r with waiting := false }).emit r.uid .tick := put_put (c := c.emit r.uid .tick) rfl
          rw [e] at hm ⊢
          exact final { r with waiting := false } rfl rfl rfl rfl hph (fun _ => ⟨rfl, hw⟩) (.inl hrc) hm
        · rw [if_pos hrc] at hm ⊢
          have e : ((c.emit r.uid .tick).put { r with waiting := false }).put
                { r with waiting := false, result := { r.result with rc := .notFound } }
              = (c.put { r with waiting := false, result := { r.result with rc := .notFound } }).emit r.uid .tick :=
            put_put (c := c.emit r.uid .tick) rfl
          rw [e] at hm ⊢
          exact final { r with waiting := false, result := { r.result with rc := .notFound } } rfl rfl rfl rfl hph
            (fun e => by cases e) (.inr (.inl ⟨rfl, hrc⟩)) hm
      · rw [if_neg hto] at hm ⊢
        have hph : phases r.minWait r.timeout = 2 := by
          unfold phases
          rw [if_neg (fun e => e.elim (hlive.wait hw) hto)]
        obtain ⟨s1, s2, s3, s4, s5⟩ := start { r with waiting := false } rfl rfl rfl rfl
        have e : (c.emit r.uid .tick).put { r with waiting := false } = (c.put { r with waiting := false }).emit r.uid .tick := rfl
        rw [e] at hm ⊢
        have hm := (setTimer_uids _ _ _).fine hm
        -- the timer is set at the end
        have done : ∀ c2, Inv b none c2 → Frame (fun v => v < c.uids ∧ v ≠ r.uid) c c2 → (∀ v, c.uids ≤ v → Qt v c2) →
            ¬ Ended (hist r.uid c2.log) →
            (∀ x, c2.req? r.uid = some x → x.waiting = false ∧ x.minWait = r.minWait ∧ x.timeout = r.timeout) →
            Inv b none (setTimer c2 r.uid (r.timeout - r.minWait))
            ∧ Frame (fun v => v < c.uids ∧ v ≠ r.uid) c (setTimer c2 r.uid (r.timeout - r.minWait))
            ∧ (∀ v, c.uids ≤ v ∨ v = r.uid → Qt v (setTimer c2 r.uid (r.timeout - r.minWait))) := by
          intro c2 i2 f2 q2 n2 x2
          obtain ⟨t1, t2, t3, t4⟩ := setTimer_spec i2 r.uid (r.timeout - r.minWait)
          refine ⟨t1, f2.trans (t2.mono fun v hv => hv.2), ?_⟩
          rintro v (hv | rfl)
          · exact (q2 v hv).frame t2 (by omega)
          · intro x hx
            rw [t4] at hx
            cases hy : c2.req? r.uid with
            | none => rw [hy] at hx; cases hx
            | some y =>
              rw [hy] at hx
              cases hx
              obtain ⟨y1, y2, y3⟩ := x2 y hy
              refine ⟨by rw [t3]; exact n2, ?_⟩
              show r.timeout - r.minWait = if y.waiting = true then y.minWait else y.timeout - y.minWait
              rw [y1, y2, y3, if_neg (by simp)]
        by_cases hrc : r.result.rc = .result
        · rw [if_pos hrc] at hm ⊢
          have hb := hlive.best hrc
          have erep : reported (.cb { r.result with last := false } :: .tick :: hist r.uid c.log)
              = { r.result with last := false } :: reported (hist r.uid c.log) := by
            show (if r.result.rc = .result then _ else _) = _
            rw [if_pos hrc]; rfl
          obtain ⟨t1, t2, t3, t4⟩ := sendResult_spec g (r := { r with waiting := false }) s1 (.inr rfl) s3 ⟨rfl, rfl, rfl⟩ false
            (by
              rw [s4]
              refine ⟨hop', fun _ => ⟨hb, ?_, .inr (.inr List.mem_cons_self)⟩,
                fun _ => ⟨hrc, hlive.young hrc, _, _, _, List.mem_cons_of_mem _ b3, by rw [hexp, hex, hph]; omega⟩,
                fun e => (by cases e), fun e => (by cases e)⟩
              rw [hrep, hlive.quiet hw]
              intro y hy; cases hy)
            (by
              intro _
              rw [s4]
              refine ⟨fun _ => hb, fun e => absurd hrc e, fun e => (by cases e),
                fun _ => ⟨.inr (List.mem_cons_of_mem _ List.mem_cons_self), fun _ => ?_⟩, ?_, fun e => (by cases e), ?_, hlive.young⟩
              · rw [erep]; exact ⟨_, List.mem_cons_self, rfl, rfl, rfl⟩
              · rw [erep, hlive.quiet hw]
                intro y hy
                rw [List.mem_singleton.1 hy]
                exact ⟨hrc, Nat.le_refl _⟩
              · show expiries (hist r.uid c.log) + 1 + (if false = true then _ else 1) = phases r.minWait r.timeout
                rw [hex, hph, if_neg (by simp)]) hm
          obtain ⟨t5, t6⟩ := t4 rfl
          refine done _ t1 (s2.trans (t2.mono fun v hv => by rw [s5]; exact hv)) (fun v hv => t3 v (.inl hv)) t5 ?_
          intro x hx
          rcases t6 with t6 | t6
          · rw [t6] at hx; cases hx
          · rw [t6] at hx; cases hx
            exact ⟨rfl, rfl, rfl⟩
        · rw [if_neg hrc]
          refine done _ ?_ s2 (fun v hv => Qt.gone (fresh_none s1 hv)) (by rw [s4]; exact hne') ?_
          · refine h.upd (r := { r with waiting := false }) (o := .tick) (.inl rfl) hr ⟨rfl, rfl, rfl⟩ hal (fun e => by cases e)
              (fun _ _ _ e => by cases e) (.inr ⟨rfl, fun _ => ?_⟩)
            refine ⟨hlive.best, hlive.none, fun e => (by cases e), fun _ => ⟨.inr List.mem_cons_self, fun e => absurd e hrc⟩,
              hlive.old, fun e => (by cases e), ?_, hlive.young⟩
            show expiries (hist r.uid c.log) + 1 + (if false = true then _ else 1) = phases r.minWait r.timeout
            rw [hex, hph, if_neg (by simp)]
          · intro x hx
            rw [s3] at hx; cases hx
            exact ⟨rfl, rfl, rfl⟩
    · rw [if_neg hw] at hm ⊢
      have hw : r.waiting = false := by simpa using hw
      have hph : expiries (hist r.uid c.log) + 1 = phases r.minWait r.timeout := by
        have := hlive.ticks
        rw [hw, if_neg (by simp)] at this
        exact this
      refine final { r with result := { r.result with rc := if r.result.rc = .result then .none else .notFound } }
        rfl rfl rfl rfl hph ?_ ?_ hm
      · intro e
        have e : (if r.result.rc = .result then Rc.none else .notFound) = .result := e
        split at e <;> cases e
      · show (if r.result.rc = .result then Rc.none else .notFound) = .result
          ∨ ((if r.result.rc = .result then Rc.none else .notFound) = .notFound ∧ _)
          ∨ ((if r.result.rc = .result then Rc.none else .notFound) = .none ∧ _)
        by_cases hrc : r.result.rc = .result
        · rw [if_pos hrc]; exact .inr (.inr ⟨rfl, hrc, hw⟩)
        · rw [if_neg hrc]; exact .inr (.inl ⟨rfl, hrc⟩)

theorem foldl_inv {b : Nat} {α : Type} {f : Client → α → Client} {P : Client → Prop} (hmono : ∀ c a, Mono c (f c a))
    (hP : ∀ c a, P c → Fine b (f c a) → P (f c a)) (l : List α) (c : Client) :
    Mono c (l.foldl f c) ∧ (P c → Fine b (l.foldl f c) → P (l.foldl f c)) := by
  induction l generalizing c with
  | nil => exact ⟨Mono.refl _, fun h _ => h⟩
  | cons a l ih =>
    obtain ⟨i1, i2⟩ := ih (f c a)
    exact ⟨Mono.trans (hmono c a) i1, fun h hm => i2 (hP c a h (i1.fine hm)) hm⟩

/-- The part of osmo_mslookup_client_request() that asks the methods. -/
def ask (out : Client → Client) (u h : Nat) (c : Client) (l : List Result) : Client :=
  let c := l.foldl (fun c res => rxResult out c h res) c
  if (c.req? u).isNone then { c with ub := true } else c

theorem ask_uids {b : Nat} {out : Client → Client} (g : Good b out) (u h : Nat) (c : Client) (l : List Result) :
    Mono c (ask out u h c l) := by
  unfold ask
  have := (foldl_inv (b := b) (f := fun c res => rxResult out c h res) (P := fun _ => True) (fun c res => rxResult_uids g c h res)
    (fun _ _ _ _ => trivial) l c).1
  dsimp only
  split
  · exact this
  · exact this

/-- What holds while the request `u` is being made. -/
structure Asking (b : Nat) (c0 : Client) (u : Nat) (c : Client) : Prop where
  inv : Inv b none c
  le : u < c.uids
  frame : Frame (· < u) c0 c
  qt : ∀ v, u ≤ v → Qt v c

theorem Asking.rx {b : Nat} {out : Client → Client} (g : Good b out) {c0 : Client} {u : Nat} {c : Client} (h : Asking b c0 u c) {n : Nat}
    (h0 : c0.reqs.find? (·.handle == n) = none) (res : Result)
    (hm : Fine b (rxResult out c n res)) : Asking b c0 u (rxResult out c n res) := by
  -- the handle stands for the request or for one that was made after it
  have own : ∃ w, u ≤ w ∧ ∀ r, c.getReq n = some r → r.uid = w := by
    cases hg : c.getReq n with
    | none => exact ⟨u, Nat.le_refl _, fun r e => nomatch e⟩
    | some r =>
      refine ⟨r.uid, ?_, fun x e => by rw [Option.some.inj e]⟩
      obtain ⟨e1, -, hr⟩ := getReq_some h.inv hg
      apply Classical.byContradiction
      intro hlt
      rcases h.frame r.uid (by omega) with ⟨-, e⟩ | ⟨-, -, e⟩
      · rw [hr] at e
        have := List.find?_eq_none.1 h0 r (req?_some e.symm).1
        simp [e1] at this
      · rw [hr] at e; cases e
  obtain ⟨w, hw, hn⟩ := own
  obtain ⟨i1, i2, i3⟩ := rxResult_spec g h.inv n w hn (h.qt w hw) res hm
  have hle := (rxResult_uids g c n res).1
  have hlu := h.le
  refine ⟨i1, by omega, h.frame.trans (i2.mono fun v hv => ⟨by omega, by omega⟩), fun v hv => ?_⟩
  by_cases e : v = w
  · exact i3 v (.inr e)
  by_cases e' : c.uids ≤ v
  · exact i3 v (.inl e')
  · exact (h.qt v hv).frame i2 ⟨by omega, e⟩

theorem Asking.ask {b : Nat} {out : Client → Client} (g : Good b out) {c0 : Client} {u : Nat} {c : Client} (h : Asking b c0 u c) {n : Nat}
    (h0 : c0.reqs.find? (·.handle == n) = none) (l : List Result)
    (hm : Fine b (ask out u n c l)) : Asking b c0 u (ask out u n c l) := by
  have hf := foldl_inv (b := b) (f := fun c res => rxResult out c n res) (P := Asking b c0 u) (fun c res => rxResult_uids g c n res)
    (fun c res h hm => h.rx g h0 res hm) l c
  unfold Client.ask at hm ⊢
  dsimp only at hm ⊢
  split at hm
  · rename_i hn
    have h2 := hf.2 h hm
    rw [if_pos hn]
    exact ⟨⟨h2.inv.low, h2.inv.clash, h2.inv.next, h2.inv.nodup, h2.inv.uniq, h2.inv.base, h2.inv.live, h2.inv.ok, h2.inv.fresh, h2.inv.known, h2.inv.handle⟩,
      h2.le, h2.frame, h2.qt⟩
  · rename_i hn
    rw [if_neg hn]
    exact hf.2 h hm

theorem sendResult_none_uids {b : Nat} {out : Client → Client} (g : Good b out) (c c' : Client) (o : Option Req) (h : Mono c c') :
    Mono c (match o with | none => c' | some r => sendResult out { c' with clash := true } r true) := by
  cases o with
  | none => exact h
  | some r => exact Mono.trans (b := { c' with clash := true }) ⟨h.1, fun e => nomatch e⟩ (sendResult_uids g _ r true)

theorem request_uids {b : Nat} {out : Client → Client} (g : Good b out) (an : Nat → List (List Result)) (c : Client) (q : Query) (mn to : Nat) :
    Mono c (request out an c q mn to).2
    ∧ ((request out an c q mn to).1 ≠ 0 → c.uids + 1 ≤ (request out an c q mn to).2.uids) := by
  unfold request
  split
  · exact ⟨Mono.refl _, fun e => absurd rfl e⟩
  · dsimp only
    have key : ∀ c1 : Client, Mono { c with uids := c.uids + 1 } c1 → ∀ h,
        Mono { c with uids := c.uids + 1 } ((an c.uids).foldl (ask out c.uids h) c1) := by
      intro c1 h1 h
      exact Mono.trans h1 (foldl_inv (b := b) (P := fun _ => True) (fun c l => ask_uids g _ h c l) (fun _ _ _ _ => trivial) _ c1).1
    generalize hh : (if c.next = 0 then 1 else c.next) = h
    have hs := sendResult_none_uids g { c with uids := c.uids + 1 } { c with next := (h + 1) % 4294967296, uids := c.uids + 1 }
      (c.reqs.find? (·.handle == h)) (Mono.refl _)
    refine ⟨Mono.trans (b := { c with uids := c.uids + 1 }) ⟨Nat.le_succ _, id⟩ ?_, fun _ => ?_⟩
    · refine key _ ?_ h; exact hs
    · refine (key _ ?_ h).1; exact hs

theorem request_spec {b : Nat} {out : Client → Client} (g : Good b out) (an : Nat → List (List Result)) {c : Client} (h : Inv b none c)
    (q : Query) (mn to : Nat) (hm : Fine b (request out an c q mn to).2) :
    Inv b none (request out an c q mn to).2 ∧ Frame (· < c.uids) c (request out an c q mn to).2
    ∧ (∀ v, c.uids ≤ v → Qt v (request out an c q mn to).2)
    ∧ ((request out an c q mn to).1 = 0 ∧ (request out an c q mn to).2 = c
      ∨ (request out an c q mn to).1 = hOf c.uids ∧ c.reqs.find? (·.handle == hOf c.uids) = none ∧ c.uids < (request out an c q mn to).2.uids) := by
  have hu := (request_uids g an c q mn to).2
  unfold request at hm hu ⊢
  split at hm
  · rename_i hv
    rw [if_pos hv]
    exact ⟨h, Frame.refl _ _, fun v hv => Qt.gone (fresh_none h hv), .inl ⟨rfl, rfl⟩⟩
  rename_i hv
  rw [if_neg hv] at hu ⊢
  dsimp only at hm hu ⊢
  rw [h.next] at hm hu ⊢
  have hnext := hOf_next c.uids
  have hpos := hOf_pos c.uids
  have hsame : ∀ x ∈ c.reqs, x.handle = hOf c.uids → hOf x.uid = hOf c.uids := fun x hx e => by rw [← e, (h.base x hx).2.1]
  generalize hH : hOf c.uids = H at *
  have hnone : c.reqs.find? (·.handle == H) = none := by
    cases hf : c.reqs.find? (·.handle == H) with
    | none => rfl
    | some other =>
      exfalso
      rw [hf] at hm
      dsimp only at hm
      have hm := (foldl_inv (b := b) (f := ask out c.uids H) (P := fun _ => True) (fun c' l => ask_uids g c.uids H c' l) (fun _ _ _ _ => trivial)
        (an c.uids) _).1.fine hm
      have hm : Fine b (sendResult out { c with next := (H + 1) % 4294967296, uids := c.uids + 1, clash := true } other true) := hm
      rcases (sendResult_uids g _ _ _).fine hm with e | e
      · cases e
      · have e : c.uids + 1 ≤ b + 4294967295 := e
        have mo := List.mem_of_find?_eq_some hf
        have ho := List.find?_some hf
        have ho : other.handle = H := by simpa using ho
        have hb := (h.base other mo).1
        have := h.low.2 other mo
        have := hOf_inj (b := b) (by omega) (by omega) ((hsame other mo ho).trans hH.symm)
        omega
  rw [hnone] at hm hu ⊢
  dsimp only at hm hu ⊢
  generalize (if (if to = 0 then mn else to) = 0 then 1000 else (if to = 0 then mn else to)) = to' at hm hu ⊢
  generalize hr : (if mn ≠ 0 then
      ({ uid := c.uids, handle := H, query := q, minWait := mn, timeout := to', waiting := true, timer := mn } : Req)
    else { uid := c.uids, handle := H, query := q, minWait := mn, timeout := to', timer := to' }) = r at hm hu ⊢
  have r1 : r.uid = c.uids ∧ r.handle = H ∧ r.minWait = mn ∧ r.timeout = to' ∧ r.result = {} ∧ r.timer = due r
      ∧ (r.waiting = true ↔ mn ≠ 0) := by
    rw [← hr]
    by_cases e : mn ≠ 0
    · rw [if_pos e]; exact ⟨rfl, rfl, rfl, rfl, rfl, rfl, fun _ => e, fun _ => rfl⟩
    · rw [if_neg e]
      refine ⟨rfl, rfl, rfl, rfl, rfl, ?_, (fun e => by cases e), fun e' => absurd e' e⟩
      show to' = to' - mn
      omega
  obtain ⟨ru, rh, rm, rt, rr, rd, rw'⟩ := r1
  have rne : r.result.rc ≠ .result := by rw [rr]; decide
  have hfresh := h.fresh c.uids (Nat.le_refl _)
  have hself : hist c.uids ((c.uids, .issued H mn to') :: c.log) = [.issued H mn to'] := by
    rw [hist_same, hfresh]
  have hreq : (c.reqs ++ [r]).find? (·.uid == c.uids) = some r := by
    have : c.reqs.find? (·.uid == c.uids) = none := fresh_none h (Nat.le_refl _)
    rw [List.find?_append, this]
    simp [ru]
  have hreq' : ∀ v, v ≠ c.uids → (c.reqs ++ [r]).find? (·.uid == v) = c.req? v := by
    intro v hv
    rw [List.find?_append]
    have : [r].find? (·.uid == v) = none := by
      rw [List.find?_eq_none]
      intro x hx
      rw [List.mem_singleton.1 hx, ru]
      simp; omega
    rw [this, Option.or_none]; rfl
  have start : Asking b c c.uids (Client.emit { c with next := (H + 1) % 4294967296, uids := c.uids + 1, reqs := c.reqs ++ [r] }
      c.uids (.issued H mn to')) := by
    refine ⟨?_, Nat.lt_succ_self _, ?_, ?_⟩
    · constructor
      · refine ⟨Nat.le_succ_of_le h.low.1, fun x hx => ?_⟩
        rcases List.mem_append.1 hx with hx | hx
        · exact h.low.2 x hx
        · rw [List.mem_singleton.1 hx, ru]; exact h.low.1
      · exact h.clash
      · exact hnext
      · show ((c.reqs ++ [r]).map (·.uid)).Nodup
        rw [List.map_append, List.nodup_append]
        refine ⟨h.nodup, by simp, ?_⟩
        intro a ha b hb
        obtain ⟨x, hx, rfl⟩ := List.mem_map.1 ha
        have : b = r.uid := by simpa using hb
        have := (h.base x hx).1
        omega
      · have hnew : ∀ x ∈ c.reqs, x.handle ≠ r.handle := by
          intro x hx e
          have := List.find?_eq_none.1 hnone x hx
          simp [e, rh] at this
        intro x hx y hy e
        rcases List.mem_append.1 hx with hx | hx
        · rcases List.mem_append.1 hy with hy | hy
          · exact h.uniq x hx y hy e
          · rw [List.mem_singleton.1 hy] at e
            exact absurd e (hnew x hx)
        · rcases List.mem_append.1 hy with hy | hy
          · rw [List.mem_singleton.1 hx] at e
            exact absurd e.symm (hnew y hy)
          · rw [List.mem_singleton.1 hx, List.mem_singleton.1 hy]
      · intro x hx
        show x.uid < c.uids + 1 ∧ _ ∧ _ ∈ hist x.uid ((c.uids, .issued H mn to') :: c.log)
          ∧ _ ∉ hist x.uid ((c.uids, .issued H mn to') :: c.log)
        rcases List.mem_append.1 hx with hx | hx
        · obtain ⟨b1, b2, b3, b4⟩ := h.base x hx
          rw [hist_other (by omega)]
          exact ⟨by omega, b2, b3, b4⟩
        · rw [List.mem_singleton.1 hx, ru, rh, rm, rt, hself]
          exact ⟨Nat.lt_succ_self _, hH.symm, List.mem_singleton.2 rfl, by simp⟩
      · intro x hx hX he
        have he : ¬ Ended (hist x.uid ((c.uids, .issued H mn to') :: c.log)) := he
        show Live x (hist x.uid ((c.uids, .issued H mn to') :: c.log))
        rcases List.mem_append.1 hx with hx | hx
        · have := (h.base x hx).1
          rw [hist_other (by omega)] at he ⊢
          exact h.live x hx hX he
        · rw [List.mem_singleton.1 hx, ru, hself]
          refine ⟨fun e => absurd e rne, fun _ => rfl, fun _ => rfl, fun e => ⟨.inl ?_, fun e => absurd e rne⟩, fun y hy => (by cases hy),
            (fun e => by rw [rm]; exact rw'.1 e), ?_, fun e => absurd e rne⟩
          · have : mn = 0 := by
              apply Classical.byContradiction
              intro e'
              rw [rw'.2 e'] at e; cases e
            rw [this]
            exact ⟨_, _, List.mem_singleton.2 rfl⟩
          · rw [rm, rt]
            show 0 + _ = _
            by_cases e : r.waiting = true
            · rw [if_pos e]; omega
            · rw [if_neg e]
              have : mn = 0 := by
                apply Classical.byContradiction
                intro e'
                exact e (rw'.2 e')
              unfold phases
              rw [if_pos (.inl this)]
      · intro v
        show Ok (hist v ((c.uids, .issued H mn to') :: c.log))
        by_cases e : c.uids = v
        · subst e
          rw [hself]
          exact ⟨trivial, rfl, hpos⟩
        · rw [hist_other e]; exact h.ok v
      · intro v hv
        have hv : c.uids + 1 ≤ v := hv
        show hist v ((c.uids, .issued H mn to') :: c.log) = []
        rw [hist_other (by omega)]
        exact h.fresh v (by omega)
      · intro v hv
        have hv : v < c.uids + 1 := hv
        show (∃ x, (c.reqs ++ [r]).find? (·.uid == v) = some x) ∨ Ended (hist v ((c.uids, .issued H mn to') :: c.log))
          ∨ _ ∈ hist v ((c.uids, .issued H mn to') :: c.log)
        by_cases e : c.uids = v
        · subst e
          exact .inl ⟨r, hreq⟩
        · rw [hist_other e, hreq' v (fun e' => e e'.symm)]
          exact h.known v (by omega)
      · intro v a b d hi
        have hi : Obs.issued a b d ∈ hist v ((c.uids, .issued H mn to') :: c.log) := hi
        by_cases e : c.uids = v
        · subst e
          rw [hself] at hi
          have := List.mem_singleton.1 hi
          cases this; exact hH.symm
        · rw [hist_other e] at hi
          exact h.handle _ _ _ _ hi
    · intro v hv
      exact .inl ⟨hist_other (by omega) _ _, hreq' v (by omega)⟩
    · intro v hv x hx
      have hx : (c.reqs ++ [r]).find? (·.uid == v) = some x := hx
      show ¬ Ended (hist v ((c.uids, .issued H mn to') :: c.log)) ∧ _
      by_cases e : c.uids = v
      · subst e
        rw [hreq] at hx
        cases hx
        rw [hself]
        refine ⟨?_, rd⟩
        rintro ⟨y, hy, -⟩
        simp at hy
      · rw [hreq' v (fun e' => e e'.symm), fresh_none h hv] at hx
        cases hx
  have hfin := (foldl_inv (b := b) (P := Asking b c c.uids) (fun c' l => ask_uids g c.uids H c' l)
    (fun c' l h hm => h.ask g hnone l hm) (an c.uids) _).2 start hm
  exact ⟨hfin.inv, hfin.frame, hfin.qt, .inr ⟨rfl, rfl, hfin.le⟩⟩

theorem react_good {b : Nat} (env : Env) (k : Nat) : Good b (react env k) := by
  have inc : ∀ c : Client, Inv b none c → Inv b none { c with calls := c.calls + 1 } := fun c h =>
    ⟨h.low, h.clash, h.next, h.nodup, h.uniq, h.base, h.live, h.ok, h.fresh, h.known, h.handle⟩
  induction k with
  | zero =>
    exact ⟨fun c => Mono.refl c, fun c h _ => ⟨inc c h, fun u _ => .inl ⟨rfl, rfl⟩, fun u hu => Qt.gone (fresh_none h hu)⟩⟩
  | succ k ih =>
    have hmono : ∀ (c : Client) (a : Act), Mono c (match a with
        | .cancel h => c.cancel h
        | .request q mn to => (request (react env k) env.answers c q mn to).2) := by
      intro c a
      cases a with
      | cancel h => exact cancel_mono c h
      | request q mn to => exact (request_uids ih _ c q mn to).1
    refine ⟨fun c => (foldl_inv (b := b) (P := fun _ => True) hmono (fun _ _ _ _ => trivial) (env.react c.calls) { c with calls := c.calls + 1 }).1,
      fun c h hm => ?_⟩
    have hfin := (foldl_inv (b := b) (P := fun c' => Inv b none c' ∧ c.uids ≤ c'.uids ∧ Frame (· < c.uids) c c' ∧ ∀ u, c.uids ≤ u → Qt u c') hmono
      (by
        rintro c' a ⟨p1, p2, p3, p4⟩ hm
        cases a with
        | cancel n =>
          obtain ⟨q1, q2⟩ := cancel_spec p1 n
          exact ⟨q1, by rw [cancel_uids]; exact p2, p3.trans (q2.mono fun _ _ => trivial), fun u hu => (p4 u hu).frame q2 trivial⟩
        | request q mn to =>
          obtain ⟨q1, q2, q3, -⟩ := request_spec ih env.answers p1 q mn to hm
          refine ⟨q1, Nat.le_trans p2 (request_uids ih _ c' q mn to).1.1, p3.trans (q2.mono fun u hu => by omega), fun u hu => ?_⟩
          by_cases e : c'.uids ≤ u
          · exact q3 u e
          · exact (p4 u hu).frame q2 (by omega))
      (env.react c.calls) { c with calls := c.calls + 1 }).2
      ⟨inc c h, Nat.le_refl _, fun u _ => .inl ⟨rfl, rfl⟩, fun u hu => Qt.gone (fresh_none h hu)⟩ hm
    exact ⟨hfin.1, hfin.2.2.1, hfin.2.2.2⟩

theorem step_uids (env : Env) (k : Nat) (c : Client) (e : Ev) : Mono c (step env k c e) := by
  cases e with
  | act a =>
    cases a with
    | cancel h => exact cancel_mono c h
    | request q mn to => exact (request_uids (react_good (b := 0) env k) _ c q mn to).1
  | rx h res => exact rxResult_uids (react_good (b := 0) env k) c h res
  | timeout u => exact timeoutCb_uids (react_good (b := 0) env k) c u

/-- What holds between two events. -/
structure Rest (c : Client) : Prop where
  inv : Inv 0 none c
  qt : ∀ u, Qt u c

theorem Inv.raise {a b : Nat} {X : Option Nat} {c : Client} (h : Inv a X c) (hl : b ≤ c.uids ∧ ∀ r ∈ c.reqs, b ≤ r.uid) : Inv b X c :=
  ⟨hl, h.clash, h.next, h.nodup, h.uniq, h.base, h.live, h.ok, h.fresh, h.known, h.handle⟩

theorem Inv.zero {b : Nat} {X : Option Nat} {c : Client} (h : Inv b X c) : Inv 0 X c :=
  h.raise ⟨Nat.zero_le _, fun _ _ => Nat.zero_le _⟩

theorem Rest.of {c c' : Client} (h : Rest c) {u : Nat} (i1 : Inv 0 none c') (i2 : Frame (fun v => v < c.uids ∧ v ≠ u) c c')
    (i3 : ∀ v, c.uids ≤ v ∨ v = u → Qt v c') : Rest c' := by
  refine ⟨i1, fun v => ?_⟩
  by_cases e : v = u
  · exact i3 v (.inr e)
  by_cases e' : c.uids ≤ v
  · exact i3 v (.inl e')
  · exact (h.qt v).frame i2 ⟨by omega, e⟩

theorem step_rest {b : Nat} {env : Env} {k : Nat} {c : Client} (h : Rest c) (hl : b ≤ c.uids ∧ ∀ r ∈ c.reqs, b ≤ r.uid) (e : Ev)
    (hm : Fine b (step env k c e)) : Rest (step env k c e) := by
  cases e with
  | act a =>
    cases a with
    | cancel n =>
      obtain ⟨q1, q2⟩ := cancel_spec h.inv n
      exact ⟨q1, fun u => (h.qt u).frame q2 trivial⟩
    | request q mn to =>
      obtain ⟨q1, q2, q3, -⟩ := request_spec (react_good env k) env.answers (h.inv.raise hl) q mn to hm
      refine ⟨q1.zero, fun u => ?_⟩
      by_cases e : c.uids ≤ u
      · exact q3 u e
      · exact (h.qt u).frame q2 (by omega)
  | rx n res =>
    have own : ∃ u, ∀ r, c.getReq n = some r → r.uid = u := by
      cases hg : c.getReq n with
      | none => exact ⟨0, fun r e => nomatch e⟩
      | some r => exact ⟨r.uid, fun x e => by rw [Option.some.inj e]⟩
    obtain ⟨u, hu⟩ := own
    obtain ⟨q1, q2, q3⟩ := rxResult_spec (react_good env k) (h.inv.raise hl) n u hu (h.qt u) res hm
    exact h.of q1.zero q2 q3
  | timeout u =>
    obtain ⟨q1, q2, q3⟩ := timeoutCb_spec (react_good env k) (h.inv.raise hl) u (h.qt u) hm
    exact h.of q1.zero q2 q3

theorem empty_rest : Rest {} where
  inv := ⟨⟨Nat.zero_le _, fun r h => (by cases h)⟩, rfl, rfl, List.Pairwise.nil, fun x h => (by cases h), fun r h => (by cases h), fun r h => (by cases h), fun _ => trivial, fun _ _ => rfl,
    fun u h => absurd h (Nat.not_lt_zero u), fun u h mn to hm => (by cases hm)⟩
  qt u := Qt.gone rfl

theorem fine_rest (env : Env) (k : Nat) (evs : List Ev) (hm : Fine 0 (run env k evs)) : Rest (run env k evs) :=
  (foldl_inv (b := 0) (f := step env k) (step_uids env k) (fun _ e h hm => step_rest h ⟨Nat.zero_le _, fun _ _ => Nat.zero_le _⟩ e hm) evs {}).2 empty_rest hm

theorem run_rest (env : Env) (k : Nat) (evs : List Ev) (hm : (run env k evs).uids ≤ MAX) : Rest (run env k evs) :=
  fine_rest env k evs (.inr (by unfold MAX at hm; omega))

/-- The invariant before any handle repeats. -/
structure Small (c : Client) : Prop extends Inv 0 none c where
  max : c.uids ≤ MAX

theorem run_small (env : Env) (k : Nat) (evs : List Ev) (hm : (run env k evs).uids ≤ MAX) : Small (run env k evs) :=
  ⟨(run_rest env k evs hm).inv, hm⟩

theorem Small.next1 {c : Client} (h : Small c) : (if c.next = 0 then 1 else c.next) = c.uids + 1 := by
  rw [h.next, hOf_small h.max]

theorem Small.handle1 {c : Client} (h : Small c) {r : Req} (hr : r ∈ c.reqs) : r.uid < c.uids ∧ r.handle = r.uid + 1 := by
  obtain ⟨b1, b2, -⟩ := h.base r hr
  have := h.max
  exact ⟨b1, by rw [b2, hOf_small (by omega)]⟩

/-- What holds between two events before any handle repeats. -/
structure Early (c : Client) : Prop where
  inv : Small c
  qt : ∀ u, Qt u c

theorem early_step {env : Env} {k : Nat} {c : Client} (h : Early c) (e : Ev) (hm : (step env k c e).uids ≤ MAX) : Early (step env k c e) := by
  have := step_rest (b := 0) ⟨h.inv.toInv, h.qt⟩ ⟨Nat.zero_le _, fun _ _ => Nat.zero_le _⟩ e (env := env) (k := k)
    (.inr (by unfold MAX at hm; omega))
  exact ⟨⟨this.inv, hm⟩, this.qt⟩

theorem empty_early : Early {} := ⟨⟨empty_rest.inv, Nat.zero_le _⟩, empty_rest.qt⟩

/-- The oldest of the requests. -/
theorem oldest (l : List Req) (n : Nat) : ∃ b, b ≤ n ∧ (∀ r ∈ l, b ≤ r.uid) ∧ (b = n ∨ ∃ r ∈ l, r.uid = b) := by
  induction l with
  | nil => exact ⟨n, Nat.le_refl _, fun r h => (by cases h), .inl rfl⟩
  | cons x l ih =>
    obtain ⟨b, h1, h2, h3⟩ := ih
    by_cases hx : x.uid < b
    · refine ⟨x.uid, by omega, fun r hr => ?_, .inr ⟨x, List.mem_cons_self, rfl⟩⟩
      rcases List.mem_cons.1 hr with rfl | hr
      · exact Nat.le_refl _
      · have := h2 r hr
        omega
    · refine ⟨b, h1, fun r hr => ?_, h3.imp id fun ⟨r, hr, e⟩ => ⟨r, List.mem_cons_of_mem _ hr, e⟩⟩
      rcases List.mem_cons.1 hr with rfl | hr
      · omega
      · exact h2 r hr

theorem run_snoc (env : Env) (k : Nat) (evs : List Ev) (e : Ev) : run env k (evs ++ [e]) = step env k (run env k evs) e := by
  unfold run
  rw [List.foldl_append]; rfl

theorem recent_rest {env : Env} {k : Nat} {evs : List Ev} (hr : Recent env k evs) : Rest (run env k evs) := by
  suffices h : ∀ l1 l2, evs = l1 ++ l2 → Rest (run env k l1) from h evs [] (by simp)
  intro l1
  induction h : l1.length generalizing l1 with
  | zero =>
    intro l2 _
    rw [List.eq_nil_of_length_eq_zero h]
    exact empty_rest
  | succ n ih =>
    intro l2 e
    have hne : l1 ≠ [] := fun e => by rw [e] at h; cases h
    obtain ⟨l, x, rfl⟩ : ∃ l x, l1 = l ++ [x] := ⟨_, _, (List.dropLast_concat_getLast hne).symm⟩
    have e' : evs = l ++ x :: l2 := by rw [e]; simp
    have hR := ih l (by simpa using h) (x :: l2) e'
    obtain ⟨h1, h2⟩ := hr l x l2 e'
    rw [run_snoc] at h1 h2 ⊢
    obtain ⟨b, b1, b2, b3⟩ := oldest (run env k l).reqs (run env k l).uids
    refine step_rest hR ⟨b1, b2⟩ x (.inr ?_)
    rcases b3 with rfl | ⟨r, hr, rfl⟩
    · exact h1
    · have hrr := find_eq hR.inv.nodup hr
      exact h2 _ (open_of hR.inv hrr (hR.qt _))

theorem recent_snoc {env : Env} {k : Nat} {evs : List Ev} (h : Recent env k evs) {e : Ev}
    (h1 : (run env k (evs ++ [e])).uids ≤ (run env k evs).uids + 4294967295)
    (h2 : ∀ u, Open (hist u (run env k evs).log) → (run env k (evs ++ [e])).uids ≤ u + 4294967295) : Recent env k (evs ++ [e]) := by
  intro l1 x l2 he
  by_cases hn : l2 = []
  · subst hn
    obtain ⟨rfl, e2⟩ := List.append_inj' he rfl
    cases e2
    exact ⟨h1, h2⟩
  · have : l2 = l2.dropLast ++ [l2.getLast hn] := (List.dropLast_concat_getLast hn).symm
    rw [this, ← List.cons_append, ← List.append_assoc] at he
    exact h l1 x l2.dropLast (List.append_inj' he rfl).1

/-- A request that is under way is there. -/
theorem Rest.of_open {c : Client} (h : Rest c) {u : Nat} (ho : Open (hist u c.log)) : ∃ r, c.req? u = some r := by
  by_cases hlt : u < c.uids
  · rcases h.inv.known u hlt with h | h | h
    · exact h
    · exact absurd h ho.2.1
    · exact absurd h ho.2.2
  · rw [h.inv.fresh u (by omega)] at ho
    obtain ⟨_, _, _, h⟩ := ho.1
    cases h

theorem foldl_mono (env : Env) (k : Nat) (evs : List Ev) (c : Client) : Mono c (evs.foldl (step env k) c) :=
  (foldl_inv (b := 0) (P := fun _ => True) (step_uids env k) (fun _ _ _ _ => trivial) evs c).1

/-- With fewer than 2^32 requests, each is among the latest. -/
theorem recent_of_few {env : Env} {k : Nat} {evs : List Ev} (h : (run env k evs).uids ≤ 4294967295) : Recent env k evs := by
  intro l1 e l2 he
  have : (run env k (l1 ++ [e])).uids ≤ (run env k evs).uids := by
    have h1 : run env k evs = l2.foldl (step env k) (run env k (l1 ++ [e])) := by
      rw [he]
      unfold run
      rw [← List.foldl_append]
      simp
    rw [h1]
    exact (foldl_mono env k l2 _).1
  exact ⟨by omega, fun u _ => by omega⟩

theorem recent_left {env : Env} {k : Nat} {l1 l2 : List Ev} (h : Recent env k (l1 ++ l2)) : Recent env k l1 := by
  intro a e d he
  exact h a e (d ++ l2) (by rw [he]; simp)

end Verif.Mslookup.Client
