import Verif.Mslookup.ClientProps
/-! # C44 after 2^32 requests -/
namespace Verif.Mslookup.Props
open Verif Verif.Mslookup Verif.Mslookup.Client Verif.Mslookup.Client.Spec

/-- A request whose result of age 5 has been reported. -/
def reuseStart : List Ev := [.act (.request exQuery 0 0), .rx 1 (exRes 1 5)]

/-- That request. -/
def reuseReq : Req := { uid := 0, handle := 1, query := exQuery, minWait := 0, timeout := 1000, timer := 1000, result := exRes 1 5 }

/-- Requests that nobody answers. -/
def others (n : Nat) : List Ev := List.replicate n (.act (.request exQuery 0 0))

structure Reusing (n : Nat) (c : Client) : Prop where
  uids : c.uids = n + 1
  next : c.next = (n + 2) % 4294967296
  first : ∃ l, c.reqs = reuseReq :: l ∧ ∀ x ∈ l, x.handle = x.uid + 1 ∧ 1 ≤ x.uid ∧ x.uid ≤ n
  log : hist 0 c.log = [.cb (exRes 1 5), .rx (exRes 1 5), .issued 1 0 1000]

theorem reusing_step {n : Nat} {c : Client} (h : Reusing n c) (hn : n + 2 < 4294967296) : Reusing (n + 1) (step {} 0 c (.act (.request exQuery 0 0))) := by
  obtain ⟨h1, h2, ⟨l, h3, h4⟩, h5⟩ := h
  have hnext : c.next = n + 2 := by rw [h2]; omega
  have hnone : c.reqs.find? (·.handle == n + 2) = none := by
    rw [List.find?_eq_none]
    intro x hx
    rw [h3] at hx
    rcases List.mem_cons.1 hx with rfl | hx
    · show ¬ ((1 == n + 2) = true)
      simp
    · obtain ⟨a, b, d⟩ := h4 x hx
      rw [a]
      simp; omega
  have hs : step {} 0 c (.act (.request exQuery 0 0))
      = { c with next := (n + 2 + 1) % 4294967296, uids := n + 1 + 1, reqs := c.reqs ++ [{ uid := n + 1, handle := n + 2, query := exQuery, minWait := 0, timeout := 1000, timer := 1000 }],
                 log := (n + 1, .issued (n + 2) 0 1000) :: c.log } := by
    show (request (react {} 0) (fun _ => []) c exQuery 0 0).2 = _
    unfold request
    rw [if_neg (by decide +kernel)]
    dsimp only
    rw [hnext, if_neg (by omega), hnone, h1]
    rfl
  rw [hs]
  refine ⟨rfl, rfl, ⟨l ++ [{ uid := n + 1, handle := n + 2, query := exQuery, minWait := 0, timeout := 1000, timer := 1000 }], ?_, ?_⟩, ?_⟩
  · show c.reqs ++ [_] = _
    rw [h3]; rfl
  · intro x hx
    rcases List.mem_append.1 hx with hx | hx
    · obtain ⟨a, b, d⟩ := h4 x hx
      exact ⟨a, b, by omega⟩
    · rw [List.mem_singleton.1 hx]
      exact ⟨rfl, by show 1 ≤ n + 1; omega, Nat.le_refl _⟩
  · show hist 0 ((n + 1, _) :: c.log) = _
    rw [← h5]
    unfold hist
    rw [List.filter_cons_of_neg (by simp)]

theorem run_more (n : Nat) (e : Ev) : run {} 0 (reuseStart ++ others n ++ [e]) = step {} 0 (run {} 0 (reuseStart ++ others n)) e := by
  unfold run
  rw [List.foldl_append]
  rfl

theorem reusing (n : Nat) (hn : n + 1 < 4294967296) : Reusing n (run {} 0 (reuseStart ++ others n)) := by
  induction n with
  | zero =>
    refine ⟨by decide +kernel, by decide +kernel, ⟨[], by decide +kernel, fun x hx => by cases hx⟩, by decide +kernel⟩
  | succ n ih =>
    have : run {} 0 (reuseStart ++ others (n + 1)) = step {} 0 (run {} 0 (reuseStart ++ others n)) (.act (.request exQuery 0 0)) := by
      unfold others run
      rw [List.replicate_succ', ← List.append_assoc, List.foldl_append]
      rfl
    rw [this]
    exact reusing_step (ih (by omega)) (by omega)

theorem reuse_last {c : Client} (h : Reusing 4294967294 c) :
    ¬ (reported (hist 0 (step {} 0 c (.act (.request exQuery 0 0))).log)).Pairwise (fun later earlier => later.age < earlier.age) := by
  obtain ⟨h1, h2, ⟨l, h3, h4⟩, h5⟩ := h
  have hz : c.next = 0 := by rw [h2]
  have hl : (step {} 0 c (.act (.request exQuery 0 0))).log
      = (4294967295, .issued 1 0 1000) :: (0, .cb { exRes 1 5 with last := true }) :: c.log := by
    show (request (react {} 0) (fun _ => []) c exQuery 0 0).2.log = _
    unfold request
    rw [if_neg (by decide +kernel)]
    dsimp only
    rw [hz, if_pos rfl, h3, h1]
    have : (reuseReq :: l).find? (fun x => x.handle == 1) = some reuseReq := rfl
    rw [this]
    dsimp only
    have hd : ∀ a : Client, (sendResult (react {} 0) a reuseReq true).log = (0, Obs.cb { exRes 1 5 with last := true }) :: a.log := by
      intro a
      unfold sendResult
      dsimp only
      rw [if_pos rfl, drop_log]
      rfl
    show (4294967295, _) :: (sendResult (react {} 0) _ reuseReq true).log = _
    rw [hd]
    rfl
  rw [hl]
  have : hist 0 ((4294967295, Obs.issued 1 0 1000) :: (0, .cb { exRes 1 5 with last := true }) :: c.log)
      = .cb { exRes 1 5 with last := true } :: hist 0 c.log := by
    unfold hist
    rw [List.filter_cons_of_neg (by simp), List.filter_cons_of_pos (by simp)]
    rfl
  rw [this, h5]
  decide +kernel

/-- C44 is violated after 2^32 requests: a request that is still under way when its handle is given out again is ended by
reporting its result once more, so that the ages do not decrease (mslookup_client.c 271-281). -/
theorem c44_reuse_violated : ∃ evs : List Ev,
    ¬ (reported (hist 0 (run {} 0 evs).log)).Pairwise (fun later earlier => later.age < earlier.age) := by
  have key : ∀ n, n = 4294967294 → ¬ (reported (hist 0 (run {} 0 (reuseStart ++ others n ++ [.act (.request exQuery 0 0)])).log)).Pairwise
      (fun later earlier => later.age < earlier.age) := by
    intro n hn
    have h := reusing n (by omega)
    rw [run_more]
    generalize run {} 0 (reuseStart ++ others n) = c at h
    exact reuse_last (hn ▸ h)
  exact ⟨_, key _ rfl⟩

end Verif.Mslookup.Props
