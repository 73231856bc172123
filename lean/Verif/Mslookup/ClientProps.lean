import Verif.Mslookup.ClientLemmas
import Verif.Mslookup.DomainProps
/-!
# Properties of the mslookup client (C43, C44)

`run env k evs` is any run: `env` chooses what the callbacks do and what the methods answer at
once, `evs` are the calls of the user, the answers of other sites and the expiries of timers.
The theorems hold while fewer than 2^32 - 1 requests have been made.
-/
namespace Verif.Mslookup.Client

/-! ## Nothing is erased from the log -/

structure Grows (out : Client → Client) : Prop where
  log : ∀ c, c.log <:+ (out c).log

theorem drop_log (c : Client) (h u : Nat) : (c.drop h u).log = c.log := by
  unfold Client.drop
  split <;> rfl

theorem sendResult_log {out : Client → Client} (g : Grows out) (c : Client) (r : Req) (f : Bool) :
    c.log <:+ (sendResult out c r f).log := by
  unfold sendResult
  dsimp only
  have h1 := g.log ((c.put { r with result := { r.result with last := f } }).emit r.uid (.cb { r.result with last := f }))
  have h2 : c.log <:+ ((c.put { r with result := { r.result with last := f } }).emit r.uid (.cb { r.result with last := f })).log :=
    List.suffix_cons _ _
  split
  · rw [drop_log]; exact h2.trans h1
  · exact h2.trans h1

theorem rxResult_log {out : Client → Client} (g : Grows out) (c : Client) (h : Nat) (res : Result) :
    c.log <:+ (rxResult out c h res).log := by
  unfold rxResult
  split
  · exact List.suffix_refl _
  · rename_i r _
    dsimp only
    have h1 : c.log <:+ (c.emit r.uid (.rx res)).log := List.suffix_cons _ _
    split
    · exact h1
    split
    · exact h1
    split
    · exact h1.trans (sendResult_log g ((c.emit _ _).put _) _ _)
    split
    · exact h1
    · exact h1.trans (sendResult_log g ((c.emit _ _).put _) _ _)

theorem setTimer_log (c : Client) (u ms : Nat) : (setTimer c u ms).log = c.log := by
  unfold setTimer
  split <;> rfl

theorem timeoutCb_log {out : Client → Client} (g : Grows out) (c : Client) (u : Nat) :
    c.log <:+ (timeoutCb out c u).log
    ∧ (∀ r, c.req? u = some r → (u, Obs.tick) :: c.log <:+ (timeoutCb out c u).log) := by
  unfold timeoutCb
  split
  · rename_i h
    exact ⟨List.suffix_refl _, fun r hr => by rw [h] at hr; cases hr⟩
  · rename_i r hr
    dsimp only
    suffices h : ((u, Obs.tick) :: c.log) <:+ _ from ⟨(List.suffix_cons _ _).trans h, fun _ _ => h⟩
    split
    · split
      · exact sendResult_log g (((c.emit u .tick).put _).put _) _ _
      · rw [setTimer_log]
        split
        · exact sendResult_log g ((c.emit u .tick).put _) _ _
        · exact List.suffix_refl _
    · exact sendResult_log g ((c.emit u .tick).put _) _ _

theorem cancel_log (c : Client) (h : Nat) : c.log <:+ (c.cancel h).log := by
  unfold Client.cancel
  split
  · exact List.suffix_refl _
  · exact List.suffix_cons _ _

theorem foldl_log {α : Type} {f : Client → α → Client} (hf : ∀ c a, c.log <:+ (f c a).log) (l : List α) (c : Client) :
    c.log <:+ (l.foldl f c).log := by
  induction l generalizing c with
  | nil => exact List.suffix_refl _
  | cons a l ih => exact (hf c a).trans (ih _)

theorem ask_log {out : Client → Client} (g : Grows out) (u h : Nat) (c : Client) (l : List Result) :
    c.log <:+ (ask out u h c l).log := by
  have := foldl_log (f := fun c res => rxResult out c h res) (fun c res => rxResult_log g c h res) l c
  unfold ask
  dsimp only
  split <;> exact this

/-- The handle returned is the one recorded for the new request. -/
theorem request_log {out : Client → Client} (g : Grows out) (an : Nat → List (List Result)) (c : Client) (q : Query) (mn to : Nat) :
    c.log <:+ (request out an c q mn to).2.log
    ∧ ((serviceValid q.service && idValid q.id) = true →
        (request out an c q mn to).1 = (if c.next = 0 then 1 else c.next)
        ∧ (c.uids, Obs.issued (if c.next = 0 then 1 else c.next) mn
            (if to = 0 then (if mn = 0 then 1000 else mn) else to)) ∈ (request out an c q mn to).2.log) := by
  unfold request
  split
  · rename_i h
    refine ⟨List.suffix_refl _, fun h' => ?_⟩
    rw [Bool.and_eq_true] at h'
    rw [h'.1, h'.2] at h
    simp at h
  · dsimp only
    generalize (if c.next = 0 then 1 else c.next) = h
    have hto : (if (if to = 0 then mn else to) = 0 then 1000 else (if to = 0 then mn else to))
        = (if to = 0 then (if mn = 0 then 1000 else mn) else to) := by
      by_cases e : to = 0
      · rw [if_pos e, if_pos e]
      · rw [if_neg e, if_neg e, if_neg e]
    rw [hto]
    generalize (if to = 0 then (if mn = 0 then 1000 else mn) else to) = to'
    have h0 : c.log <:+ (match c.reqs.find? (fun x => Req.handle x == h) with
        | none => ({ c with next := (h + 1) % 4294967296, uids := c.uids + 1 } : Client)
        | some other => sendResult out { c with next := (h + 1) % 4294967296, uids := c.uids + 1, clash := true } other true).log := by
      split
      · exact List.suffix_refl _
      · exact sendResult_log g { c with next := (h + 1) % 4294967296, uids := c.uids + 1, clash := true } _ _
    have key : ∀ c1 : Client, c1.log <:+ ((an c.uids).foldl (ask out c.uids h) c1).log := fun c1 =>
      foldl_log (fun c l => ask_log g _ h c l) _ c1
    refine ⟨?_, fun _ => ⟨rfl, ?_⟩⟩
    · refine List.IsSuffix.trans ?_ (key _)
      exact h0.trans (List.suffix_cons _ _)
    · refine (key _).subset ?_
      exact List.mem_cons_self

theorem react_log (env : Env) (k : Nat) : Grows (react env k) := by
  induction k with
  | zero => exact ⟨fun c => List.suffix_refl _⟩
  | succ k ih =>
    refine ⟨fun c => ?_⟩
    have := foldl_log (f := fun (c : Client) (a : Act) => match a with
        | .cancel h => c.cancel h
        | .request q mn to => (request (react env k) env.answers c q mn to).2)
      (by
        intro c a
        cases a with
        | cancel h => exact cancel_log c h
        | request q mn to => exact (request_log ih _ c q mn to).1) (env.react c.calls) { c with calls := c.calls + 1 }
    exact this

theorem step_log (env : Env) (k : Nat) (c : Client) (e : Ev) : c.log <:+ (step env k c e).log := by
  cases e with
  | act a =>
    cases a with
    | cancel h => exact cancel_log c h
    | request q mn to => exact (request_log (react_log env k) _ c q mn to).1
  | rx h res => exact rxResult_log (react_log env k) c h res
  | timeout u => exact (timeoutCb_log (react_log env k) c u).1

open Spec

theorem hist_suffix {l l' : List (Nat × Obs)} (h : l <:+ l') (u : Nat) : hist u l <:+ hist u l' :=
  (h.filter _).map _

theorem expiries_suffix {l l' : List Obs} (h : l <:+ l') : expiries l ≤ expiries l' := by
  obtain ⟨p, rfl⟩ := h
  induction p with
  | nil => exact Nat.le_refl _
  | cons o p ih =>
    cases o <;> first | exact ih | exact Nat.le_succ_of_le ih

/-! ## Histories -/

theorem ok_append {l1 l2 : List Obs} (h : Ok (l1 ++ l2)) : Ok l2 := by
  induction l1 with
  | nil => exact h
  | cons o l ih => exact ih h.1

theorem ok_at {l1 l2 : List Obs} {o : Obs} (h : Ok (l1 ++ o :: l2)) : Allowed l2 o := (ok_append h).2

/-- Once the last result was given, nothing but the cancellation follows. -/
theorem ok_after_last {l1 l2 : List Obs} {r : Result} (h : Ok (l1 ++ .cb r :: l2)) (hl : r.last = true) :
    ∀ o ∈ l1, o = .cancel := by
  induction l1 with
  | nil => intro o ho; cases ho
  | cons o l ih =>
    have hE : Ended (l ++ .cb r :: l2) := ⟨r, List.mem_append_right _ List.mem_cons_self, hl⟩
    intro x hx
    rcases List.mem_cons.1 hx with rfl | hx
    · have ha := h.2
      cases x with
      | cancel => rfl
      | issued a b d => exact absurd ha.1 (by simp)
      | rx _ => exact absurd hE ha.2.1
      | tick => exact absurd hE ha.1.2.1
      | cb _ => exact absurd hE ha.1.2.1
    · exact ih h.1 x hx

theorem ok_after_cancel {l1 l2 : List Obs} (h : Ok (l1 ++ .cancel :: l2)) : l1 = [] := by
  cases l1 with
  | nil => rfl
  | cons o l =>
    exfalso
    have hc : Obs.cancel ∈ l ++ .cancel :: l2 := List.mem_append_right _ List.mem_cons_self
    have ha := h.2
    cases o with
    | cancel => exact ha.2 hc
    | issued a b d => exact absurd ha.1 (by simp)
    | rx _ => exact ha.2.2 hc
    | tick => exact ha.1.2.2 hc
    | cb _ => exact ha.1.2.2 hc

theorem tick_expiries {t : List Obs} (h : Obs.tick ∈ t) : 1 ≤ expiries t := by
  induction t with
  | nil => cases h
  | cons o t ih =>
    cases o with
    | tick => exact Nat.le_add_left 1 _
    | _ =>
      rcases List.mem_cons.1 h with e | h
      · cases e
      · exact ih h

theorem reported_mem {t : List Obs} {r : Result} (h : r ∈ reported t) : Obs.cb r ∈ t ∧ r.rc = .result := by
  induction t with
  | nil => cases h
  | cons o t ih =>
    cases o with
    | cb x =>
      have h : r ∈ (if x.rc = .result then x :: reported t else reported t) := h
      split at h
      · rename_i hx
        rcases List.mem_cons.1 h with rfl | h
        · exact ⟨List.mem_cons_self, hx⟩
        · exact ⟨List.mem_cons_of_mem _ (ih h).1, (ih h).2⟩
      · exact ⟨List.mem_cons_of_mem _ (ih h).1, (ih h).2⟩
    | _ => exact ⟨List.mem_cons_of_mem _ (ih h).1, (ih h).2⟩

end Verif.Mslookup.Client

namespace Verif.Mslookup.Props
open Verif Verif.Mslookup Verif.Mslookup.Client Verif.Mslookup.Client.Spec

/-! ## C43 -/

/-- C43 (the part about handles): a valid query gets a handle other than 0, which no other
request ever had; an invalid one gets 0 and changes nothing.  Missing: more than 2^32 - 2
requests (`c43_reuse_violated`; see `c43_handle_open_partial`). -/
theorem c43_handle_partial (env : Env) (k : Nat) (evs : List Ev) (q : Query) (mn to : Nat)
    (hmax : (run env k (evs ++ [.act (.request q mn to)])).uids ≤ 4294967294) :
    ((serviceValid q.service && idValid q.id) = false →
      (request (react env k) env.answers (run env k evs) q mn to).1 = 0
      ∧ run env k (evs ++ [.act (.request q mn to)]) = run env k evs)
    ∧ ((serviceValid q.service && idValid q.id) = true →
      (request (react env k) env.answers (run env k evs) q mn to).1 ≠ 0
      ∧ (∃ u to', Obs.issued (request (react env k) env.answers (run env k evs) q mn to).1 mn to'
            ∈ hist u (run env k (evs ++ [.act (.request q mn to)])).log
          ∧ ∀ v mn'' to'', Obs.issued (request (react env k) env.answers (run env k evs) q mn to).1 mn'' to''
            ∈ hist v (run env k (evs ++ [.act (.request q mn to)])).log → v = u ∧ mn'' = mn ∧ to'' = to')
      ∧ ∀ v mn'' to'', Obs.issued (request (react env k) env.answers (run env k evs) q mn to).1 mn'' to''
            ∉ hist v (run env k evs).log) := by
  have hrun : run env k (evs ++ [.act (.request q mn to)]) = (request (react env k) env.answers (run env k evs) q mn to).2 := by
    unfold run
    rw [List.foldl_append]; rfl
  have hfew : Recent env k _ := recent_of_few (Nat.le_succ_of_le hmax)
  have hR := recent_rest hfew
  have hle : (run env k evs).uids ≤ 4294967294 := by
    refine Nat.le_trans ?_ hmax
    rw [hrun]
    exact (request_uids (react_good (b := 0) env k) _ _ q mn to).1.1
  have hR0 := recent_rest (recent_left hfew)
  rw [hrun] at hmax hR ⊢
  constructor
  · intro hv
    have hv : (!serviceValid q.service || !idValid q.id) = true := by
      rw [← Bool.not_and, hv]; rfl
    unfold request
    rw [if_pos hv]
    exact ⟨rfl, rfl⟩
  · intro hv
    obtain ⟨l1, l2⟩ := (request_log (react_log env k) env.answers (run env k evs) q mn to).2 hv
    obtain ⟨-, -, -, hc⟩ := request_spec (react_good env k) env.answers hR0.inv q mn to (.inr (by omega))
    rw [← l1] at l2
    generalize hres : request (react env k) env.answers (run env k evs) q mn to = res at *
    have hh : res.1 = (run env k evs).uids + 1 := by
      rcases hc with ⟨e, -⟩ | ⟨e, -⟩
      · exfalso
        rw [e] at l1
        split at l1
        · cases l1
        · rename_i h; exact h l1.symm
      · rw [e, hOf_small hle]
    have hmem : Obs.issued res.1 mn (if to = 0 then (if mn = 0 then 1000 else mn) else to) ∈ hist (run env k evs).uids res.2.log := by
      unfold hist
      exact List.mem_map.2 ⟨_, List.mem_filter.2 ⟨l2, by simp⟩, rfl⟩
    refine ⟨by omega, ⟨(run env k evs).uids, _, hmem, ?_⟩, ?_⟩
    · intro v mn'' to'' hi
      have hv := hR.inv.handle _ _ _ _ hi
      have hlt : v < res.2.uids := by
        apply Classical.byContradiction
        intro hn
        rw [hR.inv.fresh v (by omega)] at hi
        cases hi
      rw [hOf_small (u := v) (by unfold MAX; omega)] at hv
      have hv : v = (run env k evs).uids := by omega
      subst hv
      obtain ⟨-, e1, e2⟩ := issued_unique (hR.inv.ok _) hi hmem
      exact ⟨rfl, e1, e2⟩
    · intro v mn'' to'' hi
      have hv := hR0.inv.handle _ _ _ _ hi
      by_cases hlt : v < (run env k evs).uids
      · rw [hOf_small (u := v) (by unfold MAX; omega)] at hv
        omega
      · rw [hR0.inv.fresh v (by omega)] at hi
        cases hi

/-- C43 (the part about handles), however many requests there have been: a valid query gets a
handle other than 0, which none of the requests has that are under way.  Missing: histories in
which a request is still under way when 2^32 - 1 others have been made
(`c43_reuse_violated`). -/
theorem c43_handle_open_partial (env : Env) (k : Nat) (evs : List Ev) (q : Query) (mn to : Nat)
    (hrec : Recent env k (evs ++ [.act (.request q mn to)])) (hv : (serviceValid q.service && idValid q.id) = true) :
    (request (react env k) env.answers (run env k evs) q mn to).1 ≠ 0
    ∧ (∃ u to', hist u (run env k evs).log = []
        ∧ Obs.issued (request (react env k) env.answers (run env k evs) q mn to).1 mn to'
          ∈ hist u (run env k (evs ++ [.act (.request q mn to)])).log)
    ∧ ∀ v, Open (hist v (run env k evs).log) → ∀ mn' to',
        Obs.issued (request (react env k) env.answers (run env k evs) q mn to).1 mn' to' ∉ hist v (run env k evs).log := by
  have hR0 := recent_rest (recent_left hrec)
  have hR := recent_rest hrec
  rw [run_snoc] at hR ⊢
  have hR : Rest (request (react env k) env.answers (run env k evs) q mn to).2 := hR
  show _ ∧ (∃ u to', _ ∧ _ ∈ hist u (request (react env k) env.answers (run env k evs) q mn to).2.log) ∧ _
  obtain ⟨l1, l2⟩ := (request_log (react_log env k) env.answers (run env k evs) q mn to).2 hv
  obtain ⟨-, -, -, hc⟩ := request_spec (react_good env k) env.answers hR0.inv q mn to (.inl hR.inv.clash)
  rw [← l1] at l2
  have hne : (request (react env k) env.answers (run env k evs) q mn to).1 ≠ 0 := by
    rw [l1]
    split
    · decide
    · rename_i h; exact h
  rcases hc with ⟨e, -⟩ | ⟨e, hnone, -⟩
  · exact absurd e hne
  refine ⟨hne, ⟨_, if to = 0 then (if mn = 0 then 1000 else mn) else to, hR0.inv.fresh _ (Nat.le_refl _), ?_⟩, ?_⟩
  · unfold hist
    exact List.mem_map.2 ⟨_, List.mem_filter.2 ⟨l2, by simp⟩, rfl⟩
  · intro v hop mn' to' hi
    have hlt : v < (run env k evs).uids := by
      apply Classical.byContradiction
      intro hn
      rw [hR0.inv.fresh v (by omega)] at hi
      cases hi
    rcases hR0.inv.known v hlt with ⟨r, hr⟩ | he | he
    · obtain ⟨mr, rfl⟩ := req?_some hr
      have hh := hR0.inv.handle _ _ _ _ hi
      have := List.find?_eq_none.1 hnone r mr
      rw [(hR0.inv.base r mr).2.1] at this
      rw [e] at hh
      simp [hh] at this
    · exact hop.2.1 he
    · exact hop.2.2 he

/-- C43: the callback is called with `last` at most once, and after that neither it nor
anything else happens to the request; nothing at all happens after it was cancelled; and a
request that is neither ended nor cancelled is still waiting for its timer.  Missing: histories
in which a request is still under way when 2^32 - 1 others have been made, and the uses of freed memory in `c43_callback_violated` and
`c43_method_violated`. -/
theorem c43_once_partial (env : Env) (k : Nat) (evs : List Ev) (hrec : Recent env k evs) (u : Nat) :
    (∀ l1 r l2, hist u (run env k evs).log = l1 ++ .cb r :: l2 → r.last = true →
        (∀ o ∈ l1, o = .cancel) ∧ ¬ Ended l2 ∧ ((r.rc = .result ∧ r.age = 0) ∨ TimedOut l2))
    ∧ (∀ l1 l2, hist u (run env k evs).log = l1 ++ .cancel :: l2 → l1 = [])
    ∧ (∀ h mn to, Obs.issued h mn to ∈ hist u (run env k evs).log →
        Ended (hist u (run env k evs).log) ∨ Obs.cancel ∈ hist u (run env k evs).log
        ∨ ∃ r, (run env k evs).req? u = some r ∧ r.handle = h ∧ expiries (hist u (run env k evs).log) < phases mn to
            ∧ r.timer = if expiries (hist u (run env k evs).log) = 0 ∧ mn ≠ 0 then mn else to - mn) := by
  have hR := recent_rest hrec
  generalize run env k evs = c at *
  refine ⟨?_, ?_, ?_⟩
  · intro l1 r l2 e hl
    have hok := hR.inv.ok u
    rw [e] at hok
    exact ⟨ok_after_last hok hl, (ok_at hok).1.2.1, (ok_at hok).2.2.2.2 hl⟩
  · intro l1 l2 e
    have hok := hR.inv.ok u
    rw [e] at hok
    exact ok_after_cancel hok
  · intro h mn to hi
    by_cases hE : Ended (hist u c.log)
    · exact .inl hE
    by_cases hC : Obs.cancel ∈ hist u c.log
    · exact .inr (.inl hC)
    refine .inr (.inr ?_)
    have hu : u < c.uids := by
      apply Classical.byContradiction
      intro hu
      rw [hR.inv.fresh u (by omega)] at hi
      cases hi
    rcases hR.inv.known u hu with ⟨r, hr⟩ | e | e
    · obtain ⟨mr, e⟩ := req?_some hr
      subst e
      obtain ⟨-, b2, b3, -⟩ := hR.inv.base r mr
      have hl := hR.inv.live r mr (fun e => by cases e) hE
      obtain ⟨e1, e2, e3⟩ := issued_unique (hR.inv.ok _) b3 hi
      have ht := hl.ticks
      have hp : phases mn to ≥ 1 := by unfold phases; split <;> omega
      rw [e2, e3] at ht
      refine ⟨r, hr, e1, ?_, ?_⟩
      · split at ht <;> omega
      · rw [(hR.qt _ r hr).2]
        unfold due
        by_cases hw : r.waiting = true
        · rw [if_pos hw] at ht ⊢
          have := hl.wait hw
          rw [if_pos ⟨by omega, by omega⟩, e2]
        · rw [if_neg hw, e2, e3]
          rw [if_neg]
          rintro ⟨h0, h1⟩
          rcases (hl.told (by simpa using hw)).1 with ⟨a, b, hz⟩ | hz
          · exact h1 (issued_unique (hR.inv.ok _) hi hz).2.1
          · have := tick_expiries hz
            omega
    · exact absurd e hE
    · exact absurd e hC

/-- C43: when the timer of a request expires for the last time, the request ends: its callback
has been called with `last`, or it was cancelled. -/
theorem c43_timeout_partial (env : Env) (k : Nat) (evs : List Ev) (u : Nat)
    (hrec : Recent env k (evs ++ [.timeout u])) (h mn to : Nat)
    (hi : Obs.issued h mn to ∈ hist u (run env k evs).log)
    (hlast : expiries (hist u (run env k evs).log) + 1 = phases mn to) :
    Ended (hist u (run env k (evs ++ [.timeout u])).log) ∨ Obs.cancel ∈ hist u (run env k (evs ++ [.timeout u])).log := by
  have hrun : run env k (evs ++ [.timeout u]) = timeoutCb (react env k) (run env k evs) u := by
    unfold run
    rw [List.foldl_append]; rfl
  have hR0 := recent_rest (recent_left hrec)
  have hlog := timeoutCb_log (react_log env k) (run env k evs) u
  rw [← hrun] at hlog
  have hsub := hist_suffix hlog.1 u
  rcases (c43_once_partial env k _ hrec u).2.2 h mn to (hsub.subset hi) with e | e | ⟨r, -, -, hlt, -⟩
  · exact .inl e
  · exact .inr e
  · have hu : u < (run env k evs).uids := by
      apply Classical.byContradiction
      intro hu
      rw [hR0.inv.fresh u (by omega)] at hi
      cases hi
    rcases hR0.inv.known u hu with ⟨x, hx⟩ | e | e
    · have hs := expiries_suffix (hist_suffix (hlog.2 x hx) u)
      rw [hist_same] at hs
      have hs : expiries (hist u (run env k evs).log) + 1 ≤ _ := hs
      omega
    · obtain ⟨y, hy, hl⟩ := e
      exact .inl ⟨y, hsub.subset hy, hl⟩
    · exact .inr (hsub.subset e)

/-! ## C44 -/

/-- C44: the results reported for a request have strictly decreasing ages. -/
theorem c44_decreasing_partial (env : Env) (k : Nat) (evs : List Ev) (hrec : Recent env k evs) (u : Nat) :
    (reported (hist u (run env k evs).log)).Pairwise (fun later earlier => later.age < earlier.age) := by
  have hok := (recent_rest hrec).inv.ok u
  generalize hist u (run env k evs).log = t at hok
  induction t with
  | nil => exact List.Pairwise.nil
  | cons o t ih =>
    cases o with
    | cb r =>
      show (if r.rc = .result then r :: reported t else reported t).Pairwise _
      split
      · rename_i hr
        exact List.Pairwise.cons (hok.2.2.1 hr).2.1 (ih hok.1)
      · exact ih hok.1
    | _ => exact ih hok.1

/-- C44: a reported result is the youngest of those that have arrived, and is reported when the
minimum wait is over or when its age is 0. -/
theorem c44_report_partial (env : Env) (k : Nat) (evs : List Ev) (hrec : Recent env k evs) (u : Nat)
    (l1 l2 : List Obs) (r : Result) (h : hist u (run env k evs).log = l1 ++ .cb r :: l2) (hr : r.rc = .result) :
    (∃ x, Best x (arrived l2) ∧ Same r x) ∧ (r.age = 0 ∨ Waited l2) := by
  have hok := (recent_rest hrec).inv.ok u
  rw [h] at hok
  have := (ok_at hok).2.1 hr
  exact ⟨this.1, this.2.2⟩

/-- C44: when the callback is told that this was the last result, the youngest result has been
reported; if none had arrived, it is told "not found". -/
theorem c44_final_partial (env : Env) (k : Nat) (evs : List Ev) (hrec : Recent env k evs) (u : Nat)
    (l1 l2 : List Obs) (r : Result) (h : hist u (run env k evs).log = l1 ++ .cb r :: l2) (hl : r.last = true) :
    (arrived l2 = [] ∧ r.rc = .notFound)
    ∨ ∃ x, Best x (arrived l2) ∧ ∃ y ∈ reported (.cb r :: l2), Same y x := by
  have hok := (recent_rest hrec).inv.ok u
  rw [h] at hok
  obtain ⟨-, ha, -, hb, -⟩ := ok_at hok
  rcases hb hl with hr | ⟨h1, h2⟩ | ⟨h1, x, hx, y, hy, hs⟩
  · obtain ⟨x, hx, hs⟩ := (ha hr).1
    refine .inr ⟨x, hx, r, ?_, hs⟩
    show r ∈ (if r.rc = .result then r :: reported l2 else reported l2)
    rw [if_pos hr]; exact List.mem_cons_self
  · exact .inl ⟨h2, h1⟩
  · refine .inr ⟨x, hx, y, ?_, hs⟩
    show y ∈ (if r.rc = .result then r :: reported l2 else reported l2)
    split
    · exact List.mem_cons_of_mem _ hy
    · exact hy

/-! ## Examples -/

def exV4 (n : Nat) : Sys.Addr := { v6 := false, ip := 0x0a000000 + n, port := 5060 }
def exRes (n age : Nat) : Result := { rc := .result, v4 := exV4 n, age := age }

/-- Two requests.  The first waits 10 of 30 ms, gets results of ages 9 and 5 within the minimum
wait and of age 2 after it; its second callback starts the second request, whose result of age 0
comes at once. -/
def exEnv : Client.Env where
  react n := if n = 1 then [.request exQuery 0 0] else []

def exEvs : List Ev :=
  [.act (.request exQuery 10 30), .rx 1 (exRes 1 9), .rx 1 (exRes 2 5), .rx 1 (exRes 3 7), .timeout 0, .rx 1 (exRes 4 2),
   .rx 2 (exRes 5 0), .rx 2 (exRes 6 0), .timeout 0]

example : (run exEnv 3 exEvs).uids = 2 ∧ (run exEnv 3 exEvs).ub = false ∧ (run exEnv 3 exEvs).reqs = []
    ∧ (hist 0 (run exEnv 3 exEvs).log).reverse = [.issued 1 10 30, .rx (exRes 1 9), .rx (exRes 2 5), .rx (exRes 3 7), .tick,
        .cb (exRes 2 5), .rx (exRes 4 2), .cb (exRes 4 2), .tick, .cb { exRes 4 2 with rc := .none, last := true }]
    ∧ (hist 1 (run exEnv 3 exEvs).log).reverse = [.issued 2 0 1000, .rx (exRes 5 0), .cb { exRes 5 0 with last := true }] := by
  decide +kernel

/-- Nothing arrives: "not found". -/
example : (hist 0 (run {} 3 [.act (.request exQuery 10 0), .timeout 0]).log).reverse
    = [.issued 1 10 10, .tick, .cb { rc := .notFound, last := true }] := by decide +kernel

/-- An invalid query is refused. -/
example : (request id (fun _ => []) {} { exQuery with service := [] } 0 0) = (0, {}) := by decide +kernel

/-- C43 is violated: a callback that cancels its request when the minimum wait ends leaves
timeout_cb() writing to the freed request (mslookup_client.c 213-216). -/
theorem c43_callback_violated :
    (run { react := fun n => if n = 0 then [.cancel 1] else [] } 3
      [.act (.request exQuery 10 30), .rx 1 (exRes 1 9), .timeout 0]).ub = true := by decide +kernel

/-- C43 is violated: a lookup method that answers with age 0 while it is being asked ends the
request, whose handle is then read (mslookup_client.c 294-297). -/
theorem c43_method_violated :
    (run { answers := fun _ => [[exRes 1 0]] } 3 [.act (.request exQuery 10 30)]).ub = true := by decide +kernel

theorem next_uids {c : Client} (h : Inv 0 none c) (hc : c.uids ≤ MAX) : (step {} 0 c (.act (.request exQuery 0 0))).uids = c.uids + 1
    ∧ (step {} 0 c (.act (.request exQuery 0 0))).next = (c.uids + 1 + 1) % 4294967296 := by
  have hh : (if c.next = 0 then 1 else c.next) = c.uids + 1 := by
    rw [h.next, hOf_small hc]
  have hnone : c.reqs.find? (·.handle == c.uids + 1) = none := by
    rw [List.find?_eq_none]
    intro x hx
    obtain ⟨b1, b2, -⟩ := h.base x hx
    rw [b2, hOf_small (by omega)]
    simp; omega
  show (request (react {} 0) (fun _ => []) c exQuery 0 0).2.uids = _ ∧ (request (react {} 0) (fun _ => []) c exQuery 0 0).2.next = _
  unfold request
  rw [if_neg (by decide +kernel)]
  dsimp only
  rw [hh, hnone]
  exact ⟨rfl, rfl⟩

theorem run_replicate (n : Nat) (hn : n ≤ 4294967294) : (run {} 0 (List.replicate n (.act (.request exQuery 0 0)))).uids = n := by
  induction n with
  | zero => rfl
  | succ n ih =>
    have ih := ih (by omega)
    have hR := run_rest {} 0 (List.replicate n (.act (.request exQuery 0 0))) (by rw [ih]; exact Nat.le_of_succ_le hn)
    rw [List.replicate_succ']
    unfold run at ih hR ⊢
    rw [List.foldl_append]
    generalize List.foldl (step {} 0) {} (List.replicate n (.act (.request exQuery 0 0))) = c at ih hR
    exact (next_uids hR.inv (by rw [ih]; exact Nat.le_of_succ_le hn)).1.trans (by rw [ih])

/-- C43 is violated after 2^32 requests: the first handle is given out again, although the
first request is still under way. -/
theorem c43_reuse_violated : ∃ (evs : List Ev) (u v mn to mn' to' : Nat), u ≠ v
    ∧ Obs.issued 1 mn to ∈ hist u (run {} 0 evs).log ∧ Obs.issued 1 mn' to' ∈ hist v (run {} 0 evs).log := by
  have hu := run_replicate 4294967294 (Nat.le_refl _)
  have hR := run_rest {} 0 (List.replicate 4294967294 (.act (.request exQuery 0 0))) (by rw [hu]; exact Nat.le_refl _)
  have hlog : (0, Obs.issued 1 0 1000) ∈ (run {} 0 (List.replicate 4294967294 (.act (.request exQuery 0 0)))).log := by
    have e : ∀ n, List.replicate (n + 1) (Ev.act (.request exQuery 0 0)) = [.act (.request exQuery 0 0)] ++ List.replicate n _ :=
      fun _ => rfl
    rw [e 4294967293]
    unfold run
    rw [List.foldl_append]
    refine (foldl_log (step_log {} 0) _ _).subset ?_
    have : (List.foldl (step {} 0) {} [Ev.act (.request exQuery 0 0)]).log = [(0, Obs.issued 1 0 1000)] := by decide +kernel
    rw [this]
    exact List.mem_singleton.2 rfl
  refine ⟨List.replicate 4294967294 (.act (.request exQuery 0 0)) ++ [.act (.request exQuery 0 0), .act (.request exQuery 0 0)],
    0, 4294967295, 0, 1000, 0, 1000, by decide, ?_⟩
  unfold run at hu hR hlog ⊢
  rw [List.foldl_append]
  generalize List.foldl (step {} 0) {} (List.replicate 4294967294 (.act (.request exQuery 0 0))) = c at hu hR hlog
  obtain ⟨n1, n2⟩ := next_uids hR.inv (by rw [hu]; exact Nat.le_refl _)
  show _ ∈ hist 0 (step {} 0 (step {} 0 c (.act (.request exQuery 0 0))) (.act (.request exQuery 0 0))).log
    ∧ _ ∈ hist 4294967295 (step {} 0 (step {} 0 c (.act (.request exQuery 0 0))) (.act (.request exQuery 0 0))).log
  have hs := (step_log {} 0 c (.act (.request exQuery 0 0))).subset hlog
  rw [hu] at n1 n2
  generalize step {} 0 c (.act (.request exQuery 0 0)) = c1 at n1 n2 hs
  have h2 := ((request_log (react_log {} 0) (fun _ => []) c1 exQuery 0 0).2 (by decide +kernel)).2
  rw [n1, n2] at h2
  have hs2 := (step_log {} 0 c1 (.act (.request exQuery 0 0))).subset hs
  exact ⟨List.mem_map.2 ⟨_, List.mem_filter.2 ⟨hs2, rfl⟩, rfl⟩, List.mem_map.2 ⟨_, List.mem_filter.2 ⟨h2, rfl⟩, rfl⟩⟩

/-- `n` requests, each of which ends before the next one is made. -/
def exPairs : Nat → List Ev
  | 0 => []
  | n + 1 => exPairs n ++ [.act (.request exQuery 0 0)] ++ [.timeout n]

/-- The request that is made. -/
def exReq (u h : Nat) : Req := { uid := u, handle := h, query := exQuery, minWait := 0, timeout := 1000, timer := 1000 }

theorem exPair_step (c : Client) (hc : c.reqs = []) :
    (∃ r, (step {} 0 c (.act (.request exQuery 0 0))).reqs = [r] ∧ r.uid = c.uids)
    ∧ (step {} 0 c (.act (.request exQuery 0 0))).uids = c.uids + 1
    ∧ (step {} 0 (step {} 0 c (.act (.request exQuery 0 0))) (.timeout c.uids)).reqs = []
    ∧ (step {} 0 (step {} 0 c (.act (.request exQuery 0 0))) (.timeout c.uids)).uids = c.uids + 1 := by
  have h1 : step {} 0 c (.act (.request exQuery 0 0)) = Client.emit
      { c with
        next := ((if c.next = 0 then 1 else c.next) + 1) % 4294967296
        uids := c.uids + 1
        reqs := [exReq c.uids (if c.next = 0 then 1 else c.next)] }
      c.uids (.issued (if c.next = 0 then 1 else c.next) 0 1000) := by
    show (request (react {} 0) (fun _ => []) c exQuery 0 0).2 = _
    unfold request
    rw [if_neg (by decide +kernel), hc]
    rfl
  have hpos : (if c.next = 0 then 1 else c.next) ≠ 0 := by split <;> omega
  rw [h1]
  generalize (if c.next = 0 then 1 else c.next) = h at hpos
  refine ⟨⟨_, rfl, rfl⟩, rfl, ?_⟩
  show (timeoutCb (react {} 0) _ c.uids).reqs = [] ∧ (timeoutCb (react {} 0) _ c.uids).uids = _
  simp [exReq, timeoutCb, Client.emit, Client.req?, sendResult, Client.put, react, Client.drop, Client.getReq, Client.cleanup, hpos]

/-- However many requests there are, the hypothesis of the theorems above can be met. -/
theorem exPairs_recent (n : Nat) : Recent {} 0 (exPairs n) ∧ (run {} 0 (exPairs n)).reqs = [] ∧ (run {} 0 (exPairs n)).uids = n := by
  induction n with
  | zero => exact ⟨recent_of_few (by decide), rfl, rfl⟩
  | succ n ih =>
    obtain ⟨i1, i2, i3⟩ := ih
    obtain ⟨⟨r, s1, s2⟩, s3, s4, s5⟩ := exPair_step _ i2
    rw [i3] at s2 s3 s4 s5
    have hA : Recent {} 0 (exPairs n ++ [.act (.request exQuery 0 0)]) := by
      refine recent_snoc i1 (by rw [run_snoc, s3, i3]; omega) fun u hu => ?_
      obtain ⟨x, hx⟩ := (recent_rest i1).of_open hu
      have := (req?_some hx).1
      rw [i2] at this
      cases this
    refine ⟨recent_snoc hA ?_ fun u hu => ?_, ?_, ?_⟩
    · rw [run_snoc, run_snoc, s5, s3]; omega
    · obtain ⟨x, hx⟩ := (recent_rest hA).of_open hu
      obtain ⟨hm, hxu⟩ := req?_some hx
      rw [run_snoc, s1] at hm
      rw [List.mem_singleton.1 hm, s2] at hxu
      rw [run_snoc, run_snoc, s5]
      omega
    · show (run {} 0 (exPairs n ++ [.act (.request exQuery 0 0)] ++ [.timeout n])).reqs = []
      rw [run_snoc, run_snoc]; exact s4
    · show (run {} 0 (exPairs n ++ [.act (.request exQuery 0 0)] ++ [.timeout n])).uids = _
      rw [run_snoc, run_snoc]; exact s5

example (n : Nat) : Ok (hist n (run {} 0 (exPairs (n + 1))).log) := (recent_rest (exPairs_recent (n + 1)).1).inv.ok n

end Verif.Mslookup.Props
