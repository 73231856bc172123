import Verif.Fake.Quiet
/-!
# The invariant of the fake lookup method when callbacks make no calls
-/
namespace Verif.Fake
open Verif Verif.Mslookup Verif.Mslookup.Client Verif.Mslookup.Client.Spec Verif.Fake.Spec
open Verif.Net (Moves rx_moves rx_noted timeout_moves cancel_moves request_eq note SameReq)

/-! ## The order of the requests stays -/

/-- No requests but those of before, in the same order. -/
def Shrunk (c c' : Client) : Prop := (c'.reqs.map (·.uid)).Sublist (c.reqs.map (·.uid))

theorem Shrunk.refl (c : Client) : Shrunk c c := List.Sublist.refl _
theorem Shrunk.trans {a b c : Client} (h : Shrunk a b) (h' : Shrunk b c) : Shrunk a c := List.Sublist.trans h' h

theorem Shrunk.put (c : Client) (r : Req) : Shrunk c (c.put r) := by
  unfold Shrunk
  rw [put_uids]
  exact List.Sublist.refl _

theorem Shrunk.cleanup (c : Client) (u : Nat) : Shrunk c (c.cleanup u) := List.filter_sublist.map _

theorem Shrunk.drop (c : Client) (h u : Nat) : Shrunk c (c.drop h u) := by
  unfold Client.drop
  split
  · exact Shrunk.refl c
  · exact Shrunk.cleanup c _

theorem Shrunk.send (c : Client) (r : Req) (f : Bool) : Shrunk c (sendResult note c r f) := by
  unfold sendResult
  dsimp only
  have h1 : Shrunk c (note ((c.put { r with result := { r.result with last := f } }).emit r.uid (.cb { r.result with last := f }))) := Shrunk.put c { r with result := { r.result with last := f } }
  split
  · exact h1.trans (Shrunk.drop _ _ _)
  · exact h1

theorem Shrunk.rx (c : Client) (h : Nat) (res : Result) : Shrunk c (rxResult note c h res) := by
  unfold rxResult
  cases c.getReq h with
  | none => exact Shrunk.refl c
  | some r =>
    dsimp only
    have h1 : Shrunk c (c.emit r.uid (.rx res)) := Shrunk.refl c
    split
    · exact h1
    split
    · exact h1
    split
    · exact (h1.trans (Shrunk.put _ _)).trans (Shrunk.send _ _ _)
    split
    · exact h1.trans (Shrunk.put _ _)
    · exact (h1.trans (Shrunk.put _ _)).trans (Shrunk.send _ _ _)

theorem Shrunk.timer (c : Client) (u ms : Nat) : Shrunk c (setTimer c u ms) := by
  unfold setTimer
  split
  · exact Shrunk.refl c
  · exact Shrunk.put c _

theorem Shrunk.timeout (c : Client) (u : Nat) : Shrunk c (timeoutCb note c u) := by
  unfold timeoutCb
  cases c.req? u with
  | none => exact Shrunk.refl c
  | some r =>
    dsimp only
    have h1 : Shrunk c (c.emit u .tick) := Shrunk.refl c
    split
    · split
      · exact ((h1.trans (Shrunk.put _ _)).trans (Shrunk.put _ _)).trans (Shrunk.send _ _ _)
      · refine Shrunk.trans ?_ (Shrunk.timer _ _ _)
        split
        · exact (h1.trans (Shrunk.put _ _)).trans (Shrunk.send _ _ _)
        · exact h1.trans (Shrunk.put _ _)
    · exact (h1.trans (Shrunk.put _ _)).trans (Shrunk.send _ _ _)

theorem Shrunk.cancel (c : Client) (h : Nat) : Shrunk c (c.cancel h) := by
  unfold Client.cancel
  split
  · exact Shrunk.refl c
  · exact Shrunk.cleanup (c.emit _ _) _

/-! ## The number of requests grows -/

theorem step_uids_le (env : Env) (k : Nat) (f : Fake) (e : Ev) : f.client.uids ≤ (step env k f e).client.uids := by
  unfold Verif.Fake.step
  split
  · exact Nat.le_refl _
  cases e with
  | client e now =>
    dsimp only
    split
    · cases e <;> exact Nat.le_refl _
    · exact (Client.step_uids env k f.client e).1
  | tick now =>
    dsimp only
    split
    · exact Nat.le_refl _
    · refine pass_ind (P := fun g => f.client.uids ≤ g.client.uids) (fun g r i x hg _ hx _ => ?_) (fun g hg => hg) _ _ _ (fun _ hr => hr) (Nat.le_refl _)
      unfold Fake.give
      rw [hx]
      exact Nat.le_trans hg (Client.step_uids env k g.client (.rx r.handle x.result)).1
  | free => exact Nat.le_refl _

theorem uids_le (env : Env) (k : Nat) (resps : List Resp) (l1 l2 : List Ev) :
    (run env k resps l1).client.uids ≤ (run env k resps (l1 ++ l2)).client.uids := by
  induction l2 using snoc_induction with
  | nil => rw [List.append_nil]; exact Nat.le_refl _
  | snoc l2 e ih =>
    rw [← List.append_assoc, run_snoc]
    exact Nat.le_trans ih (step_uids_le _ _ _ _)

theorem few_left {resps : List Resp} {l1 l2 : List Ev} (h : Few (quiet resps (l1 ++ l2))) : Few (quiet resps l1) :=
  Nat.le_trans (uids_le {} 0 resps l1 l2) h

theorem made_mono {resps : List Resp} {evs : List Ev} {u : Nat} {q : Query} {t : Int} (h : Made resps evs u q t) (l : List Ev) :
    Made resps (evs ++ l) u q t := by
  obtain ⟨l1, mn, to, l2, rfl, h⟩ := h
  exact ⟨l1, mn, to, l2 ++ l, by simp, h⟩

/-! ## The invariant -/

structure Inv (resps : List Resp) (evs : List Ev) (f : Fake) : Prop where
  early : Early f.client
  sorted : (f.client.reqs.map (·.uid)).Pairwise (· < ·)
  ub : f.ub = false
  freed : f.freed = false
  made : ∀ r ∈ f.client.reqs, Made resps evs r.uid r.query (f.came r.uid)
  uses : ∀ u ∈ f.uses, ∃ x q t, resps[u.resp]? = some x ∧ Made resps evs u.uid q t ∧ due u.now t q x = true
    ∧ .tick u.now ∈ evs ∧ (u.uid, .rx x.result) ∈ f.client.log
  rx : Alone evs → ∀ v res, (v, Obs.rx res) ∈ f.client.log → ∃ u ∈ f.uses, u.uid = v ∧ ∃ x, resps[u.resp]? = some x ∧ x.result = res

/-- An answer that is due is still as it was listed. -/
theorem Listed.due {resps : List Resp} {f : Fake} (h : Listed resps f) {i : Nat} {x : Resp} (hx : f.resps[i]? = some x) (hs : x.sent = false) :
    resps[i]? = some x := by
  have := h.get i
  rw [hx] at this
  cases hr : resps[i]? with
  | none => rw [hr] at this; cases this
  | some y =>
    rw [hr] at this
    have := Option.some.inj this
    subst this
    have : y.sent = false ∧ i ∉ f.uses.map Use.resp := by simpa using hs
    congr 1
    rcases y with ⟨a, b, c, d, e⟩
    simp only at this ⊢
    simp [this.1, this.2]

theorem Inv.moves {resps : List Resp} {evs : List Ev} {f : Fake} (h : Inv resps evs f) {e : Client.Ev} {now : Int} {rx : Option (Nat × Result)}
    (hm : Moves f.client (Client.step {} 0 f.client e) rx) (hs : Shrunk f.client (Client.step {} 0 f.client e))
    (hr : Alone (evs ++ [.client e now]) → rx = none) :
    Inv resps (evs ++ [.client e now]) (f.put now (Client.step {} 0 f.client e)) where
  early := early_step h.early e (by rw [hm.uids]; exact h.early.inv.max)
  sorted := h.sorted.sublist hs
  ub := h.ub
  freed := h.freed
  made r hr := by
    obtain ⟨y, hy, e1, -, e3⟩ := hm.sub r hr
    have hlt := (h.early.inv.base y hy).1
    show Made _ _ _ _ (if f.client.uids ≤ r.uid then now else f.came r.uid)
    rw [if_neg (by omega), ← e1, ← e3]
    exact made_mono (h.made y hy) _
  uses u hu := by
    obtain ⟨x, q, t, h1, h2, h3, h4, h5⟩ := h.uses u hu
    obtain ⟨new, e, -⟩ := hm.log
    exact ⟨x, q, t, h1, made_mono h2 _, h3, List.mem_append_left _ h4, by
      show _ ∈ (Client.step {} 0 f.client _).log
      rw [e]; exact List.mem_append_right _ h5⟩
  rx ha v res hv := by
    obtain ⟨new, e, hn⟩ := hm.log
    have hv : (v, Obs.rx res) ∈ (Client.step {} 0 f.client _).log := hv
    rw [e] at hv
    rcases List.mem_append.1 hv with hv | hv
    · have := hn v res hv
      rw [hr ha] at this
      cases this
    · exact h.rx (fun a b c hm => ha a b c (List.mem_append_left _ hm)) v res hv

theorem run_inv {resps : List Resp} {evs : List Ev} (hk : Kept evs) (hf : Few (quiet resps evs)) : Inv resps evs (quiet resps evs) := by
  induction evs using snoc_induction with
  | nil =>
    exact ⟨empty_early, List.Pairwise.nil, rfl, rfl, fun r hr => (by cases hr), fun u hu => (by cases hu), fun _ v res hv => (by cases hv)⟩
  | snoc evs e ih =>
    have hI := ih (fun h => hk (List.mem_append_left _ h)) (few_left hf)
    have hL := run_listed {} 0 resps evs
    show Inv resps (evs ++ [e]) (run {} 0 resps (evs ++ [e]))
    unfold Few at hf
    have hf : (run {} 0 resps (evs ++ [e])).client.uids ≤ MAX := hf
    have hq : (quiet resps evs) = run {} 0 resps evs := rfl
    rw [run_snoc] at hf ⊢
    rw [hq] at hI
    generalize hfe : run {} 0 resps evs = f at *
    unfold Verif.Fake.step at hf ⊢
    rw [hI.ub, if_neg (by decide)] at hf ⊢
    cases e with
    | free => exact absurd (List.mem_append_right _ List.mem_cons_self) hk
    | client e now =>
      dsimp only at hf ⊢
      rw [hI.freed, if_neg (by decide)] at hf ⊢
      cases e with
      | act a =>
        cases a with
        | cancel h => exact hI.moves (cancel_moves f.client h) (Shrunk.cancel f.client h) (fun _ => rfl)
        | request q mn to =>
          rcases request_eq hI.early.inv q mn to with ⟨-, e⟩ | ⟨hv, -, ⟨r, r1, r2, r3, r4⟩, hu, a, b, d, hl⟩
          · have e : Client.step {} 0 f.client (.act (.request q mn to)) = f.client := congrArg Prod.snd e
            refine hI.moves (rx := none) ?_ ?_ (fun _ => rfl)
            · rw [e]; exact Moves.refl _ _
            · rw [e]; exact Shrunk.refl _
          · have r4 : (Client.step {} 0 f.client (.act (.request q mn to))).reqs = f.client.reqs ++ [r] := r4
            have hl : (Client.step {} 0 f.client (.act (.request q mn to))).log = (f.client.uids, .issued a b d) :: f.client.log := hl
            have hvv : serviceValid q.service = true ∧ idValid q.id = true := by simpa using hv
            refine ⟨early_step hI.early _ hf, ?_, hI.ub, hI.freed, ?_, ?_, ?_⟩
            · show ((Client.step {} 0 f.client (.act (.request q mn to))).reqs.map (·.uid)).Pairwise (· < ·)
              rw [r4, List.map_append]
              refine List.pairwise_append.2 ⟨hI.sorted, List.pairwise_singleton _ _, fun x hx y hy => ?_⟩
              obtain ⟨z, hz, rfl⟩ := List.mem_map.1 hx
              obtain ⟨w, hw, rfl⟩ := List.mem_map.1 hy
              rw [List.mem_singleton.1 hw, r1]
              exact (hI.early.inv.base z hz).1
            · intro y hy
              have hy : y ∈ (Client.step {} 0 f.client (.act (.request q mn to))).reqs := hy
              show Made _ _ _ _ (if f.client.uids ≤ y.uid then now else f.came y.uid)
              rw [r4] at hy
              rcases List.mem_append.1 hy with hy | hy
              · have := (hI.early.inv.base y hy).1
                rw [if_neg (by omega)]
                exact made_mono (hI.made y hy) _
              · cases List.mem_singleton.1 hy
                rw [if_pos (by omega), r3]
                exact ⟨evs, mn, to, [], by simp, by rw [r1, ← hfe], hvv⟩
            · intro u hu
              obtain ⟨x, q', t, h1, h2, h3, h4, h5⟩ := hI.uses u hu
              refine ⟨x, q', t, h1, made_mono h2 _, h3, List.mem_append_left _ h4, ?_⟩
              show _ ∈ (Client.step {} 0 f.client _).log
              rw [hl]; exact List.mem_cons_of_mem _ h5
            · intro ha v res hv
              have hv : (v, Obs.rx res) ∈ (Client.step {} 0 f.client (.act (.request q mn to))).log := hv
              rw [hl] at hv
              rcases List.mem_cons.1 hv with h | hv
              · cases h
              · exact hI.rx (fun a b c hm => ha a b c (List.mem_append_left _ hm)) v res hv
      | rx h res => exact hI.moves (rx_moves f.client h res) (Shrunk.rx f.client h res) (fun ha => absurd (List.mem_append_right _ List.mem_cons_self) (ha h res now))
      | timeout u => exact hI.moves (timeout_moves f.client u) (Shrunk.timeout f.client u) (fun _ => rfl)
    | tick now =>
      dsimp only at hf ⊢
      rw [hI.freed, if_neg (by decide)] at hf ⊢
      obtain ⟨new, hT⟩ := pass_ticked now (f.resps.length + 1) f.client.reqs f hI.early hI.sorted ⟨[], rfl⟩ (by
        have : unsent f.resps ≤ f.resps.length := List.countP_le_length
        omega)
      have hstep : f.tick (react {} 0) now = f.pass note now (f.resps.length + 1) f.client.reqs := rfl
      rw [hstep]
      generalize f.pass note now (f.resps.length + 1) f.client.reqs = f' at *
      have old : ∀ v, (hv : v ∈ f.client.log) → v ∈ f'.client.log := by
        obtain ⟨l, e, -⟩ := hT.log
        intro v hv; rw [e]; exact List.mem_append_right _ hv
      refine ⟨hT.early, ?_, hT.ub.trans hI.ub, hT.freed.trans hI.freed, ?_, ?_, ?_⟩
      · have := hT.keys.map (·.1)
        rw [List.map_map, List.map_map] at this
        exact hI.sorted.sublist this
      · intro r hr
        have : key r ∈ f.client.reqs.map key := hT.keys.subset (List.mem_map.2 ⟨r, hr, rfl⟩)
        obtain ⟨y, hy, e⟩ := List.mem_map.1 this
        rw [← key_uid e, ← key_query e, hT.came _ (hI.early.inv.base y hy).1]
        exact made_mono (hI.made y hy) _
      · intro u hu
        rw [hT.uses] at hu
        rcases List.mem_append.1 hu with hu | hu
        · obtain ⟨hn, y, hy, e, x, hx, hd, hrx, -⟩ := hT.each u hu
          refine ⟨x, y.query, f.came y.uid, hL.due hx (due_sent hd), ?_, by rw [hn]; exact hd, ?_, by rw [← e]; exact hrx⟩
          · rw [← e]; exact made_mono (hI.made y hy) _
          · rw [hn]; exact List.mem_append_right _ List.mem_cons_self
        · obtain ⟨x, q', t, h1, h2, h3, h4, h5⟩ := hI.uses u hu
          exact ⟨x, q', t, h1, made_mono h2 _, h3, List.mem_append_left _ h4, old _ h5⟩
      · intro ha v res hv
        obtain ⟨l, e, hl⟩ := hT.log
        rw [e] at hv
        rw [hT.uses]
        rcases List.mem_append.1 hv with hv | hv
        · obtain ⟨u, hu, e, x, hx, hres⟩ := hl v res hv
          have h1 : ∃ y, resps[u.resp]? = some y ∧ y.result = x.result := by
            have := hL.get u.resp
            rw [hx] at this
            cases hr : resps[u.resp]? with
            | none => rw [hr] at this; cases this
            | some y => rw [hr] at this; exact ⟨y, rfl, by rw [Option.some.inj this]⟩
          obtain ⟨y, hy, ey⟩ := h1
          exact ⟨u, List.mem_append_left _ hu, e, y, hy, ey.trans hres⟩
        · obtain ⟨u, hu, h⟩ := hI.rx (fun a b c hm => ha a b c (List.mem_append_left _ hm)) v res hv
          exact ⟨u, List.mem_append_right _ hu, h⟩

end Verif.Fake
