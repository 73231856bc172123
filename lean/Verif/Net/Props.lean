import Verif.Net.Inv
import Verif.Mslookup.ServerHist
/-!
# C71: looking subscribers up in a network of HLRs
-/
namespace Verif.Net
open Verif Verif.Db Verif.Sys Verif.Mslookup Verif.Mslookup.Mdns Verif.Mslookup.Mdns.Spec Verif.Net.Spec
open Verif.Mslookup.Client (Client Obs rxResult timeoutCb sendResult setTimer)
open Verif.Mslookup.Client.Spec (Ended Open arrived reported Same Best hist)

theorem uids_mono (z : Zone) (sfx : Bytes) (s : Start) (a b : List Ev) (i : Nat) :
    ((run z sfx s a).look i).client.uids ≤ ((run z sfx s (a ++ b)).look i).client.uids := by
  induction b generalizing a with
  | nil => rw [List.append_nil]; exact Nat.le_refl _
  | cons e b ih =>
    have h1 := step_uids z sfx (run z sfx s a) e i
    rw [← run_cons_snoc] at h1
    have h2 := ih (a ++ [e])
    rw [List.append_assoc] at h2
    exact Nat.le_trans h1 h2

/-- What was sent can still arrive. -/
theorem air_mono (z : Zone) (sfx : Bytes) (n : Net) (e : Ev) {a : Bytes} (h : a ∈ n.air) : a ∈ (step z sfx n e).air := by
  have hsend : ∀ (n' : Net) o, a ∈ n'.air → a ∈ (n'.send o).air := by
    intro n' o h
    unfold Net.send
    split
    · exact h
    · exact h
    · exact h
    · exact List.mem_cons_of_mem _ h
  cases e with
  | request i q mn to => exact hsend _ _ h
  | serve j p now sc =>
    unfold step
    dsimp only
    split
    · split
      · exact h
      · exact hsend _ _ h
    · exact h
  | hear i p =>
    unfold step
    dsimp only
    split
    · split <;> exact h
    · exact h
  | inject p => exact List.mem_cons_of_mem _ h
  | hlr => exact h
  | conf => exact h
  | cancel => exact h
  | timeout => exact h

/-- An accepted lookup is counted. -/
theorem asked_counts {z : Zone} {sfx : Bytes} {s : Start} {pre : List Ev} {i : Nat} {q : Query} {mn to : Nat}
    (h1 : serviceValid q.service = true) (h2 : idValid q.id = true) :
    ((run z sfx s pre).look i).client.uids + 1 ≤ ((run z sfx s (pre ++ [.request i q mn to])).look i).client.uids := by
  rw [run_cons_snoc]
  generalize run z sfx s pre = n
  show _ ≤ (((n.setLook i ((n.look i).request q mn to).2).send _).look i).client.uids
  have hsend : ∀ (n' : Net) o, ((n'.send o).look i) = n'.look i := by
    intro n' o
    unfold Net.send
    split <;> rfl
  rw [hsend]
  show _ ≤ (if i = i then _ else _ : Look).client.uids
  rw [if_pos rfl]
  have := (Client.request_uids (Client.react_good (b := 0) {} 0) (fun _ => []) (n.look i).client q mn to).2
  have hne : (Client.request note (fun _ => []) (n.look i).client q mn to).1 ≠ 0 := by
    unfold Client.request
    rw [if_neg (by rw [h1, h2]; decide)]
    dsimp only [List.foldl]
    intro e
    split at e
    · cases e
    · rename_i e'; exact e' e
  have := this hne
  unfold Look.request
  dsimp only
  rw [if_neg hne]
  exact this

theorem split_cases {α : Type} {a b : List α} {x y : α} {c d : List α} (h : a ++ x :: c = b ++ y :: d) :
    (a = b ∧ x = y) ∨ (∃ t, b = a ++ [x] ++ t) ∨ (∃ t, a = b ++ [y] ++ t) := by
  induction a generalizing b with
  | nil =>
    cases b with
    | nil => exact .inl ⟨rfl, (List.cons.inj h).1⟩
    | cons w b =>
      obtain ⟨e1, e2⟩ := List.cons.inj h
      exact .inr (.inl ⟨b, by rw [e1]; rfl⟩)
  | cons v a ih =>
    cases b with
    | nil =>
      obtain ⟨e1, e2⟩ := List.cons.inj h
      exact .inr (.inr ⟨a, by rw [e1]; rfl⟩)
    | cons w b =>
      obtain ⟨e1, e2⟩ := List.cons.inj h
      subst e1
      rcases ih e2 with ⟨rfl, e⟩ | ⟨t, rfl⟩ | ⟨t, rfl⟩
      · exact .inl ⟨rfl, e⟩
      · exact .inr (.inl ⟨t, rfl⟩)
      · exact .inr (.inr ⟨t, rfl⟩)

/-- The number of a lookup tells what was asked. -/
theorem asked_unique {z : Zone} {sfx : Bytes} {s : Start} {evs : List Ev} {i u : Nat} {q q' : Query} (h : Asked z sfx s evs i u q)
    (h' : Asked z sfx s evs i u q') : q = q' := by
  obtain ⟨pre, mn, to, post, e, hu, v1, v2⟩ := h
  obtain ⟨pre', mn', to', post', e', hu', v1', v2'⟩ := h'
  rcases split_cases (e.symm.trans e') with ⟨-, h⟩ | ⟨t, h⟩ | ⟨t, h⟩
  · cases h; rfl
  · have h1 := asked_counts (z := z) (sfx := sfx) (s := s) (pre := pre) (i := i) (mn := mn) (to := to) v1 v2
    have h2 := uids_mono z sfx s (pre ++ [.request i q mn to]) t i
    rw [← h] at h2
    omega
  · have h1 := asked_counts (z := z) (sfx := sfx) (s := s) (pre := pre') (i := i) (mn := mn') (to := to') v1' v2'
    have h2 := uids_mono z sfx s (pre' ++ [.request i q' mn' to']) t i
    rw [← h] at h2
    omega

theorem mem_hist {u : Nat} {o : Obs} {l : List (Nat × Obs)} : o ∈ hist u l ↔ (u, o) ∈ l := by
  unfold hist
  rw [List.mem_map]
  constructor
  · rintro ⟨⟨v, o'⟩, hm, rfl⟩
    obtain ⟨hm, e⟩ := List.mem_filter.1 hm
    have e : v = u := by simpa using e
    rw [← e]; exact hm
  · intro h
    exact ⟨(u, o), List.mem_filter.2 ⟨h, by simp⟩, rfl⟩

theorem mem_arrived {r : Result} {t : List Obs} : r ∈ arrived t ↔ Obs.rx r ∈ t ∧ r.rc = .result := by
  induction t with
  | nil => exact ⟨fun h => (by cases h), fun h => (by cases h.1)⟩
  | cons o t ih =>
    cases o with
    | rx x =>
      show r ∈ (if x.rc = .result then x :: arrived t else arrived t) ↔ _
      split
      · rename_i hx
        rw [List.mem_cons, List.mem_cons, ih]
        constructor
        · rintro (rfl | ⟨h, h'⟩)
          · exact ⟨.inl rfl, hx⟩
          · exact ⟨.inr h, h'⟩
        · rintro ⟨h | h, h'⟩
          · cases h; exact .inl rfl
          · exact .inr ⟨h, h'⟩
      · rename_i hx
        rw [ih, List.mem_cons]
        constructor
        · rintro ⟨h, h'⟩; exact ⟨.inr h, h'⟩
        · rintro ⟨h | h, h'⟩
          · cases h; exact absurd h' hx
          · exact ⟨h, h'⟩
    | issued | tick | cancel | cb =>
      refine Iff.trans (show _ ↔ r ∈ arrived t from Iff.rfl) (ih.trans ?_)
      rw [List.mem_cons]
      exact ⟨fun h => ⟨.inr h.1, h.2⟩, fun h => ⟨h.1.resolve_left (fun e => by cases e), h.2⟩⟩

theorem mem_reported {r : Result} {t : List Obs} : r ∈ reported t ↔ Obs.cb r ∈ t ∧ r.rc = .result := by
  induction t with
  | nil => exact ⟨fun h => (by cases h), fun h => (by cases h.1)⟩
  | cons o t ih =>
    cases o with
    | cb x =>
      show r ∈ (if x.rc = .result then x :: reported t else reported t) ↔ _
      split
      · rename_i hx
        rw [List.mem_cons, List.mem_cons, ih]
        constructor
        · rintro (rfl | ⟨h, h'⟩)
          · exact ⟨.inl rfl, hx⟩
          · exact ⟨.inr h, h'⟩
        · rintro ⟨h | h, h'⟩
          · cases h; exact .inl rfl
          · exact .inr ⟨h, h'⟩
      · rename_i hx
        rw [ih, List.mem_cons]
        constructor
        · rintro ⟨h, h'⟩; exact ⟨.inr h, h'⟩
        · rintro ⟨h | h, h'⟩
          · cases h; exact absurd h' hx
          · exact ⟨h, h'⟩
    | issued | tick | cancel | rx =>
      refine Iff.trans (show _ ↔ r ∈ reported t from Iff.rfl) (ih.trans ?_)
      rw [List.mem_cons]
      exact ⟨fun h => ⟨.inr h.1, h.2⟩, fun h => ⟨h.1.resolve_left (fun e => by cases e), h.2⟩⟩

/-- What happens to the HLR of a site: the events of the history, and that it is killed while its
server reads the database. -/
theorem hist_run (z : Zone) (sfx : Bytes) (s : Start) (evs : List Ev) (j : Nat) :
    ((run z sfx s evs).site j).sys = Sys.run (init (s.db j)) ((run z sfx s evs).site j).hist
    ∧ ∀ x ∈ ((run z sfx s evs).site j).hist, x.2 = .kill ∨ .hlr j x.2 ∈ evs := by
  induction evs using snoc_induction with
  | nil => exact ⟨rfl, fun x hx => (by cases hx)⟩
  | snoc evs e ih =>
    rw [run_cons_snoc]
    generalize run z sfx s evs = n at ih ⊢
    have keep : ((n.site j).sys = Sys.run (init (s.db j)) (n.site j).hist
        ∧ ∀ x ∈ (n.site j).hist, x.2 = .kill ∨ .hlr j x.2 ∈ evs ++ [e]) :=
      ⟨ih.1, fun x hx => (ih.2 x hx).imp_right (List.mem_append_left _)⟩
    have hsend : ∀ (n' : Net) o, ((n'.send o).site j) = n'.site j := by
      intro n' o
      unfold Net.send
      split <;> rfl
    have event : ∀ k ev, (ev = .kill ∨ e = .hlr k ev) →
        ((n.setSite k ((n.site k).event ev)).site j).sys = Sys.run (init (s.db j)) ((n.setSite k ((n.site k).event ev)).site j).hist
        ∧ ∀ x ∈ ((n.setSite k ((n.site k).event ev)).site j).hist, x.2 = .kill ∨ .hlr j x.2 ∈ evs ++ [e] := by
      intro k ev he
      show (if j = k then _ else n.site j).sys = Sys.run _ (if j = k then _ else n.site j).hist
        ∧ ∀ x ∈ (if j = k then _ else n.site j).hist, _
      split
      · rename_i h
        subst h
        refine ⟨?_, fun x hx => ?_⟩
        · show Sys.step _ _ _ = Sys.run _ (_ ++ [_])
          rw [run_snoc, ← ih.1]
        · rcases List.mem_append.1 hx with hx | hx
          · exact keep.2 x hx
          · rw [List.mem_singleton.1 hx]
            exact he.imp_right fun h => List.mem_append_right _ (List.mem_singleton.2 h.symm)
      · exact keep
    cases e with
    | hlr k ev => exact event k ev (.inr rfl)
    | conf k cfg srv =>
      show (if j = k then _ else n.site j).sys = Sys.run _ (if j = k then _ else n.site j).hist
        ∧ ∀ x ∈ (if j = k then _ else n.site j).hist, _
      split
      · rename_i h; subst h; exact keep
      · exact keep
    | request i q mn to =>
      show ((Net.send _ _).site j).sys = Sys.run _ ((Net.send _ _).site j).hist ∧ ∀ x ∈ ((Net.send _ _).site j).hist, _
      rw [hsend]
      exact keep
    | cancel i h => exact keep
    | timeout i u => exact keep
    | serve k p now sc =>
      unfold step
      dsimp only
      split
      · split
        · exact event k .kill (.inl rfl)
        · rw [hsend]; exact keep
      · exact keep
    | hear i p =>
      unfold step
      dsimp only
      split
      · split <;> exact keep
      · exact keep
    | inject p => exact keep

end Verif.Net

namespace Verif.Net.Props
open Verif Verif.Db Verif.Sys Verif.Sys.Props Verif.Mslookup Verif.Mslookup.Props Verif.Mslookup.Mdns Verif.Mslookup.Mdns.Spec Verif.Net.Spec
open Verif.Mslookup.Client (Client Obs rxResult timeoutCb sendResult setTimer)
open Verif.Mslookup.Client.Spec (Ended Open arrived reported Same Best hist)

/-- C71: every result that a user is given for a lookup was said, before, by the server of some
site when it was asked for exactly this service and subscriber, whatever was lost, repeated,
delayed or overtaken, and whatever else was looked up at the same time. -/
theorem c71_true_partial {z : Zone} {sfx : Bytes} {s : Start} {evs : List Ev} (hu : Usable sfx s evs) (ho : Own evs)
    (hf : Few (run z sfx s evs)) {i u : Nat} {r : Result} (hr : .cb r ∈ story (run z sfx s evs) i u) (hrc : r.rc = .result) :
    (∃ q, Asked z sfx s evs i u q) ∧ ∀ q, Asked z sfx s evs i u q → ∃ j x, Said z sfx s evs j q x ∧ Same r x := by
  have hl := (run_inv hu ho hf).look i
  obtain ⟨cevs, ec⟩ := hl.client
  have hm := hf i
  have hrx := hl.rx
  unfold story at hr
  rw [ec] at hr hm hrx
  obtain ⟨l1, l2, e⟩ := List.append_of_mem hr
  obtain ⟨⟨x, ⟨hx, -⟩, hs⟩, -⟩ := c44_report_partial {} 0 cevs (Client.recent_of_few (Nat.le_succ_of_le hm)) u l1 l2 r e hrc
  have hx : Obs.rx x ∈ hist u (Client.run {} 0 cevs).log := by
    rw [e]
    exact List.mem_append_right _ (List.mem_cons_of_mem _ (mem_arrived.1 hx).1)
  obtain ⟨q, j, ha, hsaid⟩ := hrx u x (mem_hist.1 hx)
  refine ⟨⟨q, ha⟩, fun q' hq' => ⟨j, x, ?_, hs⟩⟩
  rw [asked_unique hq' ha]
  exact hsaid

/-- C71: an address of a service that a user is given is that of the service at an MSC of a site
whose HLR had, at some earlier time `now`, the subscriber attached to that MSC since as many
seconds as the user is told, or had the attachment granted by the home HLR (see C41). -/
theorem c71_attached_partial {z : Zone} {sfx : Bytes} {s : Start} {evs : List Ev} (hu : Usable sfx s evs) (ho : Own evs)
    (hf : Few (run z sfx s evs)) (hU : ∀ j, Unique (s.db j)) (hd : ∀ j, ∀ r ∈ (s.db j).subs, Unlocated r)
    (hev : ∀ j ev, .hlr j ev ∈ evs → ev.NoPlace)
    {i u : Nat} {q : Query} (hq : Asked z sfx s evs i u q) (hqs : q.service ≠ HLR_GSUP)
    {r : Result} (hr : .cb r ∈ story (run z sfx s evs) i u) (hrc : r.rc = .result) :
    ∃ j pre post now, evs = pre ++ post ∧ (let site := (run z sfx s pre).site j
      r.age ≤ site.srv.maxAge
      ∧ ((∃ x ∈ site.sys.db.subs, Mslookup.Spec.Names q.id x ∧ ∃ vlr n, Attached z now (s.db j) site.hist x.imsi vlr r.age
          ∧ Mslookup.Spec.Stored vlr n ∧ Mslookup.Spec.Configured site.srv.services n q.service r)
        ∨ (∃ x ∈ site.sys.proxy, Mslookup.Spec.PNames q.id x.data
          ∧ ∃ n : Gsup.IpaName, AttachedByProxy z now (s.db j) site.hist x.data.imsi n.name r.age
            ∧ Mslookup.Spec.Configured site.srv.services n q.service r))) := by
  obtain ⟨j, x, ⟨pre, e, post, now, hevs, p, sc, rfl, hp, -, hsay, hxrc⟩, hs⟩ := (c71_true_partial hu ho hf hr hrc).2 q hq
  refine ⟨j, pre, _, now, hevs, ?_⟩
  dsimp only
  obtain ⟨h1, h2⟩ := hist_run z sfx s pre j
  rw [h1] at hsay ⊢
  obtain ⟨s4, s6, sa⟩ := hs
  have hc : ∀ n, Mslookup.Spec.Configured ((run z sfx s pre).site j).srv.services n q.service x
      → Mslookup.Spec.Configured ((run z sfx s pre).site j).srv.services n q.service r := by
    rintro n ⟨h, ha, e4, e6⟩
    exact ⟨h, ha, s4.trans e4, s6.trans e6⟩
  have := c41_running_partial (hU j) (hd j) (fun y hy => ?_) hqs hsay hxrc
  · rw [sa]
    refine ⟨this.1, this.2.imp ?_ ?_⟩
    · rintro ⟨y, hy, hn, vlr, n, ha, hst, hcf⟩
      exact ⟨y, hy, hn, vlr, n, ha, hst, hc n hcf⟩
    · rintro ⟨y, hy, hn, n, ha, hcf⟩
      exact ⟨y, hy, hn, n, ha, hc n hcf⟩
  · rcases h2 y hy with e | e
    · rw [e]; trivial
    · exact hev j y.2 (by rw [hevs]; exact List.mem_append_left _ e)

/-- C71: the address of the home HLR that a user is given is the one that some site's HLR offers
(see C41), and at some earlier time that HLR had the subscriber in its database. -/
theorem c71_home_partial {z : Zone} {sfx : Bytes} {s : Start} {evs : List Ev} (hu : Usable sfx s evs) (ho : Own evs)
    (hf : Few (run z sfx s evs)) {i u : Nat} {q : Query} (hq : Asked z sfx s evs i u q) (hqs : q.service = HLR_GSUP)
    {r : Result} (hr : .cb r ∈ story (run z sfx s evs) i u) (hrc : r.rc = .result) :
    ∃ j pre post, evs = pre ++ post ∧ r.age = 0 ∧ HlrAddress ((run z sfx s pre).site j).srv r
      ∧ ∃ x ∈ ((run z sfx s pre).site j).sys.db.subs, Mslookup.Spec.Names q.id x := by
  obtain ⟨j, x, ⟨pre, e, post, now, hevs, p, sc, rfl, hp, -, hsay, hxrc⟩, hs⟩ := (c71_true_partial hu ho hf hr hrc).2 q hq
  obtain ⟨h1, h2, h3⟩ := c41_hlr hqs hsay hxrc
  refine ⟨j, pre, _, hevs, hs.2.2.trans h2, ?_, h1⟩
  obtain ⟨s4, s6, -⟩ := hs
  unfold HlrAddress at h3 ⊢
  rw [s4, s6]
  exact h3

/-- C71: a lookup of a valid service and subscriber is accepted and sent out, and is then open. -/
theorem c71_sent_partial {z : Zone} {sfx : Bytes} {s : Start} {evs : List Ev} {i : Nat} {q : Query} {mn to : Nat}
    (hu : Usable sfx s (evs ++ [.request i q mn to])) (ho : Own (evs ++ [.request i q mn to]))
    (hf : Few (run z sfx s (evs ++ [.request i q mn to]))) (h1 : serviceValid q.service = true) (h2 : idValid q.id = true) :
    ∃ u p, Asked z sfx s (evs ++ [.request i q mn to]) i u q ∧ (∀ q', ¬ Asked z sfx s evs i u q')
      ∧ Open (story (run z sfx s (evs ++ [.request i q mn to])) i u)
      ∧ p ∈ (run z sfx s (evs ++ [.request i q mn to])).air ∧ Carries sfx p q := by
  have hI' := run_inv hu ho hf
  have hf0 := Few.before hf
  have hI := (run_inv (usable_before hu) (own_before ho) hf0).mono [.request i q mn to]
  have hask : Asked z sfx s (evs ++ [.request i q mn to]) i ((run z sfx s evs).look i).client.uids q := ⟨evs, mn, to, [], rfl, rfl, h1, h2⟩
  obtain ⟨-, ⟨hv, -⟩ | ⟨-, p, id, e, hid, hs, he, x, hx, x1, x2⟩⟩ := look_request (hI.look i) (hf0 i) (q := q) (mn := mn) (to := to)
    (fun h1 h2 => ⟨hask, hu.query i q mn to (List.mem_append_right _ List.mem_cons_self) h1 h2⟩) hu.suffix
  · rw [h1, h2] at hv; cases hv
  · refine ⟨_, p, hask, ?_, ?_, ?_, id, ?_⟩
    · rintro q' ⟨pre, mn', to', post, e', hu', v1, v2⟩
      have c1 := asked_counts (z := z) (sfx := sfx) (s := s) (pre := pre) (i := i) (mn := mn') (to := to') v1 v2
      have c2 := uids_mono z sfx s (pre ++ [.request i q' mn' to']) post i
      rw [List.append_assoc, List.singleton_append, ← e'] at c2
      omega
    · have hlk : (run z sfx s (evs ++ [.request i q mn to])).look i = (((run z sfx s evs).look i).request q mn to).2 := by
        rw [run_cons_snoc]
        generalize run z sfx s evs = n
        show ((n.setLook i ((n.look i).request q mn to).2).send _).look i = _
        unfold Net.send
        have : (n.setLook i ((n.look i).request q mn to).2).look i = ((n.look i).request q mn to).2 := if_pos rfl
        split <;> exact this
      rw [← hlk] at hx
      obtain ⟨cevs, ec⟩ := (hI'.look i).client
      have hm := hf i
      unfold story
      rw [ec] at hx hm ⊢
      have hR := Client.run_rest {} 0 cevs hm
      have hx' := Client.find_eq hR.inv.nodup hx
      rw [x1] at hx'
      exact Client.open_of hR.inv hx' (hR.qt _)
    · rw [run_cons_snoc]
      show p ∈ (Net.send _ (((run z sfx s evs).look i).request q mn to).1).air
      rw [e]
      exact List.mem_cons_self
    · rw [List.take_of_length_le (query_packet hid he).1]
      exact c46_query_partial hid hs he

theorem open_req {c : Client} (h : ∃ cevs, c = Client.run {} 0 cevs) (hm : c.uids ≤ Client.MAX) {u : Nat} (ho : Open (hist u c.log)) :
    ∃ r, c.req? u = some r := by
  obtain ⟨cevs, rfl⟩ := h
  have hi := (Client.run_rest {} 0 cevs hm).inv
  by_cases hlt : u < (Client.run {} 0 cevs).uids
  · rcases hi.known u hlt with h | h | h
    · exact h
    · exact absurd h ho.2.1
    · exact absurd h ho.2.2
  · have := hi.fresh u (by omega)
    rw [this] at ho
    obtain ⟨_, _, _, h⟩ := ho.1
    cases h

theorem req_open {c : Client} (h : ∃ cevs, c = Client.run {} 0 cevs) (hm : c.uids ≤ Client.MAX) {r : CReq} (hr : r ∈ c.reqs) :
    Open (hist r.uid c.log) := by
  obtain ⟨cevs, rfl⟩ := h
  have hR := Client.run_rest {} 0 cevs hm
  exact Client.open_of hR.inv (Client.find_eq hR.inv.nodup hr) (hR.qt _)

/-- C71: if a packet that asks for `q` reaches the server of a site, and the server answers `r`,
it sends a packet that brings `r` to every open lookup of `q`, of any user, that hears it while no
other lookup of `q` is open in the same program, however late that is and whatever happens in
between. -/
theorem c71_heard_partial {z : Zone} {sfx : Bytes} {s : Start} {evs : List Ev} {j : Nat} {p : Bytes} {now : Int} {sc : Script}
    (hu : Usable sfx s evs) (ho : Own evs) (hf : Few (run z sfx s evs)) (hp : p ∈ (run z sfx s evs).air) {q : Query}
    (hc : Carries sfx p q) {r : Result} (hs : Says z (run z sfx s evs) j now sc q r) :
    ∃ a, ∀ evs2, Usable sfx s (evs ++ .serve j p now sc :: evs2) → Own (evs ++ .serve j p now sc :: evs2) →
      Few (run z sfx s (evs ++ .serve j p now sc :: evs2)) → ∀ i u, Asked z sfx s (evs ++ .serve j p now sc :: evs2) i u q →
      Open (story (run z sfx s (evs ++ .serve j p now sc :: evs2)) i u) →
      (∀ v, Asked z sfx s (evs ++ .serve j p now sc :: evs2) i v q →
        Open (story (run z sfx s (evs ++ .serve j p now sc :: evs2)) i v) → v = u) →
      .rx r ∈ story (run z sfx s (evs ++ .serve j p now sc :: evs2 ++ [.hear i a])) i u := by
  have hI := run_inv hu ho hf
  obtain ⟨hsay, hrc⟩ := hs
  obtain ⟨id, hd⟩ := hc
  rcases hI.air p hp with ⟨id', q', hid, hq, he⟩ | ⟨id', k, q', r', hid, -, -, -, -, -, he⟩
  rotate_left
  · obtain ⟨h1, h2⟩ := answer_packet hid he
    rw [List.take_of_length_le h1, h2] at hd
    cases hd
  obtain ⟨hlen, -⟩ := query_packet hid he
  have hdec := c46_query_partial hid hq he
  rw [List.take_of_length_le hlen, hdec] at hd
  cases hd
  obtain ⟨ha, hlast⟩ := serverRx_answer (hI.srv j).1 (hI.srv j).2 hsay hrc
  obtain ⟨a, hans⟩ := (c46_fits id hq hu.suffix).2 r ha
  obtain ⟨al, -⟩ := answer_packet hid hans
  have hres := c46_result_partial hid hq ha hans
  have hsent : a ∈ (run z sfx s (evs ++ [.serve j p now sc])).air := by
    rw [run_cons_snoc]
    unfold step
    dsimp only
    rw [if_pos hp]
    have : (exec (serverPacket z now ((run z sfx s evs).site j).srv ((run z sfx s evs).site j).sys.proxy sfx p)
        ((run z sfx s evs).site j).sys.db sc).1 = some (.ok (some a)) := by
      unfold serverPacket
      rw [List.take_of_length_le hlen, hdec]
      dsimp only
      rw [exec_map, hsay, Option.map_some, answerPacket, if_neg (by simpa using hrc), hans]
    rw [this]
    exact List.mem_cons_self
  refine ⟨a, fun evs2 hu2 ho2 hf2 i u hask hopen huniq => ?_⟩
  generalize hev : evs ++ .serve j p now sc :: evs2 = all at *
  have hair : a ∈ (run z sfx s all).air := by
    have mono : ∀ (l2 l1 : List Ev), a ∈ (run z sfx s l1).air → a ∈ (run z sfx s (l1 ++ l2)).air := by
      intro l2
      induction l2 with
      | nil => intro l1 h; rw [List.append_nil]; exact h
      | cons e l2 ih =>
        intro l1 h
        have := ih (l1 ++ [e]) (by rw [run_cons_snoc]; exact air_mono _ _ _ _ h)
        simpa using this
    have := mono evs2 _ hsent
    rw [← hev]
    simpa using this
  have hI2 := run_inv hu2 ho2 hf2
  have hl := hI2.look i
  rw [run_cons_snoc]
  generalize run z sfx s all = n at *
  obtain ⟨x, hx⟩ := open_req hl.client (hf2 i) hopen
  obtain ⟨hxm, rfl⟩ := Client.req?_some hx
  have hxq : x.query = q := asked_unique (hl.reqs x hxm).1 hask
  have hrecv : (n.look i).mth.recv a = .ok (some (x.handle, r)) := by
    unfold Method.recv
    rw [hl.suffix, List.take_of_length_le al, hres]
    dsimp only
    have : (n.look i).mth.handleFor q = some x.handle := by
      unfold Method.handleFor
      obtain ⟨m, hm, m1, m2⟩ := (hl.sync.mem _ _).2 ⟨x, hxm, rfl, rfl⟩
      cases hfd : (n.look i).mth.reqs.find? _ with
      | none =>
        have := List.find?_eq_none.1 hfd m hm
        rw [m2, hxq] at this
        exact absurd (by simpa using (c45_cmp _ _ (valid_text hq.valid) (valid_text hq.valid)).2 rfl) this
      | some w =>
        have hw := List.mem_of_find?_eq_some hfd
        have hc := List.find?_some hfd
        simp only [Bool.and_eq_true, decide_eq_true_eq] at hc
        obtain ⟨y, hy, e1, e2⟩ := (hl.sync.mem _ _).1 ⟨w, hw, rfl, rfl⟩
        have hid := (c45_cmp _ _ (by rw [← e2]; exact valid_text (hl.reqs y hy).2.valid) (valid_text hq.valid)).1 hc.2
        have hyq : y.query = q := by rw [e2]; exact query_ext hc.1 hid
        have := huniq y.uid (by rw [← hyq]; exact (hl.reqs y hy).1) (req_open hl.client (hf2 i) hy)
        have h1 := Client.find_eq (inv_max hl.client (hf2 i)).nodup hy
        have h2 := Client.find_eq (inv_max hl.client (hf2 i)).nodup hxm
        rw [this, h2] at h1
        rw [Option.map_some, ← e1, Option.some.inj h1]
    rw [this]
    obtain ⟨a1, a2, a3, a4, a5⟩ := r
    cases hrc
    cases hlast
    rfl
  have hg : (n.look i).client.getReq x.handle = some x := by
    have hi := inv_max hl.client (hf2 i)
    rw [(hi.base x hxm).2.1]
    exact Client.getReq_of hi.toInv (Client.find_eq hi.nodup hxm)
  unfold story
  rw [mem_hist]
  have : ((step z sfx n (.hear i a)).look i).client = rxResult note (n.look i).client x.handle r := by
    unfold step
    dsimp only
    rw [if_pos hair]
    unfold Look.hear
    rw [hrecv]
    dsimp only
    show (if i = i then _ else _ : Look).client = _
    rw [if_pos rfl]
    rfl
  rw [this]
  exact rx_noted hg

/-- C71: when a user is told that a lookup is over, the youngest of all answers that were heard
for it has been reported; and "not found" is only said if none was heard. -/
theorem c71_final_partial {z : Zone} {sfx : Bytes} {s : Start} {evs : List Ev} (hu : Usable sfx s evs) (ho : Own evs)
    (hf : Few (run z sfx s evs)) {i u : Nat} {l1 l2 : List Obs} {r : Result}
    (h : story (run z sfx s evs) i u = l1 ++ .cb r :: l2) (hl : r.last = true) :
    (∀ x, .rx x ∈ l2 → x.rc = .result → ∃ y, .cb y ∈ .cb r :: l2 ∧ y.rc = .result ∧ y.age ≤ x.age)
    ∧ (r.rc = .notFound → ∀ x, .rx x ∈ l1 ++ .cb r :: l2 → x.rc ≠ .result) := by
  obtain ⟨cevs, ec⟩ := ((run_inv hu ho hf).look i).client
  have hm := hf i
  unfold story at h
  rw [ec] at h hm
  have hfin := c44_final_partial {} 0 cevs (Client.recent_of_few (Nat.le_succ_of_le hm)) u l1 l2 r h hl
  have honce := (c43_once_partial {} 0 cevs (Client.recent_of_few (Nat.le_succ_of_le hm)) u).1 l1 r l2 h hl
  constructor
  · intro x hx hrc
    rcases hfin with ⟨e, -⟩ | ⟨w, ⟨-, hw⟩, y, hy, hs⟩
    · have := mem_arrived.2 ⟨hx, hrc⟩
      rw [e] at this; cases this
    · obtain ⟨hy, hyrc⟩ := mem_reported.1 hy
      exact ⟨y, hy, hyrc, by rw [hs.2.2]; exact hw x (mem_arrived.2 ⟨hx, hrc⟩)⟩
  · intro hr x hx hrc
    have hx2 : Obs.rx x ∈ l2 := by
      rcases List.mem_append.1 hx with hx | hx
      · cases honce.1 _ hx
      · rcases List.mem_cons.1 hx with hx | hx
        · cases hx
        · exact hx
    have hall := (Client.run_rest {} 0 cevs hm).inv.ok u
    rw [h] at hall
    have := (Client.ok_at hall).2.2.2.1 hl
    rcases this with e | ⟨-, e⟩ | ⟨e, -⟩
    · rw [hr] at e; cases e
    · have hm' := mem_arrived.2 ⟨hx2, hrc⟩
      rw [e] at hm'; cases hm'
    · rw [hr] at e; cases e

/-- C71: no program runs into undefined behaviour by the packets of the others, as long as no
server does by the names in its own database (see C41). -/
theorem c71_safe_partial {z : Zone} {sfx : Bytes} {s : Start} {evs : List Ev} (hu : Usable sfx s evs) (ho : Own evs)
    (hf : Few (run z sfx s evs))
    (hub : ∀ pre j p now sc post, evs = pre ++ .serve j p now sc :: post → ∀ q,
      (exec (serverRx z now ((run z sfx s pre).site j).srv ((run z sfx s pre).site j).sys.proxy q) ((run z sfx s pre).site j).sys.db sc).1
        ≠ some none) : (run z sfx s evs).ub = false := by
  induction evs using snoc_induction with
  | nil => rfl
  | snoc evs e ih =>
    have hf0 := Few.before hf
    have h0 := ih (usable_before hu) (own_before ho) hf0 (fun pre j p now sc post he => hub pre j p now sc (post ++ [e]) (by rw [he]; simp))
    have hI := run_inv (usable_before hu) (own_before ho) hf0
    have hub := fun j p now sc (he : e = .serve j p now sc) => hub evs j p now sc [] (by rw [he])
    rw [run_cons_snoc]
    generalize hn : run z sfx s evs = n at *
    cases e with
    | request i q mn to =>
      have hI' := hI.mono [.request i q mn to]
      obtain ⟨-, h2⟩ := look_request (hI'.look i) (hf0 i) (q := q) (mn := mn) (to := to) (fun h1 h2 =>
        ⟨⟨evs, mn, to, [], rfl, by rw [hn], h1, h2⟩, hu.query i q mn to (List.mem_append_right _ List.mem_cons_self) h1 h2⟩) hu.suffix
      show (Net.send _ _).ub = false
      rcases h2 with ⟨-, e⟩ | ⟨-, p', id, e, -⟩
      · rw [e]; exact h0
      · rw [e]; exact h0
    | serve j p now sc =>
      unfold step
      dsimp only
      split
      · rename_i hp
        split
        · exact h0
        · rename_i o h
          have := (serve_spec hn.symm hI hu.suffix hp h).1
          cases o with
          | crash =>
            obtain ⟨q, hq⟩ := this rfl
            exact absurd hq (hub j p now sc rfl q)
          | error => exact h0
          | ok x => cases x <;> exact h0
      · exact h0
    | hear i p =>
      unfold step
      dsimp only
      split
      · rename_i hp
        have hr := (recv_spec (hI.look i) (hI.air p hp)).1
        have : ((n.look i).hear p).1 ≠ .crash := by
          unfold Look.hear
          split
          · rename_i e; exact absurd e hr
          · exact fun e => by cases e
          · exact fun e => by cases e
          · exact fun e => by cases e
        split
        · rename_i e; exact absurd e this
        · exact h0
      · exact h0
    | hlr => exact h0
    | conf => exact h0
    | cancel => exact h0
    | timeout => exact h0
    | inject p => exact absurd (List.mem_append_right _ List.mem_cons_self) (ho p)

end Verif.Net.Props
