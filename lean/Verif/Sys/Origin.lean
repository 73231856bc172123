import Verif.Sys.HomeHist
/-!
# Where messages come from that an HLR sends without being asked

Location update results and authentication results that are not the HLR's own answers.
-/
namespace Verif.Sys
open Verif Verif.Db Verif.Gsup Verif.Hlr Verif.Sys.Props

/-- The results that let a subscriber into the network: that of an Update Location Request and
that of a Send Auth Info Request. -/
def IsGrant (t : Nat) : Prop := t = UPDATE_LOCATION + 2 ∨ t = SEND_AUTH_INFO + 2

instance (t : Nat) : Decidable (IsGrant t) := inferInstanceAs (Decidable (_ ∨ _))

/-- What a handler may add to the log. -/
def Fine (U : Msg → Prop) : Out → Prop
  | .tx _ m none => U m
  | .remote _ m none => ∃ t, m.typ = toError t
  | .rx _ _ _ => False
  | _ => True

def OFr (U : Msg → Prop) (s t : Sys) : Prop := ∃ l, t.log = l ++ s.log ∧ ∀ o ∈ l, Fine U o

section
variable {U : Msg → Prop}

theorem OFr.same {s t : Sys} (h : t.log = s.log) : OFr U s t := ⟨[], h, fun _ h => by cases h⟩

theorem OFr.one {s t : Sys} {o : Out} (h : t.log = o :: s.log) (ho : Fine U o) : OFr U s t :=
  ⟨[o], h, fun _ h => by rw [List.mem_singleton.1 h]; exact ho⟩

theorem OFr.trans {s t u : Sys} (h : OFr U s t) (h' : OFr U t u) : OFr U s u := by
  obtain ⟨l, e, p⟩ := h
  obtain ⟨l', e', p'⟩ := h'
  refine ⟨l' ++ l, by rw [e', e, List.append_assoc], fun o ho => ?_⟩
  rcases List.mem_append.1 ho with c | c
  · exact p' o c
  · exact p o c

theorem OFr.send (cfg : Cfg) (s : Sys) (q : Req) (m : Msg) : OFr U s (sendReqResponse cfg s q m) := by
  unfold sendReqResponse
  split
  · exact .same rfl
  · split
    · exact .one rfl trivial
    · exact .same rfl

theorem ofr_prims (cfg : Cfg) (Q : Req → Prop) (own : ∀ m : Msg, ¬ IsGrant m.typ → U m)
    (fwd : ∀ (q : Req) (m : Msg), Q q → m.typ = q.gsup.typ → U m) :
    Prims cfg Q (OFr U) AnyOp (fun t => t ≠ UPDATE_LOCATION + 2) U where
  refl _ := .same rfl
  trans := OFr.trans
  db _ _ _ := .same rfl
  ub _ := .same rfl
  crash _ := .one rfl trivial
  tx _ c m hm := .one rfl hm
  own m h h' := own m fun c => c.elim h h'
  fwd := fwd
  concl _ q how _ := .one rfl trivial
  resp s q m _ _ := .send cfg s q m
  dg _ _ _ := .same rfl
  pend _ _ _ := .same rfl
  remote _ q a m _ := .one rfl trivial
  remoteTx _ a m h := .one rfl h
  remoteRx _ a m := .one rfl trivial

/-- One event. -/
theorem step_origin {G : Nat → Prop} (hG : ∀ t, G t → IsGrant t) (cfg : Cfg) (s : Sys) (ev : Ev) (hw : ∀ q ∈ waiting s, ¬ G q.gsup.typ)
    (hev : ∀ c m e, ev = .rx c (some m) e → ¬ G m.typ) :
    ∃ l, (step cfg s ev).log = l ++ s.log ∧
      (∀ c m, .tx c m none ∈ l → G m.typ → ∃ a e, ev = .remoteRx a m e)
      ∧ (∀ a m, .remote a m none ∈ l → ∃ t, m.typ = toError t)
      ∧ ∀ nr c mo, .rx nr c mo ∈ l → ∃ e, ev = .rx c mo e := by
  have pr : Prims cfg (fun q => ¬ G q.gsup.typ) (OFr fun m => G m.typ → ∃ a e, ev = .remoteRx a m e) AnyOp
      (fun t => t ≠ UPDATE_LOCATION + 2) (fun m => G m.typ → ∃ a e, ev = .remoteRx a m e) :=
    ofr_prims cfg _ (fun m h h' => absurd (hG _ h') h) (fun q m hq ht h => absurd (ht ▸ h) hq)
  have w1 : ∀ lu ∈ s.lus, ¬ G lu.req.gsup.typ := fun lu hl => hw _ (waiting_lu hl)
  have w2 : ∀ x ∈ s.sess, ∀ r ∈ x.reqs, ¬ G r.gsup.typ := fun x hx r hr => hw _ (waiting_sess hx hr)
  have w3 : ∀ r ∈ s.pending, ¬ G r.gsup.typ := fun r hr => hw _ (waiting_pend hr)
  have fin : ∀ t, OFr (fun m => G m.typ → ∃ a e, ev = .remoteRx a m e) s t →
      ∃ l, t.log = l ++ s.log ∧
      (∀ c m, .tx c m none ∈ l → G m.typ → ∃ a e, ev = .remoteRx a m e)
      ∧ (∀ a m, .remote a m none ∈ l → ∃ t, m.typ = toError t)
      ∧ ∀ nr c mo, .rx nr c mo ∈ l → ∃ e, ev = .rx c mo e := by
    rintro t ⟨l, e, p⟩
    exact ⟨l, e, fun c m h => p _ h, fun a m h => p _ h, fun nr c mo h => (p _ h).elim⟩
  unfold step
  by_cases hu : s.ub = true
  · rw [if_pos hu]; exact fin _ (pr.refl s)
  · rw [if_neg hu]
    cases ev with
    | connect => exact fin _ (.one rfl trivial)
    | ccm c sernr =>
      dsimp only
      split
      · exact fin _ (pr.refl s)
      · unfold ccmCb
        split
        · exact fin _ (.one rfl trivial)
        · exact fin _ (.one rfl trivial)
        · exact fin _ (.same rfl)
    | close c =>
      dsimp only
      split
      · exact fin _ (pr.refl s)
      · exact fin _ (.one rfl trivial)
    | rx c mo e =>
      dsimp only
      unfold rx
      split
      · exact fin _ (pr.refl s)
      · rename_i k hk
        dsimp only
        have lift : ∀ {t rs}, OFr (fun m => G m.typ → ∃ a e', Ev.rx c mo e = .remoteRx a m e')
              { s with nextReq := s.nextReq + 1, routes := rs, log := .rx s.nextReq c mo :: s.log } t →
            ∃ l, t.log = l ++ s.log ∧
            (∀ c' m, .tx c' m none ∈ l → G m.typ → ∃ a e', Ev.rx c mo e = .remoteRx a m e')
            ∧ (∀ a m, .remote a m none ∈ l → ∃ t, m.typ = toError t)
            ∧ ∀ nr c' mo', .rx nr c' mo' ∈ l → ∃ e', Ev.rx c mo e = .rx c' mo' e' := by
          rintro t rs ⟨l, he, p⟩
          refine ⟨l ++ [.rx s.nextReq c mo], by rw [he]; simp, ?_, ?_, ?_⟩
          · intro c' m h
            rcases List.mem_append.1 h with h | h
            · exact p _ h
            · cases List.mem_singleton.1 h
          · intro a m h
            rcases List.mem_append.1 h with h | h
            · exact p _ h
            · cases List.mem_singleton.1 h
          · intro nr c' mo' h
            rcases List.mem_append.1 h with h | h
            · exact (p _ h).elim
            · cases List.mem_singleton.1 h
              exact ⟨e, rfl⟩
        split
        · exact lift (rs := s.routes) (.one rfl trivial)
        · rename_i m
          have hm := hev c m e rfl
          have hg : ¬ G (mkReq k s.nextReq m).gsup.typ := by rw [mkReq_gsup]; exact hm
          have rd : ∀ rs, OFr (fun m' => G m'.typ → ∃ a e', Ev.rx c (some m) e = .remoteRx a m' e')
              { s with nextReq := s.nextReq + 1, routes := rs, log := .rx s.nextReq c (some m) :: s.log }
              (readCb cfg e k (mkReq k s.nextReq m)
                { s with nextReq := s.nextReq + 1, routes := rs, log := .rx s.nextReq c (some m) :: s.log }) := by
            intro rs
            refine pr.readCb' e k hg ?_ ?_ ?_ ?_ w3
            · intro _
              exact pr.sai (fun _ _ => trivial) (show SEND_AUTH_INFO + 2 ≠ UPDATE_LOCATION + 2 by decide) _ e hg
            · intro _
              exact pr.updLoc e hg k (.same rfl) (fun _ _ _ => .same rfl)
            · intro h
              exact pr.procSs (fun _ _ _ => .same rfl) e hg h w2
            · refine pr.luRx hg w1 (fun _ _ => .same rfl) ?_
              intro t lu hl ht hi _
              unfold respondMsgt respond
              dsimp only
              rw [if_pos rfl]
              refine OFr.trans ?_ (pr.concl _ _ _ (w1 lu hl))
              split
              · exact pr.refl t
              · exact .send cfg t _ _
          split
          · exact lift (rs := s.routes) (pr.respondMsgt _ (q := { nr := s.nextReq, conn := c, gsup := m, source := k.name }) hm _ (by decide) (by decide))
          · split
            · exact lift (rs := s.routes) (pr.respondErr _ hg _)
            · unfold connRx
              split
              · exact lift (rd s.routes)
              · dsimp only
                split
                · exact lift (pr.respondMsgt { s with
                    nextReq := s.nextReq + 1, routes := (routeAdd s.routes k.id (mkReq k s.nextReq m).source.name).2,
                    log := .rx s.nextReq c (some m) :: s.log } hg _ (by decide) (by decide))
                · exact lift (rd _)
    | luTimeout nr => exact fin _ (pr.luTimeout nr w1 (fun _ _ => .same rfl))
    | ssTimeout imsi id => exact fin _ (pr.ssTimeout (fun _ _ _ => .same rfl) imsi id w2)
    | db op sc => exact fin _ (pr.withDb (api_op trivial) (pr.refl s) (fun a d _ h => h))
    | notify imsi sc =>
      refine fin _ (pr.withDb (api_getByImsi _) (pr.refl s) (fun a d _ h => ?_))
      split
      · exact pr.trans h (pr.notify _ _ _)
      · exact h
    | nam imsi val isPs sc sc' =>
      refine fin _ (pr.withDb (api_getByImsi _) (pr.refl s) (fun a d _ h => ?_))
      split
      · exact pr.trans h (pr.nam _ _ _ _ _)
      · exact h
    | remoteUp a => exact fin _ (pr.remoteUp a s w3).1
    | remoteDown a => exact fin _ (pr.remoteDown a s w3).1
    | remoteLost a => exact fin _ (pr.remoteLost a s w3).1
    | remoteRx a m e => exact fin _ (pr.rxRemote e a m s (fun _ => ⟨a, e, rfl⟩) w3).1
    | lookup imsi res e => exact fin _ (pr.lookupResult e imsi res s w3).1
    | proxyGc clock => exact fin _ (pr.setProxy s _ w3).1
    | kill => exact fin _ (pr.crash s)

end

/-- What has been received was sent to this HLR. -/
theorem goodLog_remote {l : List Out} (h : GoodLog l) {a : Addr} {m : Msg} {nr : Nat} (hm : .remote a m (some nr) ∈ l) :
    ∃ c m0, .rx nr c (some m0) ∈ l ∧ ∃ n, m = { m0 with src := n } := by
  induction l with
  | nil => cases hm
  | cons o l ih =>
    obtain ⟨h1, h2⟩ := h
    rcases List.mem_cons.1 hm with c | c
    · subst c
      obtain ⟨-, c, m0, hr, hn, -⟩ := h1
      exact ⟨c, m0, List.mem_cons_of_mem _ hr, hn⟩
    · obtain ⟨c', m0, hr, hn⟩ := ih h2 c
      exact ⟨c', m0, List.mem_cons_of_mem _ hr, hn⟩

/-- If no node sends such results, all that the HLR passes on to its nodes came from a remote HLR,
and it sends none to remote HLRs. -/
theorem run_origin (d : Db) (evs : List (Cfg × Ev)) (hev : ∀ cfg c m e, (cfg, .rx c (some m) e) ∈ evs → ¬ IsGrant m.typ) :
    (∀ c m, .tx c m none ∈ (run (init d) evs).log → IsGrant m.typ → ∃ cfg a e, (cfg, .remoteRx a m e) ∈ evs)
    ∧ (∀ a m nr, .remote a m nr ∈ (run (init d) evs).log → ¬ IsGrant m.typ)
    ∧ ∀ nr c mo, .rx nr c mo ∈ (run (init d) evs).log → ∃ cfg e, (cfg, .rx c mo e) ∈ evs := by
  have gen : ∀ (l pre : List (Cfg × Ev)), pre ++ l = evs →
      (∀ c m, .tx c m none ∈ (run (init d) pre).log → IsGrant m.typ → ∃ cfg a e, (cfg, .remoteRx a m e) ∈ evs) →
      (∀ a m, .remote a m none ∈ (run (init d) pre).log → ∃ t, m.typ = toError t) →
      (∀ nr c mo, .rx nr c mo ∈ (run (init d) pre).log → ∃ cfg e, (cfg, .rx c mo e) ∈ evs) →
      (∀ c m, .tx c m none ∈ (run (init d) evs).log → IsGrant m.typ → ∃ cfg a e, (cfg, .remoteRx a m e) ∈ evs)
      ∧ (∀ a m, .remote a m none ∈ (run (init d) evs).log → ∃ t, m.typ = toError t)
      ∧ (∀ nr c mo, .rx nr c mo ∈ (run (init d) evs).log → ∃ cfg e, (cfg, .rx c mo e) ∈ evs) := by
    intro l
    induction l with
    | nil =>
      intro pre hp h1 h2 h3
      rw [List.append_nil] at hp
      subst hp
      exact ⟨h1, h2, h3⟩
    | cons x l ih =>
      intro pre hp h1 h2 h3
      obtain ⟨cfg, ev⟩ := x
      have hx : (cfg, ev) ∈ evs := by rw [← hp]; exact List.mem_append_right _ List.mem_cons_self
      have hw : ∀ q ∈ waiting (run (init d) pre), ¬ IsGrant q.gsup.typ := by
        intro q hq
        obtain ⟨P, hi, -⟩ := reach_done (s := run (init d) pre) ⟨d, pre, rfl⟩
        obtain ⟨cfg, e, h⟩ := h3 _ _ _ (hi.logged q (List.mem_append_right _ hq))
        exact hev cfg _ _ e h
      obtain ⟨l', e, p1, p2, p3⟩ := step_origin (fun _ h => h) cfg (run (init d) pre) ev hw (fun c m e he => by subst he; exact hev cfg c m e hx)
      have er : (run (init d) (pre ++ [(cfg, ev)])).log = l' ++ (run (init d) pre).log := by rw [run_snoc]; exact e
      refine ih (pre ++ [(cfg, ev)]) (by rw [← hp]; simp) ?_ ?_ ?_
      · intro c m h hg
        rw [er] at h
        rcases List.mem_append.1 h with h | h
        · obtain ⟨a, e, he⟩ := p1 c m h hg
          exact ⟨cfg, a, e, by rw [← he]; exact hx⟩
        · exact h1 c m h hg
      · intro a m h
        rw [er] at h
        rcases List.mem_append.1 h with h | h
        · exact p2 a m h
        · exact h2 a m h
      · intro nr c mo h
        rw [er] at h
        rcases List.mem_append.1 h with h | h
        · obtain ⟨e, he⟩ := p3 nr c mo h
          exact ⟨cfg, e, by rw [← he]; exact hx⟩
        · exact h3 nr c mo h
  have none : ∀ o, o ∉ (run (init d) []).log := fun o h => by cases h
  obtain ⟨h1, h2, h3⟩ := gen evs [] rfl (fun c m h => absurd h (none _)) (fun a m h => absurd h (none _)) (fun nr c mo h => absurd h (none _))
  refine ⟨h1, ?_, h3⟩
  intro a m nr h
  cases nr with
  | none =>
    obtain ⟨t, ht⟩ := h2 a m h
    rw [ht]
    unfold IsGrant toError UPDATE_LOCATION SEND_AUTH_INFO
    omega
  | some nr =>
    obtain ⟨P, hi, -⟩ := reach_done (s := run (init d) evs) ⟨d, evs, rfl⟩
    obtain ⟨c, m0, hr, n, rfl⟩ := goodLog_remote hi.good h
    obtain ⟨cfg, e, h⟩ := h3 _ _ _ hr
    exact hev cfg c m0 e h

theorem evs_snoc {α : Type} {P : List α → Prop} (nil : P []) (snoc : ∀ l x, P l → P (l ++ [x])) (l : List α) : P l := by
  rw [← List.reverse_reverse l]
  induction l.reverse with
  | nil => exact nil
  | cons x l ih => rw [List.reverse_cons]; exact snoc _ x ih

/-- What an HLR sends to remote HLRs without being asked are errors, and what is in its log as received has been sent to it. -/
theorem run_received (d : Db) (evs : List (Cfg × Ev)) :
    (∀ a m, .remote a m none ∈ (run (init d) evs).log → ∃ t, m.typ = toError t)
    ∧ ∀ nr c mo, .rx nr c mo ∈ (run (init d) evs).log → ∃ cfg e, (cfg, .rx c mo e) ∈ evs := by
  induction evs using evs_snoc with
  | nil => exact ⟨fun a m h => (by cases h), fun nr c mo h => (by cases h)⟩
  | snoc evs x ih =>
    obtain ⟨cfg, ev⟩ := x
    obtain ⟨l, e, -, p2, p3⟩ := step_origin (G := fun _ => False) (fun _ h => h.elim) cfg (run (init d) evs) ev (fun _ _ h => h)
      (fun _ _ _ _ h => h)
    have er : (run (init d) (evs ++ [(cfg, ev)])).log = l ++ (run (init d) evs).log := by rw [run_snoc]; exact e
    refine ⟨fun a m h => ?_, fun nr c mo h => ?_⟩
    · rw [er] at h
      exact (List.mem_append.1 h).elim (p2 a m) (ih.1 a m)
    · rw [er] at h
      rcases List.mem_append.1 h with h | h
      · obtain ⟨e', rfl⟩ := p3 nr c mo h
        exact ⟨cfg, e', by simp⟩
      · obtain ⟨cfg', e, h⟩ := ih.2 nr c mo h
        exact ⟨cfg', e, List.mem_append_left _ h⟩

end Verif.Sys
