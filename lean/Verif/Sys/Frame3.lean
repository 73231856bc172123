import Verif.Sys.Frame2
/-! # Waiting requests, event by event -/
namespace Verif.Sys
open Verif Verif.Db Verif.Gsup Verif.Hlr

/-- Nothing waits that did not wait before, except requests in `Q`. -/
def WFr (Q : Req → Prop) (s t : Sys) : Prop := ∀ q ∈ waiting t, q ∈ waiting s ∨ Q q

theorem WFr.same {Q : Req → Prop} {s t : Sys} (h1 : t.lus = s.lus) (h2 : t.sess = s.sess)
    (h3 : t.pending = s.pending) : WFr Q s t := by
  intro q hq
  unfold waiting at hq
  rw [h1, h2, h3] at hq
  exact .inl hq

theorem wfr_sess (Q : Req → Prop) : SessOp Q (WFr Q) := by
  intro t l h q hq
  rcases waiting_cases hq with ⟨lu, h1, rfl⟩ | ⟨x, hx, hr⟩ | hq
  · exact .inl (waiting_lu h1)
  · rcases h x hx with hx | hx
    · exact .inl (waiting_sess hx hr)
    · exact .inr (hx q hr)
  · exact .inl (waiting_pend hq)

theorem wfr_lus (Q : Req → Prop) (t : Sys) (l : List Lu) (h : ∀ lu ∈ l, lu ∈ t.lus ∨ Q lu.req) :
    WFr Q t { t with lus := l } := by
  intro q hq
  rcases waiting_cases hq with ⟨lu, hl, rfl⟩ | ⟨x, hx, hr⟩ | hq
  · rcases h lu hl with hl | hl
    · exact .inl (waiting_lu hl)
    · exact .inr hl
  · exact .inl (waiting_sess (s := t) hx hr)
  · exact .inl (waiting_pend hq)

theorem wfr_prims (cfg : Cfg) (Q : Req → Prop) : Prims cfg Q (WFr Q) where
  refl _ := WFr.same rfl rfl rfl
  trans h h' q hq := by
    rcases h' q hq with h1 | h1
    · exact h q h1
    · exact .inr h1
  db _ _ _ := WFr.same rfl rfl rfl
  ub _ := WFr.same rfl rfl rfl
  crash s q hq := by simp [waiting, Sys.crash] at hq
  tx _ _ _ _ := WFr.same rfl rfl rfl
  concl _ _ _ _ := WFr.same rfl rfl rfl
  resp s q m _ _ := by rw [sendReqResponse_frame]; exact WFr.same rfl rfl rfl
  dg _ _ _ := WFr.same rfl rfl rfl
  pend s l h q hq := by
    rcases waiting_cases hq with ⟨lu, hl, rfl⟩ | ⟨x, hx, hr⟩ | hq
    · exact .inl (waiting_lu hl)
    · exact .inl (waiting_sess (s := s) hx hr)
    · rcases h q hq with hq | hq
      · exact .inl (waiting_pend hq)
      · exact .inr hq
  remote _ _ _ _ _ := WFr.same rfl rfl rfl
  remoteTx _ _ _ _ := WFr.same rfl rfl rfl
  remoteRx _ _ _ := WFr.same rfl rfl rfl

theorem wfr_readCb (cfg : Cfg) (e : Env) (k : Conn) {q : Req} (s : Sys) {Q : Req → Prop}
    (hq : Q q) (hw : ∀ r ∈ waiting s, Q r) : WFr Q s (readCb cfg e k q s) := by
  have pr := wfr_prims cfg Q
  have w1 : ∀ lu ∈ s.lus, Q lu.req := fun lu hl => hw _ (waiting_lu hl)
  have w2 : ∀ x ∈ s.sess, ∀ r ∈ x.reqs, Q r := fun x hx r hr => hw _ (waiting_sess hx hr)
  refine pr.readCb e k hq ?_ ?_ ?_ (fun r hr => hw _ (waiting_pend hr))
  · intro _
    refine pr.updLoc e hq k (WFr.same rfl rfl rfl) (fun t lu e => wfr_lus Q t _ ?_)
    intro lu' hl
    rcases List.mem_cons.1 hl with rfl | hl
    · exact .inr (e ▸ hq)
    · exact .inl hl
  · intro h
    exact pr.procSs (wfr_sess Q) e hq h w2
  · refine pr.luRx hq w1 (fun t lu => wfr_lus Q t _ fun l hl => .inl (List.mem_of_mem_erase hl)) ?_
    intro t lu _ _ _ _
    rw [respondMsgt_frame]
    exact WFr.same rfl rfl rfl

/-! ## Requests that can be answered -/

/-- The names of a request are registered for the connection it came from, if that is
still there. -/
structure Known (s : Sys) (q : Req) : Prop where
  old : q.conn < s.nextConn
  src : q.conn ∈ s.conns.map (·.id) → routeFind s.routes q.source.name = some q.conn
  via : q.conn ∈ s.conns.map (·.id) → ∀ n, q.viaProxy = .ipa n → routeFind s.routes n.name = some q.conn

theorem Known.stays {s t : Sys} {q : Req} (h : Known s q) (hs : RouteStays s t) : Known t q := by
  obtain ⟨h1, h2, h3⟩ := hs
  have hin : q.conn ∈ t.conns.map (·.id) → q.conn ∈ s.conns.map (·.id) := by
    intro hc
    rcases h2 _ hc with hc | hc
    · exact hc
    · exact absurd hc (Nat.ne_of_lt h.old)
  refine ⟨Nat.lt_of_lt_of_le h.old h3, ?_, ?_⟩
  · intro hc
    rcases h1 _ _ (h.src (hin hc)) with h' | h'
    · exact h'
    · exact absurd hc h'
  · intro hc n hn
    rcases h1 _ _ (h.via (hin hc) n hn) with h' | h'
    · exact h'
    · exact absurd hc h'

theorem Known.routing {s : Sys} {q : Req} (h : Known s q) (hc : q.conn ∈ s.conns.map (·.id)) (m : Msg) :
    routeFind s.routes (q.routing m).name = some q.conn := by
  unfold Req.routing
  split
  · rename_i n hn
    split
    · exact h.via hc n hn
    · exact h.src hc
  · exact h.src hc

/-- A message that comes from a connection registered under its own name and that does not
claim a name registered for another connection. -/
def Proper (s : Sys) : Ev → Prop
  | .rx c (some m) _ => ∀ k, s.conn? c = some k →
      k.name.isEmpty = false ∧ routeFind s.routes k.name.name = some c
      ∧ (m.src = [] ∨ ∀ c', routeFind s.routes m.src = some c' → c' = c)
  | _ => True

/-- All messages of a history are proper. -/
def ProperHist (s : Sys) : List (Cfg × Ev) → Prop
  | [] => True
  | x :: l => Proper s x.2 ∧ ProperHist (step x.1 s x.2) l

theorem routeFind_routeAdd {rs : List (Bytes × ConnId)} {c : ConnId} {a : Bytes}
    (h : ∀ c', routeFind rs a = some c' → c' = c) : routeFind (routeAdd rs c a).2 a = some c := by
  unfold routeAdd
  split
  · rename_i c' hc
    rw [hc, h c' hc]
  · rename_i hn
    simp only [routeFind] at hn ⊢
    rw [List.find?_append]
    have : rs.find? (·.1 == a) = none := by simpa using hn
    rw [this]; simp

theorem name_set {n : IpaName} {v : Bytes} (h : (ipaSet n v).1 = 0) : (ipaSet n v).2.name = v := by
  unfold ipaSet at h ⊢
  split
  · rename_i he
    cases v with
    | nil => rfl
    | cons x l => simp at he
  · split
    · rename_i h1 h2; rw [if_neg h1, if_pos h2] at h; simp at h
    · simp [IpaName.name]

/-- The routes with which a new request is handled. -/
def routesFor (s : Sys) (c : ConnId) (q : Req) : List (Bytes × ConnId) :=
  if q.viaProxy.isEmpty then s.routes else (routeAdd s.routes c q.source.name).2

/-- The request of a proper message is known once it is accepted. -/
theorem known_new {s : Sys} (hi : Inv [] s) {c : ConnId} {m : Msg} {e : Env} (hp : Proper s (.rx c (some m) e))
    {q : Req} (hq : IsNew s c m q) :
    q.conn = c ∧ q.nr = s.nextReq ∧ q.gsup = m ∧ q.conn ∈ s.conns.map (·.id)
    ∧ Known { s with routes := routesFor s c q } q
    ∧ (∀ m' c', routeFind s.routes (q.routing m').name = some c' → c' = c) := by
  obtain ⟨k, hk, hq⟩ := hq
  obtain ⟨hne, hreg, hsrc⟩ := hp k hk
  obtain ⟨hm, hid⟩ := conn?_some hk
  have hmem : c ∈ s.conns.map (·.id) := List.mem_map.2 ⟨k, hm, hid⟩
  have hlt : c < s.nextConn := hid ▸ hi.connFresh k hm
  have wf := hi.connWf k hm
  have plain : ∀ q : Req, q.conn = c → q.source.name = k.name.name → q.viaProxy = .empty →
      Known { s with routes := routesFor s c q } q
      ∧ (∀ m' c', routeFind s.routes (q.routing m').name = some c' → c' = c) := by
    intro q h1 h2 h3
    have hrs : routesFor s c q = s.routes := by unfold routesFor; rw [h3]; rfl
    rw [hrs]
    refine ⟨⟨?_, ?_, ?_⟩, ?_⟩
    · rw [h1]; exact hlt
    · intro _; rw [h1, h2]; exact hreg
    · intro _ n hn; rw [h3] at hn; cases hn
    · intro m' c' h
      have : q.routing m' = q.source := by unfold Req.routing; rw [h3]
      rw [this, h2, hreg] at h
      exact (Option.some.inj h).symm
  rcases hq with ⟨-, -, rfl⟩ | ⟨hok, rfl⟩
  · exact ⟨rfl, rfl, rfl, hmem, plain _ rfl rfl rfl⟩
  · obtain ⟨-, e1, e2, e3⟩ := mkReq_ok wf s.nextReq m
    rw [hid] at e2
    refine ⟨e2, e1, e3, e2 ▸ hmem, ?_⟩
    by_cases hs : m.src.isEmpty = true
    · refine plain _ e2 ?_ ?_ <;> (unfold mkReq; rw [if_pos hs])
    · have hset : (ipaSet k.name m.src).1 = 0 := by
        apply Decidable.byContradiction
        intro h; exact hok ⟨by simpa using hs, h⟩
      have hn : (ipaSet k.name m.src).2.name = m.src := name_set hset
      have hsrc : ∀ c', routeFind s.routes m.src = some c' → c' = c := by
        rcases hsrc with h | h
        · rw [h] at hs; simp at hs
        · exact h
      by_cases hc : ipaCmp (ipaSet k.name m.src).2 k.name ≠ 0
      · have hq : mkReq k s.nextReq m =
            ⟨s.nextReq, k.id, m, (ipaSet k.name m.src).2, .ipa k.name⟩ := by
          unfold mkReq; rw [if_neg hs]; dsimp only; rw [if_pos hc]
        rw [hq]
        have hrs : routesFor s c ⟨s.nextReq, k.id, m, (ipaSet k.name m.src).2, .ipa k.name⟩
            = (routeAdd s.routes c m.src).2 := by
          unfold routesFor
          simp only [PeerId.isEmpty, hne, Bool.false_eq_true, if_false, hn]
        rw [hrs]
        refine ⟨⟨?_, ?_, ?_⟩, ?_⟩
        · show k.id < s.nextConn
          rw [hid]; exact hlt
        · intro _
          show routeFind (routeAdd s.routes c m.src).2 (ipaSet k.name m.src).2.name = some k.id
          rw [hn, hid]; exact routeFind_routeAdd hsrc
        · intro _ n hn'
          cases hn'
          show routeFind (routeAdd s.routes c m.src).2 k.name.name = some k.id
          rw [hid]; exact routeFind_add hreg
        · intro m' c' h
          unfold Req.routing at h
          dsimp only at h
          split at h
          · rw [hreg] at h; exact (Option.some.inj h).symm
          · rw [hn] at h; exact hsrc c' h
      · refine plain _ e2 ?_ ?_
        · unfold mkReq
          rw [if_neg hs]
          dsimp only
          have := Decidable.not_not.1 hc
          rw [ipaCmp_eq (ipaSet_wf wf _) wf, lexCmp_eq_zero] at this
          exact this
        · unfold mkReq
          rw [if_neg hs]
          dsimp only
          rw [if_neg hc]

/-- Every waiting request is known. -/
def AllKnown (s : Sys) : Prop := ∀ q ∈ waiting s, Known s q

theorem AllKnown.after {s t : Sys} (h : AllKnown s) (hw : WFr (Known s) s t) (hs : RouteStays s t) :
    AllKnown t := by
  intro q hq
  rcases hw q hq with h1 | h1
  · exact (h q h1).stays hs
  · exact h1.stays hs

theorem allKnown_rx {s : Sys} (cfg : Cfg) (e : Env) (c : ConnId) (mo : Option Msg) (hi : Inv [] s)
    (h : AllKnown s) (hp : Proper s (.rx c mo e)) : AllKnown (rx cfg e c mo s) := by
  have same : ∀ t : Sys, t.lus = s.lus → t.sess = s.sess → t.pending = s.pending →
      RFr s t → AllKnown t := by
    intro t h1 h2 h2' h3
    exact h.after (WFr.same h1 h2 h2') h3.stays
  unfold rx
  split
  · exact h
  · rename_i k hk
    dsimp only
    split
    · exact same _ rfl rfl rfl ⟨rfl, .inl ⟨rfl, rfl⟩⟩
    · rename_i m
      split
      · rw [respondMsgt_frame]
        exact same _ rfl rfl rfl ⟨rfl, .inl ⟨rfl, rfl⟩⟩
      · rename_i hok
        split
        · rw [respondErr_frame]
          exact same _ rfl rfl rfl ⟨rfl, .inl ⟨rfl, rfl⟩⟩
        · have hnew : IsNew s c m (mkReq k s.nextReq m) := ⟨k, hk, .inr ⟨hok, rfl⟩⟩
          obtain ⟨-, -, -, -, hkn, -⟩ := known_new hi hp hnew
          have hid := (conn?_some hk).2
          have go : ∀ rs, (∀ a c', routeFind s.routes a = some c' → routeFind rs a = some c') →
              Known { s with routes := rs } (mkReq k s.nextReq m) →
              AllKnown (readCb cfg e k (mkReq k s.nextReq m) { s with
                nextReq := s.nextReq + 1, routes := rs, log := .rx s.nextReq c (some m) :: s.log }) := by
            intro rs hrs hkn
            have h1 : AllKnown { s with
                nextReq := s.nextReq + 1, routes := rs, log := .rx s.nextReq c (some m) :: s.log } := by
              intro q hq
              have := h q hq
              exact ⟨this.old, fun hc => hrs _ _ (this.src hc), fun hc n hn => hrs _ _ (this.via hc n hn)⟩
            refine h1.after (wfr_readCb cfg e k _ ⟨hkn.old, hkn.src, hkn.via⟩ ?_) (rfr_readCb ..).stays
            exact fun r hr => h1 r hr
          unfold connRx
          split
          · rename_i hv
            refine go s.routes (fun _ _ h => h) ?_
            have : routesFor s c (mkReq k s.nextReq m) = s.routes := by unfold routesFor; rw [if_pos hv]
            rw [this] at hkn; exact hkn
          · rename_i hv
            have hrs : routesFor s c (mkReq k s.nextReq m)
                = (routeAdd s.routes k.id (mkReq k s.nextReq m).source.name).2 := by
              unfold routesFor; rw [if_neg hv, hid]
            rw [hrs] at hkn
            dsimp only
            split
            · rw [respondMsgt_frame]
              intro q hq
              have := h q hq
              exact ⟨this.old, fun hc => routeFind_add (this.src hc),
                fun hc n hn => routeFind_add (this.via hc n hn)⟩
            · exact go _ (fun _ _ h => routeFind_add h) hkn

theorem allKnown_step {s : Sys} (cfg : Cfg) (ev : Ev) (hd : Done s) (h : AllKnown s) (hp : Proper s ev) :
    AllKnown (step cfg s ev) := by
  have hs := step_stays cfg ev hd
  have w1 : ∀ lu ∈ s.lus, Known s lu.req := fun lu hl => h _ (waiting_lu hl)
  have w2 : ∀ x ∈ s.sess, ∀ r ∈ x.reqs, Known s r := fun x hx r hr => h _ (waiting_sess hx hr)
  have w3 : ∀ r ∈ s.pending, Known s r := fun r hr => h _ (waiting_pend hr)
  have pr := wfr_prims cfg (Known s)
  unfold step at hs ⊢
  by_cases hu : s.ub = true
  · rw [if_pos hu]; exact h
  · rw [if_neg hu] at hs ⊢
    obtain ⟨P, hi, hP⟩ := hd
    have := hP (by simpa using hu)
    subst this
    cases ev with
    | connect => exact h.after (WFr.same rfl rfl rfl) hs
    | ccm c sernr =>
      dsimp only at hs ⊢
      split
      · exact h
      · rename_i k hk
        rw [hk] at hs
        refine h.after ?_ hs
        unfold ccmCb
        split <;> exact WFr.same rfl rfl rfl
    | close c =>
      dsimp only at hs ⊢
      split
      · exact h
      · rename_i k hk
        rw [hk] at hs
        exact h.after (WFr.same rfl rfl rfl) hs
    | rx c m e => exact allKnown_rx cfg e c m hi h hp
    | luTimeout nr =>
      exact h.after (pr.luTimeout nr w1 fun t lu =>
        wfr_lus _ t _ fun l hl => .inl (List.mem_of_mem_erase hl)) hs
    | ssTimeout imsi id => exact h.after (pr.ssTimeout (wfr_sess _) imsi id w2) hs
    | db op sc => exact h.after (pr.withDb (api_op trivial) (pr.refl s) (fun a d _ h => h)) hs
    | notify imsi sc =>
      refine h.after (pr.withDb (api_getByImsi _) (pr.refl s) (fun a d _ h => ?_)) hs
      split
      · exact pr.trans h (pr.notify _ _ _)
      · exact h
    | nam imsi val isPs sc sc' =>
      refine h.after (pr.withDb (api_getByImsi _) (pr.refl s) (fun a d _ h => ?_)) hs
      split
      · exact pr.trans h (pr.nam _ _ _ _ _)
      · exact h
    | remoteUp a => exact h.after (pr.remoteUp a s w3).1 hs
    | remoteDown a => exact h.after (pr.remoteDown a s w3).1 hs
    | remoteLost a => exact h.after (pr.remoteLost a s w3).1 hs
    | remoteRx a m e => exact h.after (pr.rxRemote e a m s trivial w3).1 hs
    | lookup imsi res e => exact h.after (pr.lookupResult e imsi res s w3).1 hs
    | proxyGc clock => exact h.after (pr.setProxy s _ w3).1 hs
    | kill => exact h.after (pr.crash s) hs

theorem allKnown_run {s : Sys} (evs : List (Cfg × Ev)) (hd : Done s) (h : AllKnown s)
    (hp : ProperHist s evs) : AllKnown (run s evs) := by
  induction evs generalizing s with
  | nil => exact h
  | cons x l ih => exact ih (done_step x.1 x.2 hd) (allKnown_step x.1 x.2 hd h hp.1) hp.2

end Verif.Sys
