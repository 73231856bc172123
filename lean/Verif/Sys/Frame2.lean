import Verif.Sys.Frame
/-! # Routes and responses, event by event -/
namespace Verif.Sys
open Verif Verif.Db Verif.Gsup Verif.Hlr

/-! ## Routes and connections -/

/-- Routes and connections stay, or the process was restarted. -/
def RFr (s t : Sys) : Prop :=
  t.nextConn = s.nextConn ∧
  ((t.routes = s.routes ∧ t.conns.map (·.id) = s.conns.map (·.id)) ∨ (t.routes = [] ∧ t.conns = []))

theorem setConn_ids (s : Sys) (k : Conn) : (setConn s k).conns.map (·.id) = s.conns.map (·.id) := by
  simp only [setConn]
  rw [List.map_map]
  apply List.map_congr_left
  intro x _
  simp only [Function.comp]
  split
  · rename_i e; simpa using Eq.symm (by simpa using e)
  · rfl

theorem rfr_prims (cfg : Cfg) : Prims cfg (fun _ => True) RFr where
  refl _ := ⟨rfl, .inl ⟨rfl, rfl⟩⟩
  trans := by
    rintro s t u ⟨n1, h1⟩ ⟨n2, h2⟩
    refine ⟨n2.trans n1, ?_⟩
    rcases h1 with ⟨a, b⟩ | ⟨a, b⟩ <;> rcases h2 with ⟨c, d⟩ | ⟨c, d⟩
    · exact .inl ⟨c.trans a, d.trans b⟩
    · exact .inr ⟨c, d⟩
    · exact .inr ⟨c.trans a, by rw [b] at d; simpa using d⟩
    · exact .inr ⟨c, d⟩
  db _ _ _ := ⟨rfl, .inl ⟨rfl, rfl⟩⟩
  ub _ := ⟨rfl, .inl ⟨rfl, rfl⟩⟩
  crash _ := ⟨rfl, .inr ⟨rfl, rfl⟩⟩
  tx _ _ _ _ := ⟨rfl, .inl ⟨rfl, rfl⟩⟩
  concl _ _ _ _ := ⟨rfl, .inl ⟨rfl, rfl⟩⟩
  resp s q m _ _ := by
    rw [sendReqResponse_frame]; exact ⟨rfl, .inl ⟨rfl, rfl⟩⟩
  dg _ _ _ := ⟨rfl, .inl ⟨rfl, rfl⟩⟩
  pend _ _ _ := ⟨rfl, .inl ⟨rfl, rfl⟩⟩
  remote _ _ _ _ _ := ⟨rfl, .inl ⟨rfl, rfl⟩⟩
  remoteTx _ _ _ _ := ⟨rfl, .inl ⟨rfl, rfl⟩⟩
  remoteRx _ _ _ := ⟨rfl, .inl ⟨rfl, rfl⟩⟩

theorem rfr_readCb (cfg : Cfg) (e : Env) (k : Conn) (q : Req) (s : Sys) : RFr s (readCb cfg e k q s) := by
  have pr := rfr_prims cfg
  refine pr.readCb e k trivial ?_ ?_ ?_ (fun _ _ => trivial)
  · intro _
    exact pr.updLoc e trivial k ⟨rfl, .inl ⟨rfl, setConn_ids _ _⟩⟩ (fun _ _ _ => ⟨rfl, .inl ⟨rfl, rfl⟩⟩)
  · intro h
    exact pr.procSs (fun _ _ _ => ⟨rfl, .inl ⟨rfl, rfl⟩⟩) e trivial h (fun _ _ _ _ => trivial)
  · refine pr.luRx trivial (fun _ _ => trivial) (fun _ _ => ⟨rfl, .inl ⟨rfl, rfl⟩⟩) ?_
    intro t lu _ _ _ _
    rw [respondMsgt_frame]
    exact ⟨rfl, .inl ⟨rfl, rfl⟩⟩

/-- A registered name stays registered for its connection as long as that is there. -/
def RouteStays (s t : Sys) : Prop :=
  (∀ a c, routeFind s.routes a = some c → routeFind t.routes a = some c ∨ c ∉ t.conns.map (·.id))
  ∧ (∀ c ∈ t.conns.map (·.id), c ∈ s.conns.map (·.id) ∨ c = s.nextConn)
  ∧ s.nextConn ≤ t.nextConn

theorem RFr.stays {s t : Sys} (h : RFr s t) : RouteStays s t := by
  obtain ⟨hn, h⟩ := h
  rcases h with ⟨h, h'⟩ | ⟨h, h'⟩
  · exact ⟨fun a c hc => .inl (by rw [h]; exact hc), fun c hc => .inl (h' ▸ hc), Nat.le_of_eq hn.symm⟩
  · exact ⟨fun a c hc => .inr (by rw [h']; simp), fun c hc => by rw [h'] at hc; simp at hc,
      Nat.le_of_eq hn.symm⟩

theorem routeFind_add {rs : List (Bytes × ConnId)} {c : ConnId} {a : Bytes} {a' : Bytes} {c' : ConnId}
    (h : routeFind rs a' = some c') : routeFind (routeAdd rs c a).2 a' = some c' := by
  unfold routeAdd
  split
  · exact h
  · simp only [routeFind] at h ⊢
    rw [List.find?_append]
    obtain ⟨x, hx, e⟩ := Option.map_eq_some_iff.1 h
    rw [hx]; simpa using e

theorem routeFind_del {rs : List (Bytes × ConnId)} (hn : (rs.map (·.1)).Nodup) {c : ConnId} {a : Bytes}
    {c' : ConnId} (h : routeFind rs a = some c') (hc : c' ≠ c) : routeFind (routeDelConn rs c) a = some c' := by
  have hn' : ((routeDelConn rs c).map (·.1)).Nodup := hn.sublist (List.filter_sublist.map _)
  rw [routeFind_some hn'] 
  rw [routeFind_some hn] at h
  exact List.mem_filter.2 ⟨h, by simpa using hc⟩

theorem close_stays {s : Sys} (hn : (s.routes.map (·.1)).Nodup) (c : ConnId) : RouteStays s (close s c) := by
  refine ⟨fun a c' h => ?_, fun c' h => ?_, Nat.le_refl _⟩
  · by_cases e : c' = c
    · right
      subst e
      simp [close]
    · exact .inl (routeFind_del hn h e)
  · left
    simp only [close, List.mem_map, List.mem_filter] at h ⊢
    obtain ⟨x, ⟨h1, _⟩, h2⟩ := h
    exact ⟨x, h1, h2⟩

theorem connRx_stays (cfg : Cfg) (e : Env) (k : Conn) (q : Req) (s : Sys) :
    RouteStays s (connRx cfg e k q s) := by
  unfold connRx
  split
  · exact (rfr_readCb cfg e k q s).stays
  · have h1 : ∀ t, RFr { s with routes := (routeAdd s.routes k.id q.source.name).2 } t → RouteStays s t := by
      intro t ht
      obtain ⟨ha, hb, hc⟩ := ht.stays
      exact ⟨fun a c h => ha a c (routeFind_add h), hb, hc⟩
    dsimp only
    split
    · apply h1
      rw [respondMsgt_frame]
      exact ⟨rfl, .inl ⟨rfl, rfl⟩⟩
    · exact h1 _ (rfr_readCb cfg e k q _)

theorem rx_stays (cfg : Cfg) (e : Env) (c : ConnId) (mo : Option Msg) (s : Sys) :
    RouteStays s (rx cfg e c mo s) := by
  have r : ∀ t, RFr s t → RouteStays s t := fun t h => h.stays
  unfold rx
  split
  · exact r _ (⟨rfl, .inl ⟨rfl, rfl⟩⟩)
  · dsimp only
    split
    · exact r _ (⟨rfl, .inl ⟨rfl, rfl⟩⟩)
    · split
      · apply r; rw [respondMsgt_frame]; exact ⟨rfl, .inl ⟨rfl, rfl⟩⟩
      · split
        · apply r; rw [respondErr_frame]; exact ⟨rfl, .inl ⟨rfl, rfl⟩⟩
        · rename_i k _ _ m _ _
          have := connRx_stays cfg e k (mkReq k s.nextReq m)
            { s with nextReq := s.nextReq + 1, log := .rx s.nextReq c (some m) :: s.log }
          exact this

/-- No event takes a name away from a connection that is still there, and connections
appear only by connecting. -/
theorem step_stays {s : Sys} (cfg : Cfg) (ev : Ev) (h : Done s) : RouteStays s (step cfg s ev) := by
  have pr := rfr_prims cfg
  unfold step
  by_cases hu : s.ub = true
  · rw [if_pos hu]; exact RFr.stays (⟨rfl, .inl ⟨rfl, rfl⟩⟩)
  · rw [if_neg hu]
    obtain ⟨P, hi, -⟩ := h
    cases ev with
    | connect =>
      refine ⟨fun a c h => .inl h, fun c hc => ?_, Nat.le_succ _⟩
      simpa [connect] using hc
    | ccm c sernr =>
      dsimp only
      split
      · exact RFr.stays (⟨rfl, .inl ⟨rfl, rfl⟩⟩)
      · rename_i k hk
        unfold ccmCb
        split
        · exact close_stays hi.routesNodup _
        · exact close_stays hi.routesNodup _
        · rename_i x l
          refine ⟨fun a c h => .inl (routeFind_add h), fun c hc => .inl ?_, Nat.le_refl _⟩
          have := setConn_ids s { k with name := (ipaSet k.name (x :: l)).2, ccm := some (x :: l) }
          exact this ▸ hc
    | close c =>
      dsimp only
      split
      · exact RFr.stays (⟨rfl, .inl ⟨rfl, rfl⟩⟩)
      · exact close_stays hi.routesNodup _
    | rx c m e => exact rx_stays cfg e c m s
    | luTimeout nr =>
      exact (pr.luTimeout nr (fun _ _ => trivial) (fun _ _ => ⟨rfl, .inl ⟨rfl, rfl⟩⟩)).stays
    | ssTimeout imsi id =>
      exact (pr.ssTimeout (fun _ _ _ => ⟨rfl, .inl ⟨rfl, rfl⟩⟩) imsi id (fun _ _ _ _ => trivial)).stays
    | db op sc => exact (pr.withDb (api_op trivial) (pr.refl s) (fun a d _ h => h)).stays
    | notify imsi sc =>
      refine (pr.withDb (api_getByImsi _) (pr.refl s) (fun a d _ h => ?_)).stays
      split
      · exact pr.trans h (pr.notify _ _ _)
      · exact h
    | nam imsi val isPs sc sc' =>
      refine (pr.withDb (api_getByImsi _) (pr.refl s) (fun a d _ h => ?_)).stays
      split
      · exact pr.trans h (pr.nam _ _ _ _ _)
      · exact h
    | remoteUp a => exact (pr.remoteUp a s (fun _ _ => trivial)).1.stays
    | remoteDown a => exact (pr.remoteDown a s (fun _ _ => trivial)).1.stays
    | remoteLost a => exact (pr.remoteLost a s (fun _ _ => trivial)).1.stays
    | remoteRx a m e => exact (pr.rxRemote e a m s trivial (fun _ _ => trivial)).1.stays
    | lookup imsi res e => exact (pr.lookupResult e imsi res s (fun _ _ => trivial)).1.stays
    | proxyGc clock => exact (pr.setProxy s _ (fun _ _ => trivial)).1.stays
    | kill => exact (pr.crash s).stays

/-- ids of connections are not reused -/
theorem run_stays {s : Sys} (evs : List (Cfg × Ev)) (h : Done s) {a : Bytes} {c : ConnId}
    (hr : routeFind s.routes a = some c) :
    routeFind (run s evs).routes a = some c ∨ c ∉ (run s evs).conns.map (·.id) := by
  suffices H : ∀ s, Done s → (routeFind s.routes a = some c ∨ (c ∉ s.conns.map (·.id) ∧ c < s.nextConn)) →
      routeFind (run s evs).routes a = some c ∨
        (c ∉ (run s evs).conns.map (·.id) ∧ c < (run s evs).nextConn) by
    rcases H s h (.inl hr) with h | ⟨h, -⟩
    · exact .inl h
    · exact .inr h
  clear hr h s
  induction evs with
  | nil => exact fun s _ h => h
  | cons x l ih =>
    intro s hd h
    refine ih _ (done_step x.1 x.2 hd) ?_
    obtain ⟨h1, h2, h3⟩ := step_stays x.1 x.2 hd
    obtain ⟨P, hi, -⟩ := hd
    have fresh : routeFind s.routes a = some c → c < s.nextConn := by
      intro hr
      obtain ⟨k, hk, e⟩ := hi.routesLive _ ((routeFind_some hi.routesNodup).1 hr)
      have e : k.id = c := e
      rw [← e]; exact hi.connFresh k hk
    rcases h with h | ⟨h, hlt⟩
    · rcases h1 a c h with h' | h'
      · exact .inl h'
      · exact .inr ⟨h', Nat.lt_of_lt_of_le (fresh h) h3⟩
    · refine .inr ⟨fun hc => ?_, Nat.lt_of_lt_of_le hlt h3⟩
      rcases h2 c hc with hc | hc
      · exact h hc
      · exact Nat.ne_of_lt hlt hc

/-! ## Responses -/

/-- The new entries of the log that are responses are responses to a request in `Q`, sent
to the connection registered under its routing name, and Update Location Results satisfy
`Φ`. -/
def Resp (Q : Req → Prop) (Φ : Nat → Msg → Prop) (rs : List (Bytes × ConnId)) (l : List Out) : Prop :=
  ∀ c m nr, Out.tx c m (some nr) ∈ l →
    (∃ q, Q q ∧ q.nr = nr ∧ routeFind rs (q.routing m).name = some c)
    ∧ (m.typ = UPDATE_LOCATION + 2 → Φ nr m)

def LFr (Q : Req → Prop) (Φ : Nat → Msg → Prop) (s t : Sys) : Prop :=
  (t.routes = s.routes ∨ t.routes = []) ∧ ∃ l, t.log = l ++ s.log ∧ Resp Q Φ s.routes l

theorem LFr.same {Q : Req → Prop} {Φ : Nat → Msg → Prop} {s t : Sys} (h : t.routes = s.routes ∨ t.routes = [])
    (h' : t.log = s.log) : LFr Q Φ s t :=
  ⟨h, [], h', fun _ _ _ h => by simp at h⟩

theorem LFr.one {Q : Req → Prop} {Φ : Nat → Msg → Prop} {s t : Sys} (h : t.routes = s.routes ∨ t.routes = [])
    (o : Out) (h' : t.log = o :: s.log) (ho : ∀ c m nr, o ≠ .tx c m (some nr)) : LFr Q Φ s t :=
  ⟨h, [o], h', fun c m nr h => absurd (List.mem_singleton.1 h).symm (ho c m nr)⟩

theorem LFr.send {Q : Req → Prop} {Φ : Nat → Msg → Prop} (cfg : Cfg) (s : Sys) {q : Req} {m : Msg} (hq : Q q)
    (hm : m.typ = UPDATE_LOCATION + 2 → Φ q.nr m) : LFr Q Φ s (sendReqResponse cfg s q m) := by
  unfold sendReqResponse
  split
  · exact LFr.same (.inl rfl) rfl
  · rename_i c hc
    split
    · refine ⟨.inl rfl, [.tx c m (some q.nr)], rfl, ?_⟩
      intro c' m' nr' h
      cases List.mem_singleton.1 h
      exact ⟨⟨q, hq, rfl, hc⟩, hm⟩
    · exact LFr.same (.inl rfl) rfl

theorem LFr.trans {Q : Req → Prop} {Φ : Nat → Msg → Prop} {s t u : Sys} (h : LFr Q Φ s t) (h' : LFr Q Φ t u) :
    LFr Q Φ s u := by
  obtain ⟨r1, l1, e1, p1⟩ := h
  obtain ⟨r2, l2, e2, p2⟩ := h'
  refine ⟨?_, l2 ++ l1, by rw [e2, e1, List.append_assoc], ?_⟩
  · rcases r2 with r2 | r2
    · rw [r2]; exact r1
    · exact .inr r2
  · intro c m nr hm
    rcases List.mem_append.1 hm with hm | hm
    · obtain ⟨⟨q, hq, hn, hr⟩, hΦ⟩ := p2 c m nr hm
      rcases r1 with r1 | r1
      · rw [r1] at hr; exact ⟨⟨q, hq, hn, hr⟩, hΦ⟩
      · rw [r1] at hr; simp [routeFind] at hr
    · exact p1 c m nr hm

theorem lfr_prims (cfg : Cfg) (Q : Req → Prop) (Φ : Nat → Msg → Prop) : Prims cfg Q (LFr Q Φ) where
  refl _ := LFr.same (.inl rfl) rfl
  trans := LFr.trans
  db _ _ _ := LFr.same (.inl rfl) rfl
  ub _ := LFr.same (.inl rfl) rfl
  crash _ := LFr.one (.inr rfl) .restart rfl (by intros; simp)
  tx _ c m _ := LFr.one (.inl rfl) (.tx c m none) rfl (by intros; simp)
  concl _ q how _ := LFr.one (.inl rfl) (.concl q.nr how) rfl (by intros; simp)
  resp s q m hq ht := LFr.send cfg s hq (fun h => absurd h ht)
  dg _ _ _ := LFr.same (.inl rfl) rfl
  pend _ _ _ := LFr.same (.inl rfl) rfl
  remote _ q a m _ := LFr.one (.inl rfl) (.remote a m (some q.nr)) rfl (by intros; simp)
  remoteTx _ a m _ := LFr.one (.inl rfl) (.remote a m none) rfl (by intros; simp)
  remoteRx _ a m := LFr.one (.inl rfl) (.remoteRx a m) rfl (by intros; simp)

theorem waiting_lu {s : Sys} {lu : Lu} (h : lu ∈ s.lus) : lu.req ∈ waiting s :=
  List.mem_append_left _ (List.mem_append_left _ (List.mem_map_of_mem h))

theorem waiting_sess {s : Sys} {x : Sess} (h : x ∈ s.sess) {r : Req} (hr : r ∈ x.reqs) : r ∈ waiting s :=
  List.mem_append_left _ (List.mem_append_right _ (List.mem_flatMap.2 ⟨x, h, hr⟩))

theorem waiting_pend {s : Sys} {r : Req} (h : r ∈ s.pending) : r ∈ waiting s :=
  List.mem_append_right _ h

theorem waiting_cases {s : Sys} {r : Req} (h : r ∈ waiting s) :
    (∃ lu ∈ s.lus, lu.req = r) ∨ (∃ x ∈ s.sess, r ∈ x.reqs) ∨ r ∈ s.pending := by
  rcases List.mem_append.1 h with h | h
  · rcases List.mem_append.1 h with h | h
    · obtain ⟨lu, h1, h2⟩ := List.mem_map.1 h; exact .inl ⟨lu, h1, h2⟩
    · obtain ⟨x, h1, h2⟩ := List.mem_flatMap.1 h; exact .inr (.inl ⟨x, h1, h2⟩)
  · exact .inr (.inr h)

theorem lfr_readCb (cfg : Cfg) (e : Env) (k : Conn) (q : Req) (s : Sys) (Q : Req → Prop) (Φ : Nat → Msg → Prop)
    (hq : Q q) (hw : ∀ r ∈ waiting s, Q r)
    (hΦ : ∀ lu ∈ s.lus, q.gsup.typ = INSERT_DATA + 2 → lu.subscr.imsi = q.gsup.imsi →
      ∀ r : Msg, r.dst = lu.req.gsup.src → r.imsi = lu.req.gsup.imsi → Φ lu.req.nr r) :
    LFr Q Φ s (readCb cfg e k q s) := by
  have pr := lfr_prims cfg Q Φ
  have w1 : ∀ lu ∈ s.lus, Q lu.req := fun lu hl => hw _ (waiting_lu hl)
  have w2 : ∀ x ∈ s.sess, ∀ r ∈ x.reqs, Q r := fun x hx r hr => hw _ (waiting_sess hx hr)
  refine pr.readCb e k hq ?_ ?_ ?_ (fun r hr => hw _ (waiting_pend hr))
  · intro _
    exact pr.updLoc e hq k (LFr.same (.inl rfl) rfl) (fun _ _ _ => LFr.same (.inl rfl) rfl)
  · intro h
    exact pr.procSs (fun _ _ _ => LFr.same (.inl rfl) rfl) e hq h w2
  · refine pr.luRx hq w1 (fun _ _ => LFr.same (.inl rfl) rfl) ?_
    intro t lu hl ht hi _
    unfold respondMsgt respond
    dsimp only
    rw [if_pos rfl]
    have h1 : LFr Q Φ t (if (makeResponse { typ := UPDATE_LOCATION + 2 } lu.req.gsup
          ((UPDATE_LOCATION + 2) % 4 == 1) true).1 ≠ 0 then t
        else sendReqResponse cfg t lu.req (makeResponse { typ := UPDATE_LOCATION + 2 } lu.req.gsup
          ((UPDATE_LOCATION + 2) % 4 == 1) true).2) := by
      split
      · exact pr.refl t
      · exact LFr.send cfg t (w1 lu hl) (fun _ => hΦ lu hl ht hi _ rfl rfl)
    exact h1.trans (pr.concl _ _ _ (w1 lu hl))

/-- The request made for a message. -/
def IsNew (s : Sys) (c : ConnId) (m : Msg) (q : Req) : Prop :=
  ∃ k, s.conn? c = some k ∧
    ((!m.src.isEmpty ∧ (ipaSet k.name m.src).1 ≠ 0 ∧ q = { nr := s.nextReq, conn := c, gsup := m, source := k.name })
     ∨ (¬ (!m.src.isEmpty ∧ (ipaSet k.name m.src).1 ≠ 0) ∧ q = mkReq k s.nextReq m))

/-- The requests a message can lead to a response for. -/
def RxQ (s : Sys) (c : ConnId) (mo : Option Msg) (q : Req) : Prop :=
  q ∈ waiting s ∨ ∃ m, mo = some m ∧ IsNew s c m q

/-- The procedure of request `nr` is completed by the message, and `r` answers that request. -/
def RxAck (s : Sys) (mo : Option Msg) (nr : Nat) (r : Msg) : Prop :=
  ∃ lu ∈ s.lus, lu.req.nr = nr ∧ (r.dst = lu.req.gsup.src ∧ r.imsi = lu.req.gsup.imsi) ∧ ∃ m, mo = some m ∧ m.typ = INSERT_DATA + 2 ∧ m.imsi = lu.subscr.imsi

/-- The routes when the message is handled: a proxied source may have been added. -/
def RxRoutes (s : Sys) (c : ConnId) (mo : Option Msg) (rs : List (Bytes × ConnId)) : Prop :=
  rs = s.routes ∨ ∃ m q, mo = some m ∧ IsNew s c m q ∧ q.viaProxy.isEmpty = false
    ∧ imsiValid m.imsi = true ∧ rs = (routeAdd s.routes c q.source.name).2

/-- What the new entries of the log are after `rx`. -/
theorem rx_resp (cfg : Cfg) (e : Env) (c : ConnId) (mo : Option Msg) (s : Sys) :
    ∃ l rs, (rx cfg e c mo s).log = l ++ s.log
      ∧ RxRoutes s c mo rs ∧ Resp (RxQ s c mo) (RxAck s mo) rs l := by
  unfold rx
  split
  · exact ⟨[], _, rfl, .inl rfl, fun _ _ _ h => by simp at h⟩
  · rename_i k hk
    dsimp only
    split
    · refine ⟨[.concl s.nextReq .dropped, .rx s.nextReq c none], _, rfl, .inl rfl, fun _ _ _ h => ?_⟩
      simp at h
    · rename_i m
      have lift : ∀ {t rs}, LFr (RxQ s c (some m)) (RxAck s (some m)) 
            { s with nextReq := s.nextReq + 1, routes := rs, log := .rx s.nextReq c (some m) :: s.log } t →
          RxRoutes s c (some m) rs → ∃ l rs, t.log = l ++ s.log
            ∧ RxRoutes s c (some m) rs ∧ Resp (RxQ s c (some m)) (RxAck s (some m)) rs l := by
        rintro t rs ⟨-, l, e, p⟩ hr
        refine ⟨l ++ [.rx s.nextReq c (some m)], rs, by rw [e]; simp, hr, ?_⟩
        intro c' m' nr' h
        rcases List.mem_append.1 h with h | h
        · exact p c' m' nr' h
        · simp at h
      have pr := lfr_prims cfg (RxQ s c (some m)) (RxAck s (some m))
      split
      · rename_i hbad
        refine lift (pr.respondMsgt _ ?_ _ (by decide) (by decide)) (.inl rfl)
        exact .inr ⟨m, rfl, k, hk, .inl ⟨hbad.1, hbad.2, rfl⟩⟩
      · rename_i hok
        have hnew : IsNew s c m (mkReq k s.nextReq m) := ⟨k, hk, .inr ⟨hok, rfl⟩⟩
        have hg : (mkReq k s.nextReq m).gsup = m := by unfold mkReq; split <;> rfl
        split
        · exact lift (pr.respondErr _ (.inr ⟨m, rfl, hnew⟩) _) (.inl rfl)
        · rename_i hv
          have hid := (conn?_some hk).2
          have step : ∀ rs, LFr (RxQ s c (some m)) (RxAck s (some m)) { s with
              nextReq := s.nextReq + 1, routes := rs, log := .rx s.nextReq c (some m) :: s.log }
              (readCb cfg e k (mkReq k s.nextReq m) { s with
              nextReq := s.nextReq + 1, routes := rs, log := .rx s.nextReq c (some m) :: s.log }) := by
            intro rs
            refine lfr_readCb cfg e k _ _ _ _ (.inr ⟨m, rfl, hnew⟩) (fun r hr => .inl hr) ?_
            intro lu hl ht hi r hr hr'
            rw [hg] at ht hi
            exact ⟨lu, hl, rfl, ⟨hr, hr'⟩, m, rfl, ht, hi.symm⟩
          unfold connRx
          split
          · exact lift (step s.routes) (.inl rfl)
          · rename_i hp
            dsimp only
            have hrs : RxRoutes s c (some m) (routeAdd s.routes k.id (mkReq k s.nextReq m).source.name).2 :=
              .inr ⟨m, _, rfl, hnew, by simpa using hp, by simpa using hv, by rw [hid]⟩
            split
            · refine lift (pr.respondMsgt { s with
                nextReq := s.nextReq + 1, routes := (routeAdd s.routes k.id (mkReq k s.nextReq m).source.name).2,
                log := .rx s.nextReq c (some m) :: s.log } (.inr ⟨m, rfl, hnew⟩) _ (by decide) (by decide)) hrs
            · exact lift (step _) hrs

/-- The log only grows, and what responses an event causes. -/
theorem step_resp {s : Sys} (cfg : Cfg) (ev : Ev) : ∃ l, (step cfg s ev).log = l ++ s.log ∧
    ((∃ c mo e rs, ev = .rx c mo e ∧ RxRoutes s c mo rs ∧ Resp (RxQ s c mo) (RxAck s mo) rs l)
     ∨ ((∀ c mo e, ev ≠ .rx c mo e) ∧ Resp (· ∈ waiting s) (fun _ _ => False) s.routes l)) := by
  have nil : Resp (· ∈ waiting s) (fun _ _ => False) s.routes [] := fun _ _ _ h => by simp at h
  have pr := lfr_prims cfg (· ∈ waiting s) (fun _ _ => False)
  have w1 : ∀ lu ∈ s.lus, lu.req ∈ waiting s := fun lu hl => waiting_lu hl
  have w2 : ∀ x ∈ s.sess, ∀ r ∈ x.reqs, r ∈ waiting s := fun x hx r hr => waiting_sess hx hr
  have w3 : ∀ r ∈ s.pending, r ∈ waiting s := fun r hr => waiting_pend hr
  have fin : ∀ t, LFr (· ∈ waiting s) (fun _ _ => False) s t → (∀ c mo e, ev ≠ .rx c mo e) →
      ∃ l, t.log = l ++ s.log ∧
    ((∃ c mo e rs, ev = .rx c mo e ∧ RxRoutes s c mo rs ∧ Resp (RxQ s c mo) (RxAck s mo) rs l)
     ∨ ((∀ c mo e, ev ≠ .rx c mo e) ∧ Resp (· ∈ waiting s) (fun _ _ => False) s.routes l)) := by
    rintro t ⟨-, l, e, p⟩ hn
    exact ⟨l, e, .inr ⟨hn, p⟩⟩
  unfold step
  by_cases hu : s.ub = true
  · rw [if_pos hu]
    refine ⟨[], rfl, ?_⟩
    cases ev with
    | rx c mo e => exact .inl ⟨c, mo, e, s.routes, rfl, .inl rfl, fun _ _ _ h => by simp at h⟩
    | _ => exact .inr ⟨by intros; simp, nil⟩
  · rw [if_neg hu]
    have one : ∀ o : Out, (∀ c m nr, o ≠ .tx c m (some nr)) →
        Resp (· ∈ waiting s) (fun _ _ => False) s.routes [o] :=
      fun o ho c m nr h => absurd (List.mem_singleton.1 h).symm (ho c m nr)
    have cl : ∀ c, LFr (· ∈ waiting s) (fun _ _ => False) s s → ∃ l, (close s c).log = l ++ s.log ∧
        Resp (· ∈ waiting s) (fun _ _ => False) s.routes l :=
      fun c _ => ⟨[.closed c], rfl, one _ (by intros; simp)⟩
    cases ev with
    | connect => exact ⟨[.connected s.nextConn], rfl, .inr ⟨by intros; simp, one _ (by intros; simp)⟩⟩
    | ccm c sernr =>
      dsimp only
      split
      · exact fin _ (pr.refl s) (by intros; simp)
      · unfold ccmCb
        split
        · obtain ⟨l, e, p⟩ := cl _ (pr.refl s); exact ⟨l, e, .inr ⟨by intros; simp, p⟩⟩
        · obtain ⟨l, e, p⟩ := cl _ (pr.refl s); exact ⟨l, e, .inr ⟨by intros; simp, p⟩⟩
        · exact ⟨[], rfl, .inr ⟨by intros; simp, nil⟩⟩
    | close c =>
      dsimp only
      split
      · exact fin _ (pr.refl s) (by intros; simp)
      · obtain ⟨l, e, p⟩ := cl c (pr.refl s); exact ⟨l, e, .inr ⟨by intros; simp, p⟩⟩
    | rx c m e =>
      obtain ⟨l, rs, h1, h2, h3⟩ := rx_resp cfg e c m s
      exact ⟨l, h1, .inl ⟨c, m, e, rs, rfl, h2, h3⟩⟩
    | luTimeout nr =>
      exact fin _ (pr.luTimeout nr w1 (fun _ _ => LFr.same (.inl rfl) rfl)) (by intros; simp)
    | ssTimeout imsi id =>
      exact fin _ (pr.ssTimeout (fun _ _ _ => LFr.same (.inl rfl) rfl) imsi id w2) (by intros; simp)
    | db op sc => exact fin _ (pr.withDb (api_op trivial) (pr.refl s) (fun a d _ h => h)) (by intros; simp)
    | notify imsi sc =>
      refine fin _ (pr.withDb (api_getByImsi _) (pr.refl s) (fun a d _ h => ?_)) (by intros; simp)
      split
      · exact pr.trans h (pr.notify _ _ _)
      · exact h
    | nam imsi val isPs sc sc' =>
      refine fin _ (pr.withDb (api_getByImsi _) (pr.refl s) (fun a d _ h => ?_)) (by intros; simp)
      split
      · exact pr.trans h (pr.nam _ _ _ _ _)
      · exact h
    | remoteUp a => exact fin _ (pr.remoteUp a s w3).1 (by intros; simp)
    | remoteDown a => exact fin _ (pr.remoteDown a s w3).1 (by intros; simp)
    | remoteLost a => exact fin _ (pr.remoteLost a s w3).1 (by intros; simp)
    | remoteRx a m e => exact fin _ (pr.rxRemote e a m s trivial w3).1 (by intros; simp)
    | lookup imsi res e => exact fin _ (pr.lookupResult e imsi res s w3).1 (by intros; simp)
    | proxyGc clock => exact fin _ (pr.setProxy s _ w3).1 (by intros; simp)
    | kill => exact fin _ (pr.crash s) (by intros; simp)

end Verif.Sys
