import Verif.Sys.Props6
/-!
# Where the proxy sends requests: the addresses of home HLRs, event by event
-/
namespace Verif.Sys
open Verif Verif.Db Verif.Gsup Verif.Hlr Verif.Sys.Props

section
variable {H : Bytes → Addr → Prop}

/-- Every address in an entry is one that `H` allows for its subscriber. -/
def HomeOk (H : Bytes → Addr → Prop) (s : Sys) : Prop := ∀ x ∈ s.proxy, H x.data.imsi x.data.addr

/-- Requests went only to addresses that `H` allows. -/
def SentOk (H : Bytes → Addr → Prop) (l : List Out) : Prop := ∀ a m nr, .remote a m (some nr) ∈ l → H m.imsi a

/-- If the entries were allowed, they still are, and all requests sent meanwhile. -/
def HFr (H : Bytes → Addr → Prop) (s t : Sys) : Prop :=
  HomeOk H s → HomeOk H t ∧ ∃ l, t.log = l ++ s.log ∧ SentOk H l

theorem SentOk.nil : SentOk H [] := fun _ _ _ h => (by cases h)

theorem SentOk.append {l l' : List Out} (h : SentOk H l) (h' : SentOk H l') : SentOk H (l ++ l') := by
  intro a m nr hm
  rcases List.mem_append.1 hm with c | c
  · exact h a m nr c
  · exact h' a m nr c

theorem SentOk.one {o : Out} (h : ∀ a m nr, o ≠ .remote a m (some nr)) : SentOk H [o] := by
  intro a m nr hm
  exact absurd (List.mem_singleton.1 hm).symm (h a m nr)

theorem HFr.refl (s : Sys) : HFr H s s := fun h => ⟨h, [], rfl, .nil⟩

theorem HFr.trans {s t u : Sys} (h : HFr H s t) (h' : HFr H t u) : HFr H s u := by
  intro h0
  obtain ⟨h1, l, e, hl⟩ := h h0
  obtain ⟨h2, l', e', hl'⟩ := h' h1
  exact ⟨h2, l' ++ l, by rw [e', e, List.append_assoc], hl'.append hl⟩

theorem HFr.same {s t : Sys} (l : List Out) (h : t.log = l ++ s.log) (hp : t.proxy = s.proxy) (hl : SentOk H l) : HFr H s t := by
  intro h0
  refine ⟨?_, l, h, hl⟩
  intro x hx
  rw [hp] at hx
  exact h0 x hx

theorem sendReqResponse_sent (cfg : Cfg) (s : Sys) (q : Req) (m : Msg) :
    ∃ l, sendReqResponse cfg s q m = { s with log := l ++ s.log } ∧ SentOk H l := by
  unfold sendReqResponse
  split
  · exact ⟨[], rfl, .nil⟩
  · split
    · exact ⟨[_], rfl, .one (by intros; simp)⟩
    · exact ⟨[], rfl, .nil⟩

theorem respond_sent (cfg : Cfg) (s : Sys) (q : Req) (m : Msg) (e f : Bool) :
    ∃ l, (respond cfg s q m e f).2 = { s with log := l ++ s.log } ∧ SentOk H l := by
  unfold respond
  dsimp only
  obtain ⟨l, h, hl⟩ := sendReqResponse_sent (H := H) cfg s q (makeResponse m q.gsup e f).2
  split
  · split
    · exact ⟨[_], rfl, .one (by intros; simp)⟩
    · rw [h]; exact ⟨_ :: l, rfl, (SentOk.one (by intros; simp)).append hl⟩
  · split
    · exact ⟨[], rfl, .nil⟩
    · exact ⟨l, h, hl⟩

theorem respondErr_sent (cfg : Cfg) (s : Sys) (q : Req) (c : Cause) :
    ∃ l, respondErr cfg s q c = { s with log := l ++ s.log } ∧ SentOk H l := by
  unfold respondErr
  split
  · exact ⟨[_], rfl, .one (by intros; simp)⟩
  · exact respond_sent ..

theorem hfr_prims (cfg : Cfg) : Prims0 cfg (fun _ => True) (HFr H) where
  refl := HFr.refl
  trans := HFr.trans
  db _ _ _ := .same [] rfl rfl .nil
  ub _ := .same [] rfl rfl .nil
  crash s := fun _ => ⟨fun x hx => (by cases hx), [.restart], rfl, .one (by intros; simp)⟩
  tx _ _ _ _ := .same [_] rfl rfl (.one (by intros; simp))
  concl _ _ _ _ := .same [_] rfl rfl (.one (by intros; simp))
  resp s q m _ _ := by
    obtain ⟨l, h, hl⟩ := sendReqResponse_sent (H := H) cfg s q m
    rw [h]
    exact .same l rfl rfl hl

theorem hfr_dispatch (cfg : Cfg) (e : Env) (k : Conn) (q : Req) (s : Sys) : HFr H s (dispatch cfg e k q s) := by
  have pr := hfr_prims (H := H) cfg
  refine pr.dispatch e k trivial ?_ ?_ ?_
  · intro _
    exact pr.updLoc e trivial k (.same [] rfl rfl .nil) (fun _ _ _ => .same [] rfl rfl .nil)
  · intro h
    exact pr.procSs (fun _ _ _ => .same [] rfl rfl .nil) e trivial h (fun _ _ _ _ => trivial)
  · refine pr.luRx trivial (fun _ _ => trivial) (fun _ _ => .same [] rfl rfl .nil) ?_
    intro t lu _ _ _ _
    obtain ⟨l, h, hl⟩ := respond_sent (H := H) cfg t lu.req { typ := UPDATE_LOCATION + 2 } ((UPDATE_LOCATION + 2) % 4 == 1) true
    unfold respondMsgt
    rw [h]
    exact .same l rfl rfl hl

/-! ## Distributed GSM -/

theorem connectResult_sent (cfg : Cfg) (a : Option Addr) (s : Sys) (q : Req) (h : ∀ a', a = some a' → H q.gsup.imsi a') :
    ∃ l, connectResult cfg a s q = { s with log := l ++ s.log } ∧ SentOk H l := by
  unfold connectResult forwardToRemote
  cases a with
  | some a =>
    dsimp only
    split
    · refine ⟨[.concl q.nr .forwarded, .remote a { q.gsup with src := q.source.name } (some q.nr)], rfl, ?_⟩
      intro a' m nr hm
      rcases List.mem_cons.1 hm with c | c
      · cases c
      · have := List.mem_singleton.1 c
        cases this
        exact h a rfl
    · exact respondErr_sent ..
  | none =>
    dsimp only
    split
    · exact respond_sent ..
    · exact respondErr_sent ..

theorem hfr_pop (cfg : Cfg) (imsi : Bytes) (a : Option Addr) (s : Sys) (h : ∀ a', a = some a' → H imsi a') :
    HFr H s (deferredPop cfg imsi a s) := by
  unfold deferredPop
  have gen : ∀ (l : List Req) (t : Sys), (∀ q ∈ l, q.gsup.imsi = imsi) → HFr H t (l.foldl (connectResult cfg a) t) := by
    intro l
    induction l with
    | nil => intro t _; exact .refl t
    | cons q l ih =>
      intro t hl
      rw [List.foldl_cons]
      obtain ⟨l', e, hs⟩ := connectResult_sent (H := H) cfg a t q (fun a' ha => by rw [hl q List.mem_cons_self]; exact h a' ha)
      refine HFr.trans (t := connectResult cfg a t q) ?_ (ih _ fun q hq => hl q (List.mem_cons_of_mem _ hq))
      rw [e]
      exact .same l' rfl rfl hs
  refine HFr.trans (t := { s with pending := s.pending.filter (fun q => !(q.gsup.imsi == imsi)) }) (.same [] rfl rfl .nil) (gen _ _ ?_)
  intro q hq
  simpa using (List.mem_filter.1 hq).2

theorem hfr_cb (cfg : Cfg) (a : Addr) (up : Bool) (s : Sys) : HFr H s (connectResultCb cfg a up s) := by
  intro h0
  unfold connectResultCb
  have gen : ∀ (l : List ProxyEntry) (t : Sys), (∀ x ∈ l, H x.data.imsi x.data.addr) → HFr H t
      (l.foldl (fun s x => if x.data.addr = a then deferredPop cfg x.data.imsi (if up then some a else none) s else s) t) := by
    intro l
    induction l with
    | nil => intro t _; exact .refl t
    | cons x l ih =>
      intro t hl
      rw [List.foldl_cons]
      refine HFr.trans ?_ (ih _ fun x hx => hl x (List.mem_cons_of_mem _ hx))
      split
      · rename_i hx
        refine hfr_pop _ _ _ _ ?_
        intro a' ha
        split at ha
        · cases ha
          rw [← hx]
          exact hl x List.mem_cons_self
        · cases ha
      · exact .refl t
  exact gen s.proxy s h0 h0

theorem hfr_put {clock : Int} {d : ProxySub} {s : Sys} (h : HomeOk H s → H d.imsi d.addr) : HFr H s (proxyPut clock d s) := by
  intro h0
  refine ⟨?_, [], rfl, .nil⟩
  intro y hy
  unfold proxyPut at hy
  dsimp only at hy
  have set : ∀ (l : List ProxyEntry), y ∈ setFirst { lastUpdate := clock, data := d } l → y ∈ l ∨ y.data = d := by
    intro l
    induction l with
    | nil => intro h; cases h
    | cons z l ih =>
      intro h
      unfold setFirst at h
      split at h
      · rcases List.mem_cons.1 h with c | c
        · exact .inr (by rw [c])
        · exact .inl (List.mem_cons_of_mem _ c)
      · rcases List.mem_cons.1 h with c | c
        · exact .inl (by rw [c]; exact List.mem_cons_self)
        · rcases ih c with c | c
          · exact .inl (List.mem_cons_of_mem _ c)
          · exact .inr c
  split at hy
  · rcases set _ hy with c | c
    · exact h0 y c
    · rw [c]; exact h h0
  · rcases List.mem_cons.1 hy with c | c
    · rw [c]; exact h h0
    · exact h0 y c

theorem hfr_connect (cfg : Cfg) (e : Env) (a : Addr) (s : Sys) : HFr H s (connectRemote cfg e a s) := by
  unfold connectRemote
  split
  · split
    · exact hfr_cb _ _ _ _
    · exact .same [] rfl rfl .nil
  · split
    · exact .same [] rfl rfl .nil
    · exact hfr_cb _ _ _ _

theorem hfr_resolved (cfg : Cfg) (e : Env) {d : ProxySub} {a : Addr} (h : H d.imsi a) (s : Sys) :
    HFr H s (remoteResolved cfg e d a s) := by
  unfold remoteResolved
  split
  · exact .refl s
  · dsimp only
    have h1 : HFr H s (proxyPut e.clock { d with addr := a } s) := hfr_put (d := { d with addr := a }) fun _ => h
    split
    · exact h1.trans (hfr_connect _ _ _ _)
    · exact h1

theorem ackToSub_key (d : ProxySub) (q : Req) : (ackToSub d q).imsi = d.imsi ∧ (ackToSub d q).addr = d.addr := by
  unfold ackToSub
  split
  · exact ⟨rfl, rfl⟩
  · split <;> exact ⟨rfl, rfl⟩

theorem hfr_forward (cfg : Cfg) (e : Env) {d : ProxySub} {q : Req} (hi : d.imsi = q.gsup.imsi) {s : Sys}
    (h : HomeOk H s → H d.imsi d.addr) : HFr H s (forwardToRemoteHlr cfg e d q s) := by
  intro h0
  have hd := h h0
  unfold forwardToRemoteHlr
  dsimp only
  have h1 : HFr H s (ackToRemote e d q s) := by
    unfold ackToRemote
    split
    · dsimp only
      split
      · refine hfr_put fun _ => ?_
        rw [(ackToSub_key d q).1, (ackToSub_key d q).2]
        exact hd
      · exact .refl s
    · exact .refl s
  have h2 : ∀ t : Sys, HFr H t (deferReq q t) := fun t => .same [] rfl rfl .nil
  split
  · exact h1.trans (h2 _) h0
  · split
    · split
      · obtain ⟨l, he, hl⟩ := connectResult_sent (H := H) cfg (some d.addr) (ackToRemote e d q s) q
          (fun a' ha => by cases ha; rw [← hi]; exact hd)
        rw [he]
        exact h1.trans (.same l rfl rfl hl) h0
      · exact (h1.trans (h2 _)).trans (hfr_connect _ _ _ _) h0
    · exact (h1.trans (h2 _)).trans (hfr_connect _ _ _ _) h0

theorem homeOk_byImsi {s : Sys} {i : Bytes} {d : ProxySub} (hd : proxyByImsi s.proxy i = some d) :
    HomeOk H s → H d.imsi d.addr := by
  intro h
  obtain ⟨-, x, hx, rfl⟩ := byImsi_some hd
  exact h x hx

theorem hfr_proxied (cfg : Cfg) (e : Env) {q : Req} {s : Sys} (hz : ∀ i a, a.nonzero = false → H i a)
    (hg : e.gateway.nonzero = true → H q.gsup.imsi e.gateway) : HFr H s (proxied cfg e q s) := by
  unfold proxied
  have h1 : HFr H s (proxyPut e.clock { imsi := q.gsup.imsi } s) := hfr_put fun _ => hz _ _ rfl
  split
  · rename_i d hd
    exact hfr_forward cfg e (byImsi_some hd).1 (homeOk_byImsi hd)
  · split
    · rename_i hgw
      have h2 := h1.trans (hfr_resolved cfg e (d := { imsi := q.gsup.imsi }) (a := e.gateway) (hg hgw)
        (proxyPut e.clock { imsi := q.gsup.imsi } s))
      split
      · obtain ⟨l, he, hl⟩ := respondErr_sent (H := H) cfg (remoteResolved cfg e { imsi := q.gsup.imsi } e.gateway
          (proxyPut e.clock { imsi := q.gsup.imsi } s)) q .netFail
        rw [he]
        exact h2.trans (.same l rfl rfl hl)
      · rename_i d hd
        exact h2.trans (hfr_forward cfg e (byImsi_some hd).1 (homeOk_byImsi hd))
    · exact h1.trans (hfr_forward cfg e rfl fun _ => hz _ _ rfl)

theorem hfr_readCb (cfg : Cfg) (e : Env) (k : Conn) (q : Req) (s : Sys) (hz : ∀ i a, a.nonzero = false → H i a)
    (hg : e.gateway.nonzero = true → H q.gsup.imsi e.gateway) : HFr H s (readCb cfg e k q s) := by
  have pr := hfr_prims (H := H) cfg
  rw [readCb_eq]
  split
  · exact pr.readCbForward s (q := q) trivial
  · split
    · split
      · exact pr.crash s
      · split
        · exact hfr_dispatch _ _ _ _ _
        · exact hfr_proxied cfg e hz hg
    · exact hfr_dispatch _ _ _ _ _

theorem hfr_rx (cfg : Cfg) (e : Env) (c : ConnId) (mo : Option Msg) (s : Sys) (hz : ∀ i a, a.nonzero = false → H i a)
    (hg : e.gateway.nonzero = true → ∀ m, mo = some m → H m.imsi e.gateway) : HFr H s (rx cfg e c mo s) := by
  unfold rx
  split
  · exact .refl s
  · rename_i k hk
    dsimp only
    split
    · exact .same [_, _] rfl rfl ((SentOk.one (by intros; simp)).append (SentOk.one (by intros; simp)))
    · rename_i m
      have h1 : ∀ rs, HFr H s { s with nextReq := s.nextReq + 1, routes := rs, log := .rx s.nextReq c (some m) :: s.log } :=
        fun rs => .same [_] rfl rfl (.one (by intros; simp))
      have hg' : e.gateway.nonzero = true → H (mkReq k s.nextReq m).gsup.imsi e.gateway := by
        intro h
        rw [mkReq_gsup]
        exact hg h m rfl
      split
      · refine (h1 s.routes).trans ?_
        unfold respondMsgt
        obtain ⟨l, he, hl⟩ := respond_sent (H := H) cfg
          { s with nextReq := s.nextReq + 1, log := .rx s.nextReq c (some m) :: s.log } _ _ _ true
        rw [he]
        exact .same l rfl rfl hl
      · split
        · refine (h1 s.routes).trans ?_
          obtain ⟨l, he, hl⟩ := respondErr_sent (H := H) cfg
            { s with nextReq := s.nextReq + 1, log := .rx s.nextReq c (some m) :: s.log } _ _
          rw [he]
          exact .same l rfl rfl hl
        · unfold connRx
          split
          · exact (h1 s.routes).trans (hfr_readCb cfg e k _ _ hz hg')
          · dsimp only
            split
            · refine (h1 (routeAdd s.routes k.id (mkReq k s.nextReq m).source.name).2).trans ?_
              unfold respondMsgt
              obtain ⟨l, he, hl⟩ := respond_sent (H := H) cfg
                { s with nextReq := s.nextReq + 1, routes := (routeAdd s.routes k.id (mkReq k s.nextReq m).source.name).2,
                         log := .rx s.nextReq c (some m) :: s.log } _ _ _ true
              rw [he]
              exact .same l rfl rfl hl
            · exact (h1 _).trans (hfr_readCb cfg e k _ _ hz hg')

theorem OnlyReply.sent {a : Addr} {l : List Out} (h : OnlyReply a l) : SentOk H l := by
  intro a' m nr hm
  rcases h with h | ⟨m', h⟩
  · rw [h] at hm; cases hm
  · rw [h] at hm
    have := List.mem_singleton.1 hm
    cases this

theorem hfr_ackFrom {cfg : Cfg} {e : Env} {d : ProxySub} {m : Msg} {n v : IpaName} {s t : Sys}
    (hd : proxyByImsi s.proxy m.imsi = some d) (h : ackFromRemote cfg e d m n v s = some t) : HFr H s t := by
  rcases ackFromRemote_some h with ⟨rfl, -⟩ | ⟨x, -, rfl⟩ | ⟨y, -, hy, rfl⟩
  · exact .refl _
  · refine hfr_put (d := { d with msisdn := x }) fun h0 => ?_
    have := homeOk_byImsi (H := H) hd h0
    exact this
  · obtain ⟨h1, h2, -⟩ := ackLuResult_some hy
    refine hfr_put fun h0 => ?_
    have := homeOk_byImsi hd h0
    rw [h1, h2]
    exact this

theorem hfr_remoteRx (cfg : Cfg) (e : Env) (a : Addr) (m : Msg) (s : Sys) : HFr H s (remoteRx cfg e a m s) := by
  cases hr : s.remote? a with
  | none =>
    unfold remoteRx
    rw [hr]
    exact .refl s
  | some r =>
    have h1 : HFr H s (s.emit (.remoteRx a m)) := .same [_] rfl rfl (.one (by intros; simp))
    rcases remoteRx_cases cfg e m hr with ⟨d, k, t, -, hp, ⟨-, h⟩ | ⟨-, l, h, hl⟩⟩ | ⟨-, l, h, hl⟩
    · rw [h]
      exact (h1.trans (hfr_ackFrom hp.entry hp.ack)).trans (.same [_] rfl rfl (.one (by intros; simp)))
    · rw [h]
      exact (h1.trans (hfr_ackFrom hp.entry hp.ack)).trans (.same l rfl rfl hl.sent)
    · rw [h]
      exact h1.trans (.same l rfl rfl hl.sent)

theorem proxyRemove_mem {imsi : Bytes} {l : List ProxyEntry} {x : ProxyEntry} (h : x ∈ proxyRemove imsi l) : x ∈ l :=
  (proxyRemove_sublist _ _).subset h

/-- What an event says about the home of a subscriber: the result of a lookup, or the configured gateway. -/
def Ev.tells (ev : Ev) (imsi : Bytes) (a : Addr) : Prop :=
  (∃ v e, ev = .lookup imsi (some v) e ∧ a = foundAddr v)
  ∨ (∃ c m e, ev = .rx c (some m) e ∧ m.imsi = imsi ∧ e.gateway = a)

/-- One event. -/
theorem step_home (cfg : Cfg) (s : Sys) (ev : Ev) (hz : ∀ i a, a.nonzero = false → H i a)
    (ht : ∀ i a, a.nonzero = true → ev.tells i a → H i a) : HFr H s (step cfg s ev) := by
  have pr := hfr_prims (H := H) cfg
  unfold step
  by_cases hu : s.ub = true
  · rw [if_pos hu]; exact .refl s
  · rw [if_neg hu]
    cases ev with
    | connect => exact .same [_] rfl rfl (.one (by intros; simp))
    | ccm c sernr =>
      dsimp only
      split
      · exact .refl s
      · unfold ccmCb
        split
        · exact .same [_] rfl rfl (.one (by intros; simp))
        · exact .same [_] rfl rfl (.one (by intros; simp))
        · exact .same [] rfl rfl .nil
    | close c =>
      dsimp only
      split
      · exact .refl s
      · exact .same [_] rfl rfl (.one (by intros; simp))
    | rx c m e =>
      refine hfr_rx cfg e c m s hz ?_
      rintro hg m' rfl
      exact ht _ _ hg (.inr ⟨c, m', e, rfl, rfl, rfl⟩)
    | luTimeout nr => exact pr.luTimeout nr (fun _ _ => trivial) (fun _ _ => .same [] rfl rfl .nil)
    | ssTimeout imsi id =>
      exact pr.ssTimeout (fun _ _ _ => .same [] rfl rfl .nil) imsi id (fun _ _ _ _ => trivial)
    | db op sc => exact pr.withDb (api_op trivial) (pr.refl s) (fun a d _ h => h)
    | notify imsi sc =>
      refine pr.withDb (api_getByImsi _) (pr.refl s) (fun a d _ h => ?_)
      split
      · exact pr.trans h (pr.notify _ _ _)
      · exact h
    | nam imsi val isPs sc sc' =>
      refine pr.withDb (api_getByImsi _) (pr.refl s) (fun a d _ h => ?_)
      split
      · exact pr.trans h (pr.nam _ _ _ _ _)
      · exact h
    | remoteUp a =>
      dsimp only
      unfold remoteUp
      split
      · exact .refl s
      · rename_i r _
        have rep : ∀ n (t : Sys), HFr H t (repeatN n (connectResultCb cfg a true) t) := by
          intro n
          induction n with
          | zero => intro t; exact .refl t
          | succ n ih => intro t; exact (hfr_cb cfg a true t).trans (ih _)
        exact HFr.trans (t := setRemote { r with up := true, cbs := 0 } s) (.same [] rfl rfl .nil) (rep _ _)
    | remoteDown a => exact .same [] rfl rfl .nil
    | remoteLost a =>
      dsimp only
      unfold remoteLost
      split
      · exact .refl s
      · exact .same [] rfl rfl .nil
    | remoteRx a m e => exact hfr_remoteRx _ _ _ _ _
    | lookup imsi res e =>
      dsimp only
      have hdel : HFr H s (proxyDel cfg imsi s) := by
        unfold proxyDel
        dsimp only
        refine (hfr_pop cfg imsi none s (fun _ h => by cases h)).trans ?_
        intro h0
        exact ⟨fun x hx => h0 x (proxyRemove_mem hx), [], rfl, .nil⟩
      unfold lookupResult
      split
      · exact hdel
      · rename_i v4 v6
        split
        · exact hdel
        · rename_i hnz
          split
          · exact .refl s
          · rename_i d hd
            have hi := (byImsi_some hd).1
            refine hfr_resolved cfg e ?_ s
            have : (if v4.nonzero = true then v4 else v6) = foundAddr (v4, v6) := rfl
            rw [hi, this]
            refine ht _ _ ?_ (.inl ⟨(v4, v6), e, rfl, rfl⟩)
            unfold foundAddr
            dsimp only
            cases h4 : v4.nonzero with
            | true => simpa using h4
            | false =>
              rw [h4] at hnz
              simpa using hnz
    | proxyGc clock =>
      intro h0
      exact ⟨fun x hx => h0 x (List.mem_filter.1 hx).1, [], rfl, .nil⟩
    | kill => exact pr.crash s

end

/-- Where a history says that the home HLR of the subscriber is. -/
def Told (evs : List (Cfg × Ev)) (imsi : Bytes) (a : Addr) : Prop := ∃ x ∈ evs, x.2.tells imsi a

/-- Requests go only where the history so far says that the home of their subscriber is. -/
theorem sent_told (d : Db) (evs : List (Cfg × Ev)) {a : Addr} (hz : a.nonzero = true) {m : Msg} {nr : Nat}
    (h : .remote a m (some nr) ∈ (run (init d) evs).log) : Told evs m.imsi a := by
  have gen : ∀ (l : List (Cfg × Ev)) (s : Sys), (∀ x ∈ l, x ∈ evs) →
      HFr (fun i a => a.nonzero = true → Told evs i a) s (run s l) := by
    intro l
    induction l with
    | nil => intro s _; exact .refl s
    | cons x l ih =>
      intro s hl
      refine HFr.trans (step_home x.1 s x.2 ?_ ?_) (ih _ fun y hy => hl y (List.mem_cons_of_mem _ hy))
      · intro i a h1 h2; rw [h1] at h2; cases h2
      · intro i a _ ht _
        exact ⟨x, hl x List.mem_cons_self, ht⟩
  obtain ⟨-, l, e, hs⟩ := gen evs (init d) (fun x hx => hx) (fun x hx => by cases hx)
  rw [e] at h
  exact hs a m nr (by simpa [init] using h) hz

end Verif.Sys
