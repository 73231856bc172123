import Verif.Sys.Lemmas2
namespace Verif.Sys
open Verif Verif.Db Verif.Gsup Verif.Hlr

theorem done_readCbForward {s : Sys} (cfg : Cfg) {q : Req} (h : Inv [q] s) :
    Done (readCbForward cfg q s) := by
  unfold readCbForward
  dsimp only
  split
  · exact (h.respond1 cfg _ _).done
  · split
    · exact (h.respond1 cfg _ _).done
    · split
      · exact ((h.sendToIpa _ _).respond1 cfg _ _).done
      · exact ((h.sendToIpa _ _).concl .forwarded trivial).done

theorem ite_done {c : Prop} [Decidable c] {a b : Sys} (h1 : c → Done a) (h2 : ¬ c → Done b) :
    Done (if c then a else b) := by
  by_cases hc : c
  · rw [if_pos hc]; exact h1 hc
  · rw [if_neg hc]; exact h2 hc

theorem done_dispatch {s : Sys} (cfg : Cfg) (e : Env) {k : Conn} (hk : k.name.WF) {q : Req}
    (h : Inv [q] s) : Done (dispatch cfg e k q s) := by
  unfold dispatch
  have nn : ∀ {t}, q.gsup.typ = t → t % 4 ≠ 0 → HowOk q.gsup.typ .dropped := by
    rintro t rfl ht (e | e | e | e | e | e | e) <;> rw [e] at ht <;> exact absurd ht (by decide)
  refine ite_done (fun _ => done_rxSai cfg e h) fun n1 => ?_
  refine ite_done (fun ht => done_rxUpdLoc cfg e hk h ht) fun n2 => ?_
  refine ite_done (fun _ => done_rxPurge cfg e h) fun n3 => ?_
  refine ite_done (fun e => (h.concl _ (nn e (by simp))).done) fun _ => ?_
  refine ite_done (fun e => (h.concl _ (nn e (by simp))).done) fun _ => ?_
  refine ite_done (fun ht => done_rxProcSs cfg e h ht) fun _ => ?_
  refine ite_done (fun e => (h.concl _ (nn e (by simp))).done) fun _ => ?_
  refine ite_done (fun _ => done_luRx cfg h) fun _ => ?_
  refine ite_done (fun _ => done_rxCheckImei cfg e h) fun n4 => ?_
  refine ite_done (fun _ => done_moSms cfg h) fun n5 => ?_
  refine ite_done (fun _ => done_mtSms cfg e h) fun n6 => ?_
  refine ite_done (fun _ => done_readyForSm cfg h) fun n7 => ?_
  refine (h.concl _ ?_).done
  rintro (e | e | e | e | e | e | e)
  · exact n1 e
  · exact n2 e
  · exact n3 e
  · exact n4 e
  · exact n5 e
  · exact n6 e
  · exact n7 e

/-! ## Distributed GSM -/

theorem Inv.setProxy {P : List Req} {s : Sys} (h : Inv P s) (l : List ProxyEntry) :
    Inv P { s with proxy := l } :=
  h.sameLog rfl rfl rfl rfl rfl rfl rfl h.good (fun _ => rfl) (fun _ hx => hx) (fun _ _ _ hx => hx)
    (fun _ _ _ hx => .inl hx) (fun _ _ _ hx => .inl hx)

theorem Inv.setRemotes {P : List Req} {s : Sys} (h : Inv P s) (l : List Remote) :
    Inv P { s with remotes := l } :=
  h.sameLog rfl rfl rfl rfl rfl rfl rfl h.good (fun _ => rfl) (fun _ hx => hx) (fun _ _ _ hx => hx)
    (fun _ _ _ hx => .inl hx) (fun _ _ _ hx => .inl hx)

theorem Inv.proxyPut {P : List Req} {s : Sys} (h : Inv P s) (c : Int) (d : ProxySub) :
    Inv P (proxyPut c d s) := h.setProxy _

theorem Inv.setRemote {P : List Req} {s : Sys} (h : Inv P s) (r : Remote) : Inv P (setRemote r s) :=
  h.setRemotes _

theorem Inv.connectResult {P : List Req} {s : Sys} (cfg : Cfg) (a : Option Addr) {q : Req}
    (h : Inv (q :: P) s) : Inv P (connectResult cfg a s q) := by
  unfold Verif.Sys.connectResult
  split
  · unfold forwardToRemote
    dsimp only
    split
    · exact h.finishRemote _ _
    · exact h.respondErr cfg _
  · split
    · exact h.respond1 cfg _ _
    · exact h.respondErr cfg _

theorem Inv.popAll {P : List Req} (cfg : Cfg) (a : Option Addr) (l : List Req) {s : Sys}
    (h : Inv (l ++ P) s) : Inv P (l.foldl (Verif.Sys.connectResult cfg a) s) := by
  induction l generalizing s with
  | nil => exact h
  | cons q l ih => exact ih (h.connectResult cfg a)

theorem Inv.deferredPop {P : List Req} {s : Sys} (cfg : Cfg) (imsi : Bytes) (a : Option Addr)
    (h : Inv P s) : Inv P (deferredPop cfg imsi a s) := by
  unfold Verif.Sys.deferredPop
  apply Inv.popAll
  refine h.move' s.lus s.sess _ ?_ h.keys h.lus h.sessReq
  have p := List.filter_append_perm (fun q : Req => q.gsup.imsi == imsi) s.pending
  refine List.Perm.trans ?_ (List.Perm.append_left P (List.Perm.append_left _ p))
  generalize s.pending.filter (fun q : Req => q.gsup.imsi == imsi) = F
  simp only [← List.append_assoc]
  apply List.Perm.append_right
  simp only [List.append_assoc]
  refine List.perm_append_comm.trans ?_
  simp only [List.append_assoc]
  exact List.Perm.refl _

theorem Inv.proxyDel {P : List Req} {s : Sys} (cfg : Cfg) (imsi : Bytes) (h : Inv P s) :
    Inv P (proxyDel cfg imsi s) := (h.deferredPop cfg imsi none).setProxy _

theorem Inv.connectResultCb {P : List Req} {s : Sys} (cfg : Cfg) (a : Addr) (up : Bool) (h : Inv P s) :
    Inv P (connectResultCb cfg a up s) := by
  unfold Verif.Sys.connectResultCb
  generalize s.proxy = l
  induction l generalizing s with
  | nil => exact h
  | cons x l ih =>
    apply ih
    by_cases c : x.data.addr = a
    · simp only [c, ↓reduceIte]
      exact h.deferredPop cfg _ _
    · simp only [c, ↓reduceIte]
      exact h

theorem Inv.connectRemote {P : List Req} {s : Sys} (cfg : Cfg) (e : Env) (a : Addr) (h : Inv P s) :
    Inv P (connectRemote cfg e a s) := by
  unfold Verif.Sys.connectRemote
  split
  · split
    · exact h.connectResultCb cfg _ _
    · exact h.setRemote _
  · split
    · exact h.setRemotes _
    · exact h.connectResultCb cfg _ _

theorem Inv.remoteResolved {P : List Req} {s : Sys} (cfg : Cfg) (e : Env) (d : ProxySub) (a : Addr)
    (h : Inv P s) : Inv P (remoteResolved cfg e d a s) := by
  unfold Verif.Sys.remoteResolved
  split
  · exact h
  · dsimp only
    split
    · exact (h.proxyPut _ _).connectRemote cfg e a
    · exact h.proxyPut _ _

theorem Inv.ackToRemote {P : List Req} {s : Sys} (e : Env) (d : ProxySub) (q : Req)
    (h : Inv P s) : Inv P (ackToRemote e d q s) := by
  unfold Verif.Sys.ackToRemote
  split
  · dsimp only
    split
    · exact h.proxyPut _ _
    · exact h
  · exact h

theorem Inv.deferReq {P : List Req} {s : Sys} {q : Req} (h : Inv (q :: P) s) : Inv P (deferReq q s) := by
  refine h.move' s.lus s.sess _ ?_ h.keys h.lus h.sessReq
  simp only [waiting, ← List.append_assoc]
  exact List.perm_append_comm

theorem Inv.forwardToRemoteHlr {P : List Req} {s : Sys} (cfg : Cfg) (e : Env) (d : ProxySub) {q : Req}
    (h : Inv (q :: P) s) : Inv P (forwardToRemoteHlr cfg e d q s) := by
  unfold Verif.Sys.forwardToRemoteHlr
  have h := h.ackToRemote e d q
  dsimp only
  split
  · exact h.deferReq
  · split
    · split
      · exact h.connectResult cfg _
      · exact h.deferReq.connectRemote cfg e _
    · exact h.deferReq.connectRemote cfg e _

theorem Inv.errReply {P : List Req} {s : Sys} (cfg : Cfg) (r : Remote) (m : Msg) (c : Cause)
    (h : Inv P s) : Inv P (errReply cfg s r m c) := by
  unfold Verif.Sys.errReply
  split
  · exact h
  · dsimp only
    generalize (Msg.mk (toError m.typ) _ _ _ _ _ _ _ _ _ _ _ _ _ _ _ _ _ _) = x
    split
    · exact h.remoteTx _ _
    · exact h

theorem ackFromRemote_frame {cfg : Cfg} {e : Env} {d : ProxySub} {m : Msg} {n v : IpaName} {s t : Sys}
    (h : ackFromRemote cfg e d m n v s = some t) : ∃ l, t = { s with proxy := l } := by
  unfold ackFromRemote at h
  split at h
  · split at h
    · cases h; exact ⟨_, rfl⟩
    · split at h
      · cases h; exact ⟨_, rfl⟩
      · split at h
        · cases h; exact ⟨_, rfl⟩
        · cases h; exact ⟨_, rfl⟩
  · split at h
    · obtain ⟨x, -, e⟩ := Option.map_eq_some_iff.1 h
      exact ⟨_, e.symm⟩
    · cases h; exact ⟨_, rfl⟩

theorem Inv.forwardToVlr {P : List Req} {s : Sys} (cfg : Cfg) (e : Env) (d : ProxySub) (m : Msg)
    (h : Inv P s) : Inv P (forwardToVlr cfg e d m s).2 := by
  unfold Verif.Sys.forwardToVlr
  dsimp only
  split
  · exact h
  · split
    · exact h
    · split
      · exact h
      · split
        · exact h
        · rename_i t ht
          obtain ⟨l, rfl⟩ := ackFromRemote_frame ht
          split
          · exact (h.setProxy l).tx _ _
          · exact h.setProxy l

theorem Inv.remoteRx {P : List Req} {s : Sys} (cfg : Cfg) (e : Env) (a : Addr) (m : Msg)
    (h : Inv P s) : Inv P (remoteRx cfg e a m s) := by
  unfold Verif.Sys.remoteRx
  split
  · exact h
  · have h := h.remoteIn a m
    dsimp only
    split
    · exact h.errReply cfg _ _ _
    · split
      · exact h.errReply cfg _ _ _
      · split
        · exact h.forwardToVlr cfg e _ _
        · exact (h.forwardToVlr cfg e _ _).errReply cfg _ _ _

theorem Inv.repeatCb {P : List Req} (cfg : Cfg) (a : Addr) (n : Nat) {s : Sys} (h : Inv P s) :
    Inv P (repeatN n (Verif.Sys.connectResultCb cfg a true) s) := by
  induction n generalizing s with
  | zero => exact h
  | succ n ih => exact ih (h.connectResultCb cfg a true)

theorem Inv.remoteUp {P : List Req} {s : Sys} (cfg : Cfg) (a : Addr) (h : Inv P s) :
    Inv P (remoteUp cfg a s) := by
  unfold Verif.Sys.remoteUp
  split
  · exact h
  · exact (h.setRemote _).repeatCb cfg a _

theorem Inv.remoteDown {P : List Req} {s : Sys} (a : Addr) (h : Inv P s) : Inv P (remoteDown a s) :=
  h.setRemotes _

theorem Inv.remoteLost {P : List Req} {s : Sys} (a : Addr) (h : Inv P s) : Inv P (remoteLost a s) := by
  unfold Verif.Sys.remoteLost
  split
  · exact h
  · exact h.setRemote _

theorem Inv.lookupResult {P : List Req} {s : Sys} (cfg : Cfg) (e : Env) (imsi : Bytes)
    (res : Option (Addr × Addr)) (h : Inv P s) : Inv P (lookupResult cfg e imsi res s) := by
  unfold Verif.Sys.lookupResult
  split
  · exact h.proxyDel cfg imsi
  · split
    · exact h.proxyDel cfg imsi
    · split
      · exact h
      · exact h.remoteResolved cfg e _ _

theorem done_dgsmCheck {s : Sys} (cfg : Cfg) (e : Env) {q : Req} (h : Inv [q] s) {k : Sys → Sys}
    (hk : ∀ t, Inv [q] t → Done (k t)) : Done (dgsmCheck cfg e q s k) := by
  unfold dgsmCheck
  apply h.withDb
  intro rc d _
  have h := h.setDb d
  generalize ({ s with db := d } : Sys) = s at h ⊢
  split
  · exact hk _ h
  · split
    · exact (h.forwardToRemoteHlr cfg e _).done
    · have h := h.proxyPut e.clock { imsi := q.gsup.imsi }
      dsimp only
      split
      · have h := h.remoteResolved cfg e { imsi := q.gsup.imsi } e.gateway
        split
        · exact (h.respondErr cfg _).done
        · exact (h.forwardToRemoteHlr cfg e _).done
      · split
        · exact hk _ h
        · exact (h.forwardToRemoteHlr cfg e _).done

theorem done_readCb {s : Sys} (cfg : Cfg) (e : Env) {k : Conn} (hk : k.name.WF) {q : Req}
    (h : Inv [q] s) : Done (readCb cfg e k q s) := by
  unfold readCb
  split
  · exact done_readCbForward cfg h
  · split
    · exact done_dgsmCheck cfg e h (fun t ht => done_dispatch cfg e hk ht)
    · exact done_dispatch cfg e hk h

/-! ## Routes -/

theorem routeFind_none {rs : List (Bytes × ConnId)} {a : Bytes} :
    routeFind rs a = none ↔ a ∉ rs.map (·.1) := by
  simp only [routeFind, Option.map_eq_none_iff, List.find?_eq_none, beq_iff_eq, List.mem_map,
    not_exists, not_and]

theorem routeFind_some {rs : List (Bytes × ConnId)} (hn : (rs.map (·.1)).Nodup) {a : Bytes}
    {c : ConnId} : routeFind rs a = some c ↔ (a, c) ∈ rs := by
  induction rs with
  | nil => simp [routeFind]
  | cons r rs ih =>
    obtain ⟨a', c'⟩ := r
    simp only [List.map_cons, List.nodup_cons] at hn
    by_cases h : a' = a
    · subst h
      simp only [routeFind, List.find?_cons, beq_self_eq_true, Option.map_some, Option.some.injEq,
        List.mem_cons, Prod.mk.injEq, true_and]
      constructor
      · intro h; exact .inl h.symm
      · rintro (h | h)
        · exact h.symm
        · exact absurd (List.mem_map.2 ⟨_, h, rfl⟩) hn.1
    · have : routeFind ((a', c') :: rs) a = routeFind rs a := by
        simp [routeFind, h]
      rw [this, ih hn.2]
      simp only [List.mem_cons, Prod.mk.injEq]
      constructor
      · exact fun h => .inr h
      · rintro (⟨e, -⟩ | h')
        · exact absurd e.symm h
        · exact h'

theorem Inv.routeAdd {P : List Req} {s : Sys} (h : Inv P s) (c : ConnId) (addr : Bytes)
    (hc : ∃ k ∈ s.conns, k.id = c) : Inv P { s with routes := (routeAdd s.routes c addr).2 } := by
  have : (Verif.Sys.routeAdd s.routes c addr).2 = s.routes ∨
      ((Verif.Sys.routeAdd s.routes c addr).2 = s.routes ++ [(addr, c)] ∧ addr ∉ s.routes.map (·.1)) := by
    unfold Verif.Sys.routeAdd
    split
    · exact .inl rfl
    · rename_i hn
      exact .inr ⟨rfl, routeFind_none.1 hn⟩
  exact
    { good := h.good, nodup := h.nodup, isopen := h.isopen, fresh := h.fresh, keys := h.keys
      routesNodup := by
        show ((Verif.Sys.routeAdd s.routes c addr).2.map (·.1)).Nodup
        rcases this with e | ⟨e, hn⟩
        · rw [e]; exact h.routesNodup
        · rw [e, List.map_append, List.nodup_append]
          refine ⟨h.routesNodup, by simp, ?_⟩
          intro a ha b hb
          simp only [List.map_cons, List.map_nil, List.mem_singleton] at hb
          subst hb
          exact fun e => hn (e ▸ ha)
      routesLive := fun r hr => by
        replace hr : r ∈ (Verif.Sys.routeAdd s.routes c addr).2 := hr
        rcases this with e | ⟨e, hn⟩
        · rw [e] at hr; exact h.routesLive r hr
        · rw [e] at hr
          rcases List.mem_append.1 hr with hr | hr
          · exact h.routesLive r hr
          · simp only [List.mem_singleton] at hr
            subst hr; exact hc
      connNodup := h.connNodup, connFresh := h.connFresh, connWf := h.connWf
      reqOk := h.reqOk, logged := h.logged, lus := h.lus, sessReq := h.sessReq, prov := h.prov
      norem := h.norem }

theorem done_connRx {s : Sys} (cfg : Cfg) (e : Env) {k : Conn} (hk : k.name.WF)
    (hm : ∃ k' ∈ s.conns, k'.id = k.id) {q : Req}
    (h : Inv [q] s) : Done (connRx cfg e k q s) := by
  unfold connRx
  split
  · exact done_readCb cfg e hk h
  · have h1 := h.routeAdd k.id q.source.name hm
    dsimp only
    split
    · exact (h1.respondMsgt cfg _).done
    · exact done_readCb cfg e hk h1

theorem conn?_some {s : Sys} {c : ConnId} {k : Conn} (h : s.conn? c = some k) :
    k ∈ s.conns ∧ k.id = c := by
  have h2 : (k.id == c) = true := by
    have := List.find?_some h; exact this
  exact ⟨List.mem_of_find?_eq_some h, by simpa using h2⟩

/-- A response is preceded by its request. -/
theorem tx_rx {l : List Out} (h : GoodLog l) {c : ConnId} {m : Msg} {nr : Nat}
    (hm : Out.tx c m (some nr) ∈ l) : ∃ c0 m0, Out.rx nr c0 m0 ∈ l := by
  induction l with
  | nil => simp at hm
  | cons o l ih =>
    rcases List.mem_cons.1 hm with rfl | hm
    · obtain ⟨-, c0, m0, h0, -⟩ := h.1
      exact ⟨c0, _, List.mem_cons_of_mem _ h0⟩
    · obtain ⟨c0, m0, h0⟩ := ih h.2 hm
      exact ⟨c0, m0, List.mem_cons_of_mem _ h0⟩

/-- A request passed on was received. -/
theorem remote_rx {l : List Out} (h : GoodLog l) {a : Addr} {m : Msg} {nr : Nat}
    (hm : Out.remote a m (some nr) ∈ l) : ∃ c0 m0, Out.rx nr c0 m0 ∈ l := by
  induction l with
  | nil => simp at hm
  | cons o l ih =>
    rcases List.mem_cons.1 hm with rfl | hm
    · obtain ⟨-, c0, m0, h0, -⟩ := h.1
      exact ⟨c0, _, List.mem_cons_of_mem _ h0⟩
    · obtain ⟨c0, m0, h0⟩ := ih h.2 hm
      exact ⟨c0, m0, List.mem_cons_of_mem _ h0⟩

/-- A new request enters. -/
theorem Inv.rxNew {s : Sys} (h : Inv [] s) (q : Req) (hq : ReqOk q) (e : q.nr = s.nextReq) :
    Inv [q] { s with nextReq := s.nextReq + 1, log := .rx q.nr q.conn (some q.gsup) :: s.log } := by
  have hn : ¬ isOpen q.nr s.log = true := by
    intro ho
    obtain ⟨c, m, hm⟩ := isOpen_rx ho
    have := h.fresh _ _ _ hm
    omega
  exact
    { good := ⟨fun c m hm => by have := h.fresh _ _ _ hm; omega, h.good⟩
      nodup := by
        show (([q] ++ waiting s).map (·.nr)).Nodup
        simp only [List.cons_append, List.nil_append, List.map_cons, List.nodup_cons]
        refine ⟨?_, by simpa using h.nodup⟩
        intro hc
        exact hn ((h.isopen q.nr).2 (by simpa using hc))
      isopen := fun nr => by
        show (q.nr == nr || isOpen nr s.log) = true ↔ nr ∈ ([q] ++ waiting s).map (·.nr)
        rw [Bool.or_eq_true, h.isopen nr]
        simp only [beq_iff_eq, List.nil_append, List.cons_append, List.map_cons, List.mem_cons]
        constructor
        · rintro (h | h)
          · exact .inl h.symm
          · exact .inr h
        · rintro (h | h)
          · exact .inl h.symm
          · exact .inr h
      fresh := fun nr c m hm => by
        show nr < s.nextReq + 1
        rcases List.mem_cons.1 hm with hm | hm
        · cases hm; omega
        · have := h.fresh nr c m hm; omega
      keys := h.keys
      routesNodup := h.routesNodup, routesLive := h.routesLive
      connNodup := h.connNodup, connFresh := h.connFresh, connWf := h.connWf
      reqOk := fun q' hq' => by
        rcases List.mem_cons.1 hq' with rfl | hq'
        · exact hq
        · exact h.reqOk q' hq'
      logged := fun q' hq' => by
        rcases List.mem_cons.1 hq' with rfl | hq'
        · exact List.mem_cons_self ..
        · exact List.mem_cons_of_mem _ (h.logged q' hq')
      lus := h.lus, sessReq := h.sessReq
      prov := fun q' hq' c m hm => by
        have hm' : Out.tx c m (some q'.nr) ∈ s.log := by
          rcases List.mem_cons.1 hm with hm | hm
          · cases hm
          · exact hm
        rcases List.mem_cons.1 hq' with rfl | hq'
        · obtain ⟨c', m', hr⟩ := tx_rx h.good hm'
          have := h.fresh _ _ _ hr
          omega
        · exact h.prov q' hq' c m hm'
      norem := fun q' hq' a m hm => by
        have hm' : Out.remote a m (some q'.nr) ∈ s.log := by
          rcases List.mem_cons.1 hm with hm | hm
          · cases hm
          · exact hm
        rcases List.mem_cons.1 hq' with rfl | hq'
        · obtain ⟨c', m', hr⟩ := remote_rx h.good hm'
          have := h.fresh _ _ _ hr
          omega
        · exact h.norem q' hq' a m hm' }

theorem mkReq_ok {k : Conn} (hk : k.name.WF) (nr : Nat) (m : Msg) :
    ReqOk (mkReq k nr m) ∧ (mkReq k nr m).nr = nr ∧ (mkReq k nr m).conn = k.id
      ∧ (mkReq k nr m).gsup = m := by
  unfold mkReq
  split
  · exact ⟨⟨hk, fun n hn => by cases hn⟩, rfl, rfl, rfl⟩
  · refine ⟨⟨ipaSet_wf hk _, fun n hn => ?_⟩, rfl, rfl, rfl⟩
    dsimp only at hn
    split at hn
    · cases hn; exact hk
    · cases hn

/-- An undecodable message comes and goes. -/
theorem Inv.rxBad {s : Sys} (h : Inv [] s) (c : ConnId) :
    Inv [] { s with nextReq := s.nextReq + 1,
                    log := .concl s.nextReq .dropped :: .rx s.nextReq c none :: s.log } := by
  have hn : ∀ c m, Out.rx s.nextReq c m ∉ s.log := by
    intro c m hm
    have := h.fresh _ _ _ hm
    omega
  have ho : isOpen s.nextReq s.log = false := by
    cases he : isOpen s.nextReq s.log with
    | false => rfl
    | true => obtain ⟨c, m, hm⟩ := isOpen_rx he; exact absurd hm (hn c m)
  exact
    { good := ⟨⟨by simp [isOpen], c, none, by simp, fun m hm => by cases hm⟩, hn, h.good⟩
      nodup := h.nodup
      isopen := fun nr => by
        show (s.nextReq != nr && (s.nextReq == nr || isOpen nr s.log)) = true ↔ nr ∈ (waiting s).map (·.nr)
        rw [show (nr ∈ (waiting s).map (·.nr)) ↔ _ from (h.isopen nr).symm]
        by_cases e : s.nextReq = nr
        · subst e; simp [ho]
        · simp [e]
      fresh := fun nr c m hm => by
        show nr < s.nextReq + 1
        rcases List.mem_cons.1 hm with hm | hm
        · cases hm
        · rcases List.mem_cons.1 hm with hm | hm
          · cases hm; omega
          · have := h.fresh nr c m hm; omega
      keys := h.keys
      routesNodup := h.routesNodup, routesLive := h.routesLive
      connNodup := h.connNodup, connFresh := h.connFresh, connWf := h.connWf
      reqOk := h.reqOk
      logged := fun q hq => List.mem_cons_of_mem _ (List.mem_cons_of_mem _ (h.logged q hq))
      lus := h.lus, sessReq := h.sessReq
      prov := fun q hq c m hm => h.prov q hq c m (by simpa using hm)
      norem := fun q hq a m hm => h.norem q hq a m (by simpa using hm) }

theorem done_rx {s : Sys} (cfg : Cfg) (e : Env) (c : ConnId) (mo : Option Msg) (h : Inv [] s) :
    Done (rx cfg e c mo s) := by
  unfold rx
  split
  · exact h.done
  · rename_i k hk
    obtain ⟨hm, hid⟩ := conn?_some hk
    have wf := h.connWf k hm
    dsimp only
    split
    · exact (h.rxBad c).done
    · rename_i m
      obtain ⟨ok, e1, e2, e3⟩ := mkReq_ok wf s.nextReq m
      have hr := h.rxNew (mkReq k s.nextReq m) ok e1
      rw [e1, e2, e3, hid] at hr
      have hr0 := h.rxNew { nr := s.nextReq, conn := c, gsup := m, source := k.name }
        ⟨wf, fun n hn => by cases hn⟩ rfl
      split
      · exact (hr0.respondMsgt cfg _).done
      · split
        · exact (hr.respondErr cfg _).done
        · exact done_connRx (s := { s with nextReq := s.nextReq + 1, log := .rx s.nextReq c (some m) :: s.log }) cfg e wf ⟨k, hm, rfl⟩ hr

/-! ## Connections -/

theorem Inv.connect {s : Sys} (h : Inv [] s) : Inv [] (connect s) :=
  { good := ⟨trivial, h.good⟩
    nodup := h.nodup, isopen := h.isopen
    fresh := fun nr c m hm => by
      rcases List.mem_cons.1 hm with hm | hm
      · cases hm
      · exact h.fresh nr c m hm
    keys := h.keys, routesNodup := h.routesNodup
    routesLive := fun r hr => by
      obtain ⟨k, hk, e⟩ := h.routesLive r hr
      exact ⟨k, List.mem_append_left _ hk, e⟩
    connNodup := by
      show ((s.conns ++ [({ id := s.nextConn } : Conn)]).map (fun k => k.id)).Nodup
      rw [List.map_append, List.nodup_append]
      refine ⟨h.connNodup, by simp, ?_⟩
      intro a ha b hb
      simp only [List.map_cons, List.map_nil, List.mem_singleton] at hb
      subst hb
      obtain ⟨k, hk, e⟩ := List.mem_map.1 ha
      have := h.connFresh k hk
      intro e'
      exact Nat.ne_of_lt this (e.trans e')
    connFresh := fun k hk => by
      show k.id < s.nextConn + 1
      rcases List.mem_append.1 hk with hk | hk
      · exact Nat.lt_succ_of_lt (h.connFresh k hk)
      · simp only [List.mem_singleton] at hk
        subst hk; simp
    connWf := fun k hk => by
      rcases List.mem_append.1 hk with hk | hk
      · exact h.connWf k hk
      · simp only [List.mem_singleton] at hk
        subst hk; exact ⟨by simp, by simp⟩
    reqOk := h.reqOk
    logged := fun q hq => List.mem_cons_of_mem _ (h.logged q hq)
    lus := h.lus, sessReq := h.sessReq
    prov := fun q hq c m hm => h.prov q hq c m (by
      rcases List.mem_cons.1 hm with hm | hm
      · cases hm
      · exact hm)
    norem := fun q hq c m hm => h.norem q hq c m (by
      rcases List.mem_cons.1 hm with hm | hm
      · cases hm
      · exact hm) }

theorem Inv.close {s : Sys} (h : Inv [] s) (c : ConnId) : Inv [] (close s c) :=
  { good := ⟨trivial, h.good⟩
    nodup := h.nodup, isopen := h.isopen
    fresh := fun nr c m hm => by
      rcases List.mem_cons.1 hm with hm | hm
      · cases hm
      · exact h.fresh nr c m hm
    keys := h.keys
    routesNodup := h.routesNodup.sublist (List.filter_sublist.map _)
    routesLive := fun r hr => by
      obtain ⟨hr, hc⟩ := List.mem_filter.1 hr
      obtain ⟨k, hk, e⟩ := h.routesLive r hr
      exact ⟨k, List.mem_filter.2 ⟨hk, by rw [e]; exact hc⟩, e⟩
    connNodup := h.connNodup.sublist (List.filter_sublist.map _)
    connFresh := fun k hk => h.connFresh k (List.mem_filter.1 hk).1
    connWf := fun k hk => h.connWf k (List.mem_filter.1 hk).1
    reqOk := h.reqOk
    logged := fun q hq => List.mem_cons_of_mem _ (h.logged q hq)
    lus := h.lus, sessReq := h.sessReq
    prov := fun q hq c m hm => h.prov q hq c m (by
      rcases List.mem_cons.1 hm with hm | hm
      · cases hm
      · exact hm)
    norem := fun q hq c m hm => h.norem q hq c m (by
      rcases List.mem_cons.1 hm with hm | hm
      · cases hm
      · exact hm) }

theorem Inv.ccm {s : Sys} (h : Inv [] s) {k : Conn} (hk : k ∈ s.conns) (sernr : Option Bytes) :
    Inv [] (ccmCb s k sernr) := by
  unfold ccmCb
  split
  · exact h.close _
  · exact h.close _
  · rename_i x l
    have wf := ipaSet_wf (h.connWf k hk) (x :: l)
    have h1 := h.setConn (k := { k with name := (ipaSet k.name (x :: l)).2, ccm := some (x :: l) }) wf
    refine h1.routeAdd _ _ ⟨{ k with name := (ipaSet k.name (x :: l)).2, ccm := some (x :: l) }, ?_, rfl⟩
    exact List.mem_map.2 ⟨k, hk, by simp⟩

theorem Inv.notify {s : Sys} (cfg : Cfg) (sub : HlrSubscr) (h : Inv [] s) (l : List Conn) :
    Inv [] (l.foldl (notifyConn cfg sub) s) := by
  induction l generalizing s with
  | nil => exact h
  | cons a l ih =>
    apply ih
    unfold notifyConn
    split
    · exact h
    · split
      · exact h
      · dsimp only
        generalize (if a.supportsPs = true then sub.sgsnNumber else sub.vlrNumber) = cmp
        split
        · exact h
        · split
          · exact h
          · exact h.addrSend _ _

theorem Inv.delData {s : Sys} (cfg : Cfg) (h : Inv [] s) (i n : Bytes) : Inv [] (sendDelData cfg s i n) := by
  unfold sendDelData
  split
  · exact h
  · exact h.encSendToIpa cfg _ _

theorem Inv.nam {s : Sys} (cfg : Cfg) (e : Env) (sub : HlrSubscr) (v p : Bool) (h : Inv [] s) :
    Inv [] (subscrNam cfg e sub v p s).2 := by
  unfold subscrNam
  generalize (if p = true then sub.namPs else sub.namCs) = cur
  by_cases hc : cur = v
  · rw [if_pos hc]; exact h
  · rw [if_neg hc]
    rcases exec (Db.subscrNam sub.imsi v p) s.db e.sc with ⟨rc, d⟩
    cases rc with
    | none => exact (h.setDb _).crash
    | some rc =>
      dsimp only
      by_cases h1 : rc ≠ 0
      · rw [if_pos h1]; exact h.setDb _
      · rw [if_neg h1]
        split
        · exact h.setDb _
        · exact ((h.setDb _).delData cfg _ _).delData cfg _ _

theorem done_step {s : Sys} (cfg : Cfg) (ev : Ev) (h : Done s) : Done (step cfg s ev) := by
  unfold step
  by_cases hu : s.ub = true
  · rw [if_pos hu]; exact h
  · rw [if_neg hu]
    obtain ⟨P, hi, hp⟩ := h
    have := hp (by simpa using hu)
    subst this
    cases ev with
    | connect => exact hi.connect.done
    | ccm c sernr =>
      dsimp only
      split
      · exact hi.done
      · rename_i k hk
        exact (hi.ccm (conn?_some hk).1 sernr).done
    | close c =>
      dsimp only
      split
      · exact hi.done
      · exact (hi.close c).done
    | rx c m e => exact done_rx cfg e c m hi
    | luTimeout nr => exact done_luTimeout cfg nr hi
    | ssTimeout imsi id => exact done_ssTimeout imsi id hi
    | db op sc => exact hi.withDb (fun a d _ => (hi.setDb d).done)
    | notify imsi sc =>
      apply hi.withDb
      intro a d _
      split
      · exact ((hi.setDb d).notify cfg _ _).done
      · exact (hi.setDb d).done
    | nam imsi val isPs sc sc' =>
      apply hi.withDb
      intro a d _
      split
      · exact ((hi.setDb d).nam cfg _ _ _ _).done
      · exact (hi.setDb d).done
    | remoteUp a => exact (hi.remoteUp cfg a).done
    | remoteDown a => exact (hi.remoteDown a).done
    | remoteLost a => exact (hi.remoteLost a).done
    | remoteRx a m e => exact (hi.remoteRx cfg e a m).done
    | lookup imsi res e => exact (hi.lookupResult cfg e imsi res).done
    | proxyGc clock => exact (hi.setProxy _).done
    | kill => exact hi.crash.done

theorem inv_init (d : Db) : Inv [] (init d) := by
  constructor <;> simp [init, GoodLog, waiting, isOpen]

theorem done_run {s : Sys} (evs : List (Cfg × Ev)) (h : Done s) : Done (run s evs) := by
  induction evs generalizing s with
  | nil => exact h
  | cons x l ih => exact ih (done_step x.1 x.2 h)

theorem reach_done {s : Sys} (h : Reach s) : Done s := by
  obtain ⟨d, evs, rfl⟩ := h
  exact done_run evs (inv_init d).done

theorem run_append (s : Sys) (l l' : List (Cfg × Ev)) :
    run s (l ++ l') = run (run s l) l' := by
  induction l generalizing s with
  | nil => rfl
  | cons a l ih => exact ih _

theorem Reach.step {s : Sys} (h : Reach s) (cfg : Cfg) (ev : Ev) : Reach (step cfg s ev) := by
  obtain ⟨d, evs, rfl⟩ := h
  exact ⟨d, evs ++ [(cfg, ev)], by rw [run_append]; rfl⟩

end Verif.Sys
