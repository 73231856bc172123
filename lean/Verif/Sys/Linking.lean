import Verif.Sys.Props6
/-!
# No request waits for an HLR to which the link is up

Unlike `c38_not_stuck_partial` this holds in all histories.
-/
namespace Verif.Sys.Props
open Verif Verif.Db Verif.Gsup Verif.Hlr

/-- There is no link to `a`, or it is being set up and its arrival will let requests go. -/
def Half (s : Sys) (a : Addr) : Prop := ∀ r, s.remote? a = some r → r.up = false ∧ 0 < r.cbs

/-- No request waits for a home HLR at a known address to which the link is up. -/
def Linking (s : Sys) : Prop :=
  ∀ q ∈ s.pending, ∀ a, addrOf s.proxy q.gsup.imsi = some a → a.nonzero = true → Half s a

/-- As `Linking`, except for requests waiting for the HLR at `b`. -/
def LinkingBut (b : Addr) (s : Sys) : Prop :=
  ∀ q ∈ s.pending, ∀ a, addrOf s.proxy q.gsup.imsi = some a → a.nonzero = true → a ≠ b → Half s a

theorem Linking.but {s : Sys} (h : Linking s) (b : Addr) : LinkingBut b s := fun q hq a h1 h2 _ => h q hq a h1 h2

theorem linking_cb {cfg : Cfg} {s : Sys} (hn : (s.proxy.map (·.data.imsi)).Nodup) {b : Addr} (h : LinkingBut b s) (up : Bool) :
    Linking (connectResultCb cfg b up s) := by
  rw [connectResultCb_eq _ _ _ _ hn]
  intro q hq a h1 h2
  obtain ⟨hq1, hq2⟩ := List.mem_filter.1 hq
  refine h q hq1 a h1 h2 ?_
  rintro rfl
  have := (isFor_iff a s q).2 ((homeAt_iff hn _ _).2 h1)
  rw [this] at hq2
  cases hq2

theorem linking_connect {cfg : Cfg} {e : Env} {s : Sys} (hn : (s.proxy.map (·.data.imsi)).Nodup) {b : Addr} (h : LinkingBut b s) :
    Linking (connectRemote cfg e b s) := by
  unfold connectRemote
  cases hr : s.remote? b with
  | none =>
    dsimp only
    split
    · intro q hq a h1 h2 r hr'
      by_cases c : a = b
      · unfold Sys.remote? at hr'
        rw [c, List.find?_cons_of_pos (by simp)] at hr'
        cases hr'
        exact ⟨rfl, Nat.zero_lt_one⟩
      · refine h q hq a h1 h2 c r ?_
        unfold Sys.remote? at hr'
        rw [List.find?_cons_of_neg (by simp [Ne.symm c])] at hr'
        exact hr'
    · exact linking_cb hn h false
  | some r =>
    dsimp only
    split
    · exact linking_cb hn h true
    · rename_i hup
      intro q hq a h1 h2 r' hr'
      have hb := remote_addr hr
      by_cases c : a = b
      · rw [c, ← hb] at hr'
        rw [← hb] at hr
        have := remote_set_same (r' := { r with cbs := r.cbs + 1 }) hr
        rw [show Sys.remote? (setRemote { r with cbs := r.cbs + 1 } s) r.addr = _ from this] at hr'
        cases hr'
        exact ⟨by simpa using hup, by simp⟩
      · refine h q hq a h1 h2 c r' ?_
        rw [remote_set_ne (by rw [hb]; exact c)] at hr'
        exact hr'

theorem linking_put {s : Sys} (h : Linking s) {clk : Int} {d : ProxySub}
    (hd : addrOf s.proxy d.imsi = some d.addr ∨ d.addr.nonzero = false) : Linking (proxyPut clk d s) := by
  intro q hq a h1 h2
  rw [addrOf_put] at h1
  split at h1
  · rename_i c
    cases h1
    rcases hd with hd | hd
    · exact h q hq d.addr (by rw [c]; exact hd) h2
    · rw [hd] at h2; cases h2
  · exact h q hq a h1 h2

theorem linking_resolved {cfg : Cfg} {e : Env} {s : Sys} (hn : (s.proxy.map (·.data.imsi)).Nodup) (h : Linking s)
    (d : ProxySub) (b : Addr) : Linking (remoteResolved cfg e d b s) := by
  unfold remoteResolved
  split
  · exact h
  · dsimp only
    split
    · refine linking_connect (nodup_put hn _ _) ?_
      intro q hq a h1 h2 h3
      rw [addrOf_put] at h1
      split at h1
      · cases h1; exact absurd rfl h3
      · exact h q hq a h1 h2
    · rename_i hno
      intro q hq a h1 h2
      rw [addrOf_put] at h1
      split at h1
      · rename_i c
        exact absurd (List.any_eq_true.2 ⟨q, hq, by simp [c]⟩) hno
      · exact h q hq a h1 h2

theorem linking_ack {e : Env} {s : Sys} (h : Linking s) {d : ProxySub} {q : Req}
    (hd : addrOf s.proxy d.imsi = some d.addr) : Linking (ackToRemote e d q s) := by
  unfold ackToRemote
  split
  · dsimp only
    split
    · exact linking_put h (.inl (by rw [ackToSub_imsi, ackToSub_addr]; exact hd))
    · exact h
  · exact h

theorem nodup_ack {e : Env} {s : Sys} (hn : (s.proxy.map (·.data.imsi)).Nodup) (d : ProxySub) (q : Req) :
    ((ackToRemote e d q s).proxy.map (·.data.imsi)).Nodup := by
  unfold ackToRemote
  split
  · dsimp only
    split
    · exact nodup_put hn _ _
    · exact hn
  · exact hn

theorem addrOf_ack {e : Env} {s : Sys} {d : ProxySub} {q : Req} (hd : addrOf s.proxy d.imsi = some d.addr) :
    addrOf (ackToRemote e d q s).proxy d.imsi = some d.addr := by
  unfold ackToRemote
  split
  · dsimp only
    split
    · rw [addrOf_put, if_pos (ackToSub_imsi d q).symm, ackToSub_addr]
    · exact hd
  · exact hd

/-- A request that is deferred, before the link is asked for. -/
theorem linking_defer {s : Sys} (h : Linking s) {d : ProxySub} {q : Req} (hi : d.imsi = q.gsup.imsi)
    (hd : addrOf s.proxy d.imsi = some d.addr) : LinkingBut d.addr (deferReq q s) := by
  intro q' hq' a h1 h2 h3
  rcases List.mem_append.1 hq' with h4 | h4
  · exact h q' h4 a h1 h2
  · rw [List.mem_singleton] at h4
    rw [h4, ← hi] at h1
    have : some a = some d.addr := h1.symm.trans hd
    exact absurd (Option.some.inj this) h3

theorem linking_forward {cfg : Cfg} {e : Env} {s : Sys} (hn : (s.proxy.map (·.data.imsi)).Nodup) (h : Linking s) {d : ProxySub}
    {q : Req} (hi : d.imsi = q.gsup.imsi) (hd : addrOf s.proxy d.imsi = some d.addr) :
    Linking (forwardToRemoteHlr cfg e d q s) := by
  unfold forwardToRemoteHlr
  dsimp only
  have h1 := linking_ack (e := e) (q := q) h hd
  have hn1 := nodup_ack (e := e) hn d q
  have hd1 := addrOf_ack (e := e) (q := q) hd
  generalize ackToRemote e d q s = t at h1 hn1 hd1
  have hbut := linking_defer h1 hi hd1
  split
  · rename_i hz
    intro q' hq' a h2 h3
    refine hbut q' hq' a h2 h3 ?_
    rintro rfl
    rw [h3] at hz
    cases hz
  · cases hr : t.remote? d.addr with
    | none => exact linking_connect (s := deferReq q t) hn1 hbut
    | some r =>
      dsimp only
      split
      · rw [connectResult_eq]; exact h1
      · exact linking_connect (s := deferReq q t) hn1 hbut

theorem linking_proxied {cfg : Cfg} {e : Env} {s : Sys} (hn : (s.proxy.map (·.data.imsi)).Nodup) (h : Linking s) (q : Req) :
    Linking (proxied cfg e q s) := by
  unfold proxied
  split
  · rename_i d hd
    obtain ⟨h1, h2⟩ := addrOf_some hd
    exact linking_forward hn h h1 h2
  · have hw : Linking (proxyPut e.clock { imsi := q.gsup.imsi } s) := linking_put h (.inr rfl)
    have hn' := nodup_put hn e.clock { imsi := q.gsup.imsi }
    split
    · have hw2 := linking_resolved (cfg := cfg) (e := e) hn' hw { imsi := q.gsup.imsi } e.gateway
      have hn2 := nodup_resolved (cfg := cfg) (e := e) hn' { imsi := q.gsup.imsi } e.gateway
      split
      · rw [respondErr_frame]; exact hw2
      · rename_i d hd
        obtain ⟨h1, h2⟩ := addrOf_some hd
        exact linking_forward hn2 hw2 h1 h2
    · refine linking_forward hn' hw rfl ?_
      rw [addrOf_put, if_pos rfl]

theorem linking_frame {s t : Sys} (h1 : t.proxy = s.proxy) (h2 : t.pending = s.pending) (h3 : t.remotes = s.remotes) (h : Linking s) : Linking t := by
  intro q hq a ha hz r hr
  rw [h2] at hq
  rw [h1] at ha
  refine h q hq a ha hz r ?_
  unfold Sys.remote? at hr ⊢
  rw [← h3]; exact hr

theorem pfr_linking {s t : Sys} (h : PFr s t) (hw : Linking s) : Linking t := by
  obtain ⟨l, -, ⟨h1, h2, h3⟩ | ⟨-, h1, h2, h3⟩⟩ := h
  · exact linking_frame h1 h2 h3 hw
  · intro q hq
    rw [h2] at hq
    cases hq

theorem linking_readCb {cfg : Cfg} {e : Env} {s : Sys} (hn : (s.proxy.map (·.data.imsi)).Nodup) (h : Linking s) (k : Conn) (q : Req) :
    Linking (readCb cfg e k q s) := by
  have pr := pfr_prims cfg
  rw [readCb_eq]
  split
  · exact pfr_linking (pr.readCbForward s (q := q) trivial) h
  · split
    · split
      · exact pfr_linking (pr.crash s) h
      · split
        · exact pfr_linking (pfr_dispatch ..) h
        · exact linking_proxied hn h q
    · exact pfr_linking (pfr_dispatch ..) h

theorem linking_rx {cfg : Cfg} {e : Env} {s : Sys} (hn : (s.proxy.map (·.data.imsi)).Nodup) (h : Linking s) (c : ConnId)
    (mo : Option Msg) : Linking (rx cfg e c mo s) := by
  unfold rx
  split
  · exact h
  · rename_i k hk
    dsimp only
    split
    · exact h
    · rename_i m
      split
      · rw [respondMsgt_frame]; exact h
      · split
        · rw [respondErr_frame]; exact h
        · unfold connRx
          split
          · exact linking_readCb (s := { s with nextReq := s.nextReq + 1, log := .rx s.nextReq c (some m) :: s.log }) hn h _ _
          · dsimp only
            split
            · rw [respondMsgt_frame]; exact h
            · have h' : Linking { s with nextReq := s.nextReq + 1, log := .rx s.nextReq c (some m) :: s.log,
                                         routes := (routeAdd s.routes k.id (mkReq k s.nextReq m).source.name).2 } := h
              exact linking_readCb (by exact hn) h' _ _

theorem linking_remoteRx {cfg : Cfg} {e : Env} {s : Sys} (h : Linking s) (a : Addr) (m : Msg) :
    Linking (remoteRx cfg e a m s) := by
  have hack : ∀ {d k t}, Passes cfg e m (s.emit (.remoteRx a m)) d k t → Linking t := by
    intro d k t hp
    have hd := addrOf_some hp.entry
    have h' : Linking (s.emit (.remoteRx a m)) := h
    rcases ackFromRemote_some hp.ack with ⟨rfl, -⟩ | ⟨x, -, rfl⟩ | ⟨y, -, hy, rfl⟩
    · exact h'
    · exact linking_put h' (.inl hd.2)
    · obtain ⟨h1, h2, -⟩ := ackLuResult_some hy
      exact linking_put h' (.inl (by rw [h1, h2]; exact hd.2))
  cases hr : s.remote? a with
  | none => unfold remoteRx; rw [hr]; exact h
  | some r =>
    rcases remoteRx_cases cfg e m hr with ⟨d, k, t, -, hp, ⟨-, h1⟩ | ⟨-, l, h1, -⟩⟩ | ⟨-, l, h1, -⟩
    · rw [h1]; have := hack hp; exact this
    · rw [h1]; have := hack hp; exact this
    · rw [h1]; exact h

theorem linking_del {cfg : Cfg} {s : Sys} (h : Linking s) (imsi : Bytes) : Linking (proxyDel cfg imsi s) := by
  unfold proxyDel
  rw [deferredPop_eq]
  intro q hq a h1 h2
  obtain ⟨hq1, hq2⟩ := List.mem_filter.1 hq
  have hne : q.gsup.imsi ≠ imsi := by simpa using hq2
  refine h q hq1 a ?_ h2
  unfold addrOf at h1 ⊢
  dsimp only at h1
  rw [byImsi_remove_ne hne] at h1
  exact h1

theorem addrOf_mem {s : Sys} {imsi : Bytes} {a : Addr} (h : addrOf s.proxy imsi = some a) :
    ∃ x ∈ s.proxy, x.data.imsi = imsi ∧ x.data.addr = a := by
  unfold addrOf at h
  obtain ⟨d, hd, rfl⟩ := Option.map_eq_some_iff.1 h
  unfold proxyByImsi at hd
  obtain ⟨x, hx, rfl⟩ := Option.map_eq_some_iff.1 hd
  exact ⟨x, List.mem_of_find?_eq_some hx, by simpa using List.find?_some hx, rfl⟩

theorem linking_step {cfg : Cfg} {s : Sys} (hn : (s.proxy.map (·.data.imsi)).Nodup) (h : Linking s) (ev : Ev) :
    Linking (step cfg s ev) := by
  have pr := pfr_prims cfg
  by_cases hu : s.ub = true
  · unfold step; rw [if_pos hu]; exact h
  unfold step
  rw [if_neg hu]
  cases ev with
  | proxyGc c =>
    intro q hq a h1 h2
    refine h q hq a ?_ h2
    obtain ⟨x, hx, hi, ha⟩ := addrOf_mem (s := proxyCleanup c s) h1
    exact (homeAt_iff hn _ _).1 ⟨x, (List.mem_filter.1 hx).1, hi, ha⟩
  | remoteDown b =>
    intro q hq a h1 h2 r hr
    refine h q hq a h1 h2 r ?_
    have hm : r ∈ s.remotes.filter (fun r => !(r.addr == b)) := List.mem_of_find?_eq_some hr
    have hra : r.addr = a := by simpa using List.find?_some hr
    have hne : a ≠ b := by simpa [hra] using (List.mem_filter.1 hm).2
    rw [← hr]
    unfold Sys.remote?
    refine (find_filter _ _ _ ?_).symm
    intro x _ hx
    have : x.addr = a := by simpa using hx
    simp [this, hne]
  | connect => exact h
  | rx c m e => exact linking_rx hn h _ _
  | remoteRx a m e => exact linking_remoteRx h _ _
  | kill => exact pfr_linking (pr.crash s) h
  | luTimeout nr => exact pfr_linking (pr.luTimeout nr (fun _ _ => trivial) (fun _ _ => .same [] rfl rfl rfl rfl)) h
  | ssTimeout imsi id => exact pfr_linking (pr.ssTimeout (fun _ _ _ => .same [] rfl rfl rfl rfl) imsi id (fun _ _ _ _ => trivial)) h
  | ccm c sernr =>
    dsimp only
    split
    · exact h
    · unfold ccmCb
      split <;> exact h
  | close c =>
    dsimp only
    split <;> exact h
  | db op sc => exact pfr_linking (pr.withDb (api_op trivial) (pr.refl s) (fun a d _ h => h)) h
  | notify imsi sc =>
    refine pfr_linking (pr.withDb (api_getByImsi _) (pr.refl s) (fun a d _ h => ?_)) h
    split
    · exact pr.trans h (pr.notify _ _ _)
    · exact h
  | nam imsi val isPs sc sc' =>
    refine pfr_linking (pr.withDb (api_getByImsi _) (pr.refl s) (fun a d _ h => ?_)) h
    split
    · exact pr.trans h (pr.nam _ _ _ _ _)
    · exact h
  | remoteUp b =>
    dsimp only
    unfold remoteUp
    cases hr : s.remote? b with
    | none => exact h
    | some r =>
      dsimp only
      have hb := remote_addr hr
      have hbut : LinkingBut b (setRemote { r with up := true, cbs := 0 } s) := by
        intro q hq a h1 h2 h3 r' hr'
        rw [remote_set_ne (by rw [hb]; exact h3)] at hr'
        exact h q hq a h1 h2 r' hr'
      cases hcb : r.cbs with
      | zero =>
        intro q hq a h1 h2
        refine hbut q hq a h1 h2 ?_
        rintro rfl
        have := (h q hq a h1 h2 r hr).2
        omega
      | succ n =>
        rw [repeatCb_eq cfg b true n (setRemote { r with up := true, cbs := 0 } s) hn]
        exact linking_cb (s := setRemote { r with up := true, cbs := 0 } s) hn hbut true
  | remoteLost b =>
    dsimp only
    unfold remoteLost
    cases hr : s.remote? b with
    | none => exact h
    | some r =>
      have hb := remote_addr hr
      intro q hq a h1 h2 r' hr'
      by_cases c : a = b
      · rw [c, ← hb] at hr'
        have hr2 := hr
        rw [← hb] at hr
        rw [show Sys.remote? (setRemote { r with up := false } s) r.addr = _ from remote_set_same (r' := { r with up := false }) hr] at hr'
        cases hr'
        exact ⟨rfl, (h q hq a h1 h2 r (by rw [c]; exact hr2)).2⟩
      · refine h q hq a h1 h2 r' ?_
        rw [remote_set_ne (by rw [hb]; exact c)] at hr'
        exact hr'
  | lookup imsi res e =>
    dsimp only
    unfold lookupResult
    split
    · exact linking_del h imsi
    · split
      · exact linking_del h imsi
      · split
        · exact h
        · exact linking_resolved hn h _ _

theorem reach_linking {s : Sys} (h : Reach s) : Linking s := by
  obtain ⟨d, evs, rfl⟩ := h
  have gen : ∀ (l : List (Cfg × Ev)) (s : Sys), Reach s → Linking s → Linking (run s l) := by
    intro l
    induction l with
    | nil => intro s _ h; exact h
    | cons x l ih => intro s hr h; exact ih _ (hr.step x.1 x.2) (linking_step (c37_one_entry hr) h x.2)
  exact gen evs _ ⟨d, [], rfl⟩ (fun q hq => by cases hq)

end Verif.Sys.Props
