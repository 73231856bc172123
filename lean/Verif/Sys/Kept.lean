import Verif.Sys.Waiting
/-! # A request that waits for the home HLR of its subscriber is kept -/
namespace Verif.Sys.Props
open Verif Verif.Db Verif.Gsup Verif.Hlr

/-- The request waits for the subscriber's home HLR, which is being looked up (its address, `a`, is zero) or to which the link is being set up. -/
def Kept (q : Req) (a : Addr) (s : Sys) : Prop := q ∈ s.pending ∧ addrOf s.proxy q.gsup.imsi = some a ∧ Pends s a

variable {q : Req} {a : Addr}

theorem kept_cb {cfg : Cfg} {s : Sys} (hn : (s.proxy.map (·.data.imsi)).Nodup) {b : Addr} (h : Kept q a s) (hb : a ≠ b) (up : Bool) :
    Kept q a (connectResultCb cfg b up s) := by
  rw [connectResultCb_eq _ _ _ _ hn]
  obtain ⟨h1, h2, h3⟩ := h
  refine ⟨List.mem_filter.2 ⟨h1, ?_⟩, h2, h3⟩
  cases hf : isFor b s.proxy q with
  | false => rfl
  | true =>
    have := (homeAt_iff hn _ _).1 ((isFor_iff b s q).1 hf)
    rw [h2] at this
    exact absurd (Option.some.inj this) hb

theorem kept_connect {cfg : Cfg} {e : Env} {s : Sys} (hn : (s.proxy.map (·.data.imsi)).Nodup) {b : Addr} (hb : b.nonzero = true) (h : Kept q a s) :
    Kept q a (connectRemote cfg e b s) := by
  by_cases c : a = b
  · subst c
    obtain ⟨h1, h2, h3⟩ := h
    rcases h3 with h3 | ⟨r, h3, h4, h5⟩
    · rw [h3] at hb; cases hb
    · have ha := remote_addr h3
      unfold connectRemote
      rw [h3]
      dsimp only
      rw [if_neg (by simp [h4])]
      refine ⟨h1, h2, .inr ⟨{ r with cbs := r.cbs + 1 }, ?_, h4, by simp⟩⟩
      rw [← ha]
      rw [← ha] at h3
      exact remote_set_same (r' := { r with cbs := r.cbs + 1 }) h3
  · unfold connectRemote
    cases hr : s.remote? b with
    | none =>
      dsimp only
      split
      · obtain ⟨h1, h2, h3⟩ := h
        refine ⟨h1, h2, ?_⟩
        rcases h3 with h3 | ⟨r, h3, h4⟩
        · exact .inl h3
        · refine .inr ⟨r, ?_, h4⟩
          unfold Sys.remote?
          rw [List.find?_cons_of_neg (by simp [Ne.symm c])]
          exact h3
      · exact kept_cb hn h c false
    | some r =>
      dsimp only
      split
      · exact kept_cb hn h c true
      · obtain ⟨h1, h2, h3⟩ := h
        have hb := remote_addr hr
        refine ⟨h1, h2, ?_⟩
        rcases h3 with h3 | ⟨r', h3, h4⟩
        · exact .inl h3
        · refine .inr ⟨r', ?_, h4⟩
          rw [remote_set_ne (by rw [hb]; exact c)]
          exact h3

theorem kept_put {s : Sys} (h : Kept q a s) {clk : Int} {d : ProxySub} (hd : addrOf s.proxy d.imsi = some d.addr ∨ d.imsi ≠ q.gsup.imsi) :
    Kept q a (proxyPut clk d s) := by
  obtain ⟨h1, h2, h3⟩ := h
  refine ⟨h1, ?_, h3⟩
  rw [addrOf_put]
  split
  · rename_i c
    rcases hd with hd | hd
    · rw [c, hd] at h2
      exact h2
    · exact absurd c.symm hd
  · exact h2

theorem kept_resolved {cfg : Cfg} {e : Env} {s : Sys} (hn : (s.proxy.map (·.data.imsi)).Nodup) (h : Kept q a s)
    {d : ProxySub} (hd : d.imsi ≠ q.gsup.imsi) {b : Addr} (hb : b.nonzero = true) : Kept q a (remoteResolved cfg e d b s) := by
  unfold remoteResolved
  split
  · exact h
  · dsimp only
    have h' : Kept q a (proxyPut e.clock { d with addr := b } s) := kept_put h (.inr hd)
    split
    · exact kept_connect (nodup_put hn _ _) hb h'
    · exact h'

theorem kept_ack {e : Env} {s : Sys} (hn : (s.proxy.map (·.data.imsi)).Nodup) (h : Kept q a s) {d : ProxySub} {q' : Req}
    (hd : addrOf s.proxy d.imsi = some d.addr) :
    Kept q a (ackToRemote e d q' s) ∧ ((ackToRemote e d q' s).proxy.map (·.data.imsi)).Nodup := by
  unfold ackToRemote
  split
  · dsimp only
    split
    · have hi := ackToSub_imsi d q'
      have ha := ackToSub_addr d q'
      exact ⟨kept_put h (.inl (by rw [hi, ha]; exact hd)), nodup_put hn _ _⟩
    · exact ⟨h, hn⟩
  · exact ⟨h, hn⟩

theorem kept_forward {cfg : Cfg} {e : Env} {s : Sys} (hn : (s.proxy.map (·.data.imsi)).Nodup) (h : Kept q a s) {d : ProxySub}
    {q' : Req} (hd : addrOf s.proxy d.imsi = some d.addr) : Kept q a (forwardToRemoteHlr cfg e d q' s) := by
  unfold forwardToRemoteHlr
  dsimp only
  obtain ⟨h1, hn1⟩ := kept_ack (e := e) (q' := q') hn h hd
  generalize ackToRemote e d q' s = t at h1 hn1
  have hdef : Kept q a (deferReq q' t) := ⟨List.mem_append_left _ h1.1, h1.2.1, h1.2.2⟩
  split
  · exact hdef
  · rename_i hz
    have hz : d.addr.nonzero = true := by simpa using hz
    cases hr : t.remote? d.addr with
    | none => exact kept_connect (s := deferReq q' t) hn1 hz hdef
    | some r =>
      dsimp only
      split
      · rw [connectResult_eq]; exact h1
      · exact kept_connect (s := deferReq q' t) hn1 hz hdef

theorem kept_proxied {cfg : Cfg} {e : Env} {s : Sys} (hn : (s.proxy.map (·.data.imsi)).Nodup) (h : Kept q a s) (q' : Req) :
    Kept q a (proxied cfg e q' s) := by
  unfold proxied
  split
  · rename_i d hd
    exact kept_forward hn h (addrOf_some hd).2
  · rename_i hno
    have hne : q'.gsup.imsi ≠ q.gsup.imsi := by
      intro c
      have := h.2.1
      unfold addrOf at this
      rw [← c, hno] at this
      cases this
    have hw : Kept q a (proxyPut e.clock { imsi := q'.gsup.imsi } s) := kept_put h (.inr hne)
    have hn' := nodup_put hn e.clock { imsi := q'.gsup.imsi }
    split
    · rename_i hg
      have hw2 := kept_resolved (cfg := cfg) (e := e) hn' hw (d := { imsi := q'.gsup.imsi }) hne hg
      have hn2 := nodup_resolved (cfg := cfg) (e := e) hn' { imsi := q'.gsup.imsi } e.gateway
      split
      · rw [respondErr_frame]; exact hw2
      · rename_i d hd
        exact kept_forward hn2 hw2 (addrOf_some hd).2
    · refine kept_forward hn' hw ?_
      rw [addrOf_put, if_pos rfl]

theorem kept_pfr {s t : Sys} (h : PFr s t) (hw : Kept q a s) (hnr : NoRestart s t) : Kept q a t := by
  obtain ⟨l, hl, ⟨h1, h2, h3⟩ | ⟨hr, -, -, -⟩⟩ := h
  · obtain ⟨h4, h5, h6⟩ := hw
    refine ⟨by rw [h2]; exact h4, by rw [h1]; exact h5, ?_⟩
    unfold Pends Sys.remote? at *
    rw [h3]
    exact h6
  · exact absurd hr (hnr l hl)

theorem kept_readCb {cfg : Cfg} {e : Env} {s : Sys} (hn : (s.proxy.map (·.data.imsi)).Nodup) (h : Kept q a s) (k : Conn) (q' : Req)
    (hnr : NoRestart s (readCb cfg e k q' s)) : Kept q a (readCb cfg e k q' s) := by
  have pr := pfr_prims cfg
  rw [readCb_eq] at hnr ⊢
  split
  · rename_i h1
    rw [if_pos h1] at hnr
    exact kept_pfr (pr.readCbForward s (q := q') trivial) h hnr
  · rename_i h1
    rw [if_neg h1] at hnr
    split
    · rename_i h2
      rw [if_pos h2] at hnr
      split
      · rename_i h3
        rw [h3] at hnr
        exact kept_pfr (pr.crash s) h hnr
      · rename_i rc h3
        rw [h3] at hnr
        dsimp only at hnr
        split
        · rename_i h4
          rw [if_pos h4] at hnr
          exact kept_pfr (pfr_dispatch ..) h hnr
        · exact kept_proxied hn h q'
    · rename_i h2
      rw [if_neg h2] at hnr
      exact kept_pfr (pfr_dispatch ..) h hnr

theorem kept_rx {cfg : Cfg} {e : Env} {s : Sys} (hn : (s.proxy.map (·.data.imsi)).Nodup) (h : Kept q a s) (c : ConnId)
    (mo : Option Msg) (hnr : NoRestart s (rx cfg e c mo s)) : Kept q a (rx cfg e c mo s) := by
  unfold rx at hnr ⊢
  split
  · exact h
  · rename_i k hk
    rw [hk] at hnr
    dsimp only at hnr ⊢
    split
    · exact h
    · rename_i m
      dsimp only at hnr
      split
      · rw [respondMsgt_frame]; exact h
      · rename_i h1
        rw [if_neg h1] at hnr
        split
        · rw [respondErr_frame]; exact h
        · rename_i h2
          rw [if_neg h2] at hnr
          have nr : ∀ t u : Sys, t.log = .rx s.nextReq c (some m) :: s.log → NoRestart s u → NoRestart t u := by
            intro t u ht hu l hl hr
            exact hu (l ++ [.rx s.nextReq c (some m)]) (by rw [hl, ht]; simp) (List.mem_append_left _ hr)
          unfold connRx at hnr ⊢
          split
          · rename_i h3
            rw [if_pos h3] at hnr
            exact kept_readCb (s := { s with nextReq := s.nextReq + 1, log := .rx s.nextReq c (some m) :: s.log }) hn h _ _ (nr _ _ rfl hnr)
          · rename_i h3
            rw [if_neg h3] at hnr
            dsimp only at hnr ⊢
            split
            · rw [respondMsgt_frame]; exact h
            · rename_i h4
              rw [if_neg h4] at hnr
              have h' : Kept q a { s with nextReq := s.nextReq + 1, log := .rx s.nextReq c (some m) :: s.log,
                                          routes := (routeAdd s.routes k.id (mkReq k s.nextReq m).source.name).2 } := h
              exact kept_readCb (by exact hn) h' _ _ (nr _ _ rfl hnr)

theorem kept_remoteRx {cfg : Cfg} {e : Env} {s : Sys} (h : Kept q a s) (b : Addr) (m : Msg) :
    Kept q a (remoteRx cfg e b m s) := by
  have hack : ∀ {d k t}, Passes cfg e m (s.emit (.remoteRx b m)) d k t → Kept q a t := by
    intro d k t hp
    have hd := addrOf_some hp.entry
    have h' : Kept q a (s.emit (.remoteRx b m)) := h
    rcases ackFromRemote_some hp.ack with ⟨rfl, -⟩ | ⟨x, -, rfl⟩ | ⟨y, -, hy, rfl⟩
    · exact h'
    · exact kept_put h' (.inl hd.2)
    · obtain ⟨h1, h2, -⟩ := ackLuResult_some hy
      exact kept_put h' (.inl (by rw [h1, h2]; exact hd.2))
  cases hr : s.remote? b with
  | none => unfold remoteRx; rw [hr]; exact h
  | some r =>
    rcases remoteRx_cases cfg e m hr with ⟨d, k, t, -, hp, ⟨-, h1⟩ | ⟨-, l, h1, -⟩⟩ | ⟨-, l, h1, -⟩
    · rw [h1]; have := hack hp; exact this
    · rw [h1]; have := hack hp; exact this
    · rw [h1]; exact h

/-- The event does not end the waiting: the subscriber's home HLR is not found, nor the link to it reported up or down. -/
structure Idle (imsi : Bytes) (a : Addr) (ev : Ev) : Prop where
  lookup : ∀ res e, ev ≠ .lookup imsi res e
  up : ev ≠ .remoteUp a
  down : ev ≠ .remoteDown a

theorem kept_step {cfg : Cfg} {s : Sys} (hreach : Reach s) (h : Kept q a s) {ev : Ev} (hc : Idle q.gsup.imsi a ev)
    (hgc : ∀ c, ev = .proxyGc c → ∀ x, entryOf s.proxy q.gsup.imsi = some x → proxyKeeps c x = true) (hnr : NoRestart s (step cfg s ev)) :
    Kept q a (step cfg s ev) := by
  have pr := pfr_prims cfg
  have hn := c37_one_entry hreach
  unfold step at hnr ⊢
  by_cases hu : s.ub = true
  · rw [if_pos hu]; exact h
  rw [if_neg hu] at hnr ⊢
  cases ev with
  | proxyGc c =>
    obtain ⟨h1, h2, h3⟩ := h
    refine ⟨h1, ?_, h3⟩
    unfold addrOf at h2 ⊢
    rw [byImsi_entry] at h2 ⊢
    cases hx : entryOf s.proxy q.gsup.imsi with
    | none => rw [hx] at h2; cases h2
    | some x =>
      rw [hx] at h2
      show Option.map _ (Option.map _ (entryOf (s.proxy.filter (proxyKeeps c)) _)) = _
      rw [entryOf_filter hx _ (hgc c rfl x hx)]
      exact h2
  | remoteDown b =>
    obtain ⟨h1, h2, h3⟩ := h
    refine ⟨h1, h2, ?_⟩
    have hne : a ≠ b := by
      rintro rfl
      exact hc.down rfl
    rcases h3 with h3 | ⟨r, h3, h4⟩
    · exact .inl h3
    · refine .inr ⟨r, ?_, h4⟩
      rw [← h3]
      unfold Sys.remote?
      refine find_filter _ _ _ ?_
      intro x _ hx
      have : x.addr = a := by simpa using hx
      simp [this, hne]
  | connect => exact h
  | rx c m e => exact kept_rx hn h _ _ hnr
  | remoteRx b m e => exact kept_remoteRx h _ _
  | kill => exact kept_pfr (pr.crash s) h hnr
  | luTimeout nr => exact kept_pfr (pr.luTimeout nr (fun _ _ => trivial) (fun _ _ => .same [] rfl rfl rfl rfl)) h hnr
  | ssTimeout imsi id => exact kept_pfr (pr.ssTimeout (fun _ _ _ => .same [] rfl rfl rfl rfl) imsi id (fun _ _ _ _ => trivial)) h hnr
  | ccm c sernr =>
    dsimp only
    split
    · exact h
    · unfold ccmCb
      split <;> exact h
  | close c =>
    dsimp only
    split <;> exact h
  | db op sc => exact kept_pfr (pr.withDb (api_op trivial) (pr.refl s) (fun a d _ h => h)) h hnr
  | notify imsi sc =>
    refine kept_pfr (pr.withDb (api_getByImsi _) (pr.refl s) (fun a d _ h => ?_)) h hnr
    split
    · exact pr.trans h (pr.notify _ _ _)
    · exact h
  | nam imsi val isPs sc sc' =>
    refine kept_pfr (pr.withDb (api_getByImsi _) (pr.refl s) (fun a d _ h => ?_)) h hnr
    split
    · exact pr.trans h (pr.nam _ _ _ _ _)
    · exact h
  | remoteUp b =>
    have hne : a ≠ b := by
      rintro rfl
      exact hc.up rfl
    dsimp only
    unfold remoteUp
    cases hr : s.remote? b with
    | none => exact h
    | some r =>
      dsimp only
      have hb := remote_addr hr
      have h' : Kept q a (setRemote { r with up := true, cbs := 0 } s) := by
        obtain ⟨h1, h2, h3⟩ := h
        refine ⟨h1, h2, ?_⟩
        rcases h3 with h3 | ⟨r', h3, h4⟩
        · exact .inl h3
        · refine .inr ⟨r', ?_, h4⟩
          rw [remote_set_ne (by rw [hb]; exact hne)]
          exact h3
      cases hcb : r.cbs with
      | zero => exact h'
      | succ n =>
        rw [repeatCb_eq cfg b true n (setRemote { r with up := true, cbs := 0 } s) hn]
        exact kept_cb (s := setRemote { r with up := true, cbs := 0 } s) hn h' hne true
  | remoteLost b =>
    dsimp only
    unfold remoteLost
    cases hr : s.remote? b with
    | none => exact h
    | some r =>
      have hb := remote_addr hr
      obtain ⟨h1, h2, h3⟩ := h
      refine ⟨h1, h2, ?_⟩
      rcases h3 with h3 | ⟨r', h3, h4⟩
      · exact .inl h3
      · by_cases c : a = b
        · refine .inr ⟨{ r with up := false }, ?_, rfl, ?_⟩
          · rw [c, ← hb]
            rw [← hb] at hr
            exact remote_set_same (r' := { r with up := false }) hr
          · rw [c, hr] at h3
            cases h3
            exact h4.2
        · refine .inr ⟨r', ?_, h4⟩
          show Sys.remote? (setRemote _ s) a = _
          rw [remote_set_ne (by rw [hb]; exact c)]
          exact h3
  | lookup imsi res e =>
    have hne : imsi ≠ q.gsup.imsi := by
      rintro rfl
      exact hc.lookup res e rfl
    have hdel : Kept q a (proxyDel cfg imsi s) := by
      obtain ⟨h1, h2, h3⟩ := h
      unfold proxyDel
      rw [deferredPop_eq]
      refine ⟨List.mem_filter.2 ⟨h1, by simpa using Ne.symm hne⟩, ?_, h3⟩
      unfold addrOf
      dsimp only
      rw [byImsi_remove_ne (Ne.symm hne)]
      exact h2
    dsimp only
    unfold lookupResult
    split
    · exact hdel
    · rename_i v4 v6
      split
      · exact hdel
      · rename_i hz
        split
        · exact h
        · rename_i d hd
          refine kept_resolved hn h (by rw [(byImsi_some hd).1]; exact hne) ?_
          cases h4 : v4.nonzero with
          | true => rw [if_pos rfl]; exact h4
          | false => rw [if_neg (by simp)]; simpa [h4] using hz

/-- The whole of it: the request waits, and the entry awaits the result. -/
theorem kept_run {s : Sys} (hr : Reach s) {cs : Bool} {n : Bytes} {lo now : Int}
    (hA : Awaits s q.gsup.imsi cs a n lo now) (hlo : lo ≤ now) (hK : Kept q a s) {l : List (Cfg × Ev)}
    (hq : Quiet q.gsup.imsi cs a n (lo + 3600) now l) (hi : ∀ x ∈ l, Idle q.gsup.imsi a x.2) (hnr : NoRestart s (run s l)) :
    Kept q a (run s l) ∧ ∃ now', lo ≤ now' ∧ Awaits (run s l) q.gsup.imsi cs a n lo now' ∧ ∀ l', Quiet q.gsup.imsi cs a n (lo + 3600) now (l ++ l') →
      Quiet q.gsup.imsi cs a n (lo + 3600) now' l' := by
  induction l generalizing s now with
  | nil => exact ⟨hK, now, hlo, hA, fun _ h => h⟩
  | cons x l ih =>
    obtain ⟨n1, n2⟩ := noRestart_step (s := s) (cfg := x.1) (ev := x.2) (l := l) rfl hnr
    have hnow : lo ≤ (Ev.time x.2).getD now := by
      cases h : Ev.time x.2 with
      | none => exact hlo
      | some t => exact Int.le_trans hlo (hq.2.1 t h).1
    have hgc : ∀ c, x.2 = .proxyGc c → ∀ y, entryOf s.proxy q.gsup.imsi = some y → proxyKeeps c y = true := by
      intro c hc y hy
      obtain ⟨z, hz, h1, h2, -⟩ := hA
      rw [hy] at hz
      cases hz
      obtain ⟨t1, t2⟩ := hq.2.1 c (by rw [hc]; rfl)
      exact keeps_fresh h1 (Int.le_trans h2 t1) t2
    obtain ⟨k1, now', k2, k3, k4⟩ := ih (hr.step x.1 x.2) (awaits_step hr hA hlo hq.1 hq.2.1 n1) hnow
      (kept_step hr hK (hi x List.mem_cons_self) hgc n1) hq.2.2 (fun y hy => hi y (List.mem_cons_of_mem _ hy)) n2
    exact ⟨k1, now', k2, k3, fun l' h => k4 l' h.2.2⟩

end Verif.Sys.Props
