import Verif.Sys.Safety
/-! # A restart ends all sessions -/
namespace Verif.Sys
open Verif Verif.Db Verif.Gsup Verif.Sys.Props

/-- If the process was restarted since `o` there is no session. -/
def Empty (o s : Sys) : Prop := ∃ l, s.log = l ++ o.log ∧ (.restart ∈ l → s.sess = [])

/-- That stays so. -/
def GFr (o s t : Sys) : Prop := Empty o s → Empty o t

theorem GFr.more {o s t : Sys} (l : List Out) (h : t.log = l ++ s.log) (hr : .restart ∉ l) (hs : s.sess = [] → t.sess = []) :
    GFr o s t := by
  rintro ⟨l', h1, h2⟩
  refine ⟨l ++ l', by rw [h, h1, List.append_assoc], fun hm => hs (h2 ?_)⟩
  exact (List.mem_append.1 hm).resolve_left hr

theorem gfr_prims (o : Sys) (cfg : Cfg) : Prims cfg (fun _ => True) (GFr o) where
  refl _ := fun h => h
  trans h h' := fun x => h' (h x)
  db _ _ _ := .more [] rfl (by simp) id
  ub _ := .more [] rfl (by simp) id
  crash s := by
    rintro ⟨l, h, -⟩
    exact ⟨.restart :: l, by show _ :: s.log = _; rw [h]; rfl, fun _ => rfl⟩
  tx s c m _ := .more [.tx c m none] rfl (by simp) id
  concl s q how _ := .more [.concl q.nr how] rfl (by simp) id
  resp s q m _ _ := by
    unfold sendReqResponse
    split
    · exact .more [] rfl (by simp) id
    · rename_i c _
      split
      · exact .more [.tx c m (some q.nr)] rfl (by simp) id
      · exact .more [] rfl (by simp) id
  dg _ _ _ := .more [] rfl (by simp) id
  pend _ _ _ := .more [] rfl (by simp) id
  remote s q a m _ := .more [.remote a m (some q.nr)] rfl (by simp) id
  remoteTx s a m _ := .more [.remote a m none] rfl (by simp) id
  remoteRx s a m := .more [.remoteRx a m] rfl (by simp) id

theorem gfr_sess (o : Sys) : SessOp' (fun _ => True) (GFr o) := fun _ _ _ h => .more [] rfl (by simp) h

theorem gfr_respond (o : Sys) (cfg : Cfg) (s : Sys) (q : Req) (m : Msg) (x y : Bool) : GFr o s (respond cfg s q m x y).2 := by
  rw [show (respond cfg s q m x y).2 = { s with log := (respond cfg s q m x y).2.log } by rw [respond_frame]]
  refine .more _ (Props.c22_response_sent cfg s q m x y) ?_ id
  intro h
  rcases List.mem_append.1 h with h | h
  · split at h
    · simp at h
    · cases h
  · split at h
    · split at h
      · simp at h
      · cases h
    · cases h

theorem gfr_procSs {o : Sys} (cfg : Cfg) (e : Env) {q : Req} {s : Sys} (hm : IsSs q.gsup.typ)
    (h0 : ∃ l, s.log = l ++ o.log ∧ .restart ∉ l) : GFr o s (rxProcSs cfg e q s) := by
  have pr := gfr_prims o cfg
  have hsess := gfr_sess o
  unfold rxProcSs
  dsimp only
  split
  · exact pr.respondErr _ trivial _
  · split
    · exact pr.respondErr _ trivial _
    · rename_i r _
      split
      · split
        · exact pr.respondErr _ trivial _
        · intro _
          obtain ⟨l, h1, h2⟩ := h0
          refine pr.handleSsAny hsess (s0 := { s with sess := s.sess ++ [ssNew cfg q r] }) e _ _ _ (pr.refl _)
            (fun _ _ => trivial) hm (fun _ _ _ h => h) ⟨l, h1, fun h => absurd h h2⟩
      · split
        · exact pr.respondErr _ trivial _
        · rename_i x hx
          exact pr.handleSsAny hsess e _ _ _ (hsess.set (x := rearm cfg x) s (fun _ _ => trivial)) (fun _ _ => trivial) hm
            (fun _ _ _ h => pr.trans h (pr.reqFree (Q := fun _ => True) _ trivial _))
      · split
        · exact pr.respondErr _ trivial _
        · rename_i x hx
          split
          · exact pr.trans (pr.ssFree hsess s (fun _ _ => trivial)) (pr.reqFree (Q := fun _ => True) _ trivial _)
          · refine pr.handleSsAny hsess e _ _ _ (pr.refl s) (fun _ _ => trivial) hm ?_
            intro y t ey ht
            dsimp only
            split
            · exact pr.trans ht (pr.ub _)
            · exact pr.trans ht (pr.trans (pr.ssFree hsess _ (fun _ _ => trivial)) (pr.reqFree (Q := fun _ => True) _ trivial _))
      · exact pr.reqFree (Q := fun _ => True) s trivial _

theorem gfr_readCb {o : Sys} (cfg : Cfg) (e : Env) (k : Conn) (q : Req) {s : Sys}
    (h0 : ∃ l, s.log = l ++ o.log ∧ .restart ∉ l) : GFr o s (readCb cfg e k q s) := by
  have pr := gfr_prims o cfg
  refine pr.readCb e k trivial ?_ (fun h => gfr_procSs cfg e h h0) ?_ (fun _ _ => trivial)
  · intro _
    exact pr.updLoc e trivial k (.more [] rfl (by simp) id) (fun _ _ _ => .more [] rfl (by simp) id)
  · refine pr.luRx trivial (fun _ _ => trivial) (fun _ _ => .more [] rfl (by simp) id) ?_
    intro t lu _ _ _ _
    exact gfr_respond _ _ _ _ _ _ _

theorem empty_refl (s : Sys) : Empty s s := ⟨[], rfl, fun h => by cases h⟩

theorem gfr_rx (cfg : Cfg) (e : Env) (c : ConnId) (mo : Option Msg) (s : Sys) : Empty s (rx cfg e c mo s) := by
  unfold rx
  split
  · exact empty_refl s
  · rename_i k hk
    dsimp only
    have h0 : ∀ rts : List (Bytes × ConnId), Empty s { s with nextReq := s.nextReq + 1, routes := rts, log := .rx s.nextReq c mo :: s.log } :=
      fun _ => ⟨[.rx s.nextReq c mo], rfl, by simp⟩
    split
    · exact ⟨[.concl s.nextReq .dropped, .rx s.nextReq c none], rfl, by simp⟩
    · split
      · exact gfr_respond _ _ _ _ _ _ _ (h0 _)
      · split
        · exact (gfr_prims s cfg).respondErr (Q := fun _ => True) _ trivial _ (h0 _)
        · unfold connRx
          split
          · refine gfr_readCb cfg e _ _ ?_ (h0 _)
            exact ⟨[.rx s.nextReq c (some _)], rfl, by simp⟩
          · dsimp only
            split
            · exact gfr_respond _ _ _ _ _ _ _ (h0 _)
            · refine gfr_readCb cfg e _ _ ?_ (h0 _)
              exact ⟨[.rx s.nextReq c (some _)], rfl, by simp⟩

/-- No other event begins a session. -/
theorem gfr_step0 (o : Sys) (cfg : Cfg) (s : Sys) (ev : Ev) (h : ∀ c mo e, ev ≠ .rx c mo e) : GFr o s (step cfg s ev) := by
  have pr := gfr_prims o cfg
  by_cases hu : s.ub = true
  · rw [step_ub hu]; exact pr.refl s
  have hu : s.ub = false := by simpa using hu
  have hclose : ∀ c, GFr o s (close s c) := fun c => .more [.closed c] rfl (by simp) id
  unfold step
  rw [if_neg (by rw [hu]; simp)]
  cases ev with
  | connect => exact .more [.connected s.nextConn] rfl (by simp) id
  | ccm c sernr =>
    dsimp only
    split
    · exact pr.refl s
    · unfold ccmCb
      split
      · exact hclose _
      · exact hclose _
      · exact .more [] rfl (by simp) id
  | close c =>
    dsimp only
    split
    · exact pr.refl s
    · exact hclose _
  | rx c m e => exact absurd rfl (h c m e)
  | luTimeout nr => exact pr.luTimeout nr (fun _ _ => trivial) (fun _ _ => .more [] rfl (by simp) id)
  | ssTimeout imsi id =>
    dsimp only
    unfold ssTimeout
    split
    · exact pr.refl s
    · split
      · exact pr.ssFree (gfr_sess o) s (fun _ _ => trivial)
      · exact pr.refl s
  | db op sc => exact pr.withDb (api_op trivial) (pr.refl s) (fun a d _ h => h)
  | notify imsi sc =>
    refine pr.withDb (api_getByImsi _) (pr.refl s) (fun a d _ h => ?_)
    split
    · exact pr.trans h (pr.notify _ _ _)
    · exact h
  | nam imsi val isPs sc sc' =>
    refine pr.withDb (api_getByImsi _) (pr.refl s) (fun a d _ h => ?_)
    split
    · exact pr.trans h (pr.nam _ _ _ _ _)
    · exact h
  | remoteUp a => exact (pr.remoteUp a s (fun _ _ => trivial)).1
  | remoteDown a => exact (pr.remoteDown a s (fun _ _ => trivial)).1
  | remoteLost a => exact (pr.remoteLost a s (fun _ _ => trivial)).1
  | remoteRx a m e => exact (pr.rxRemote e a m s trivial (fun _ _ => trivial)).1
  | lookup imsi res e => exact (pr.lookupResult e imsi res s (fun _ _ => trivial)).1
  | proxyGc clock => exact (pr.setProxy s _ (fun _ _ => trivial)).1
  | kill => exact pr.crash s

/-- If an event restarts the process, no session is left afterwards. -/
theorem gfr_step (cfg : Cfg) (s : Sys) (ev : Ev) : Empty s (step cfg s ev) := by
  by_cases hu : s.ub = true
  · rw [step_ub hu]; exact empty_refl s
  have hu : s.ub = false := by simpa using hu
  by_cases h1 : ∃ c mo e, ev = .rx c mo e
  · obtain ⟨c, mo, e, rfl⟩ := h1
    rw [step_rx hu]
    exact gfr_rx cfg e c mo s
  · exact gfr_step0 s cfg s ev (fun c mo e he => h1 ⟨c, mo, e, he⟩) (empty_refl s)

/-- `x` is the session `y` in another state, with the name of the MS's node filled in, or with its timer
started; the last only if `P`. -/
def Kept (P : Prop) (y x : Sess) : Prop :=
  ∃ st v tm, x = { y with state := st, vlr := v, timer := tm } ∧ (tm = y.timer ∨ (tm = true ∧ P))

theorem Kept.refl (P : Prop) (x : Sess) : Kept P x x := ⟨x.state, x.vlr, x.timer, rfl, .inl rfl⟩
theorem Core.kept {x y : Sess} (h : Core y x) (P : Prop) : Kept P y x := by
  obtain ⟨st, v, rfl⟩ := h
  exact ⟨st, v, y.timer, rfl, .inl rfl⟩

/-- The event is a CONTINUE message of session `y` and a guard time is configured. -/
def Continues (cfg : Cfg) (y : Sess) (ev : Ev) : Prop :=
  cfg.guard ≠ 0 ∧ ∃ c m e, ev = .rx c (some m) e ∧ m.sessState = .continue_ ∧ m.imsi = y.imsi ∧ m.sessId = y.id

/-- A session there is after an event was there before, or the message has begun it: then it is what
`ssNew` makes of the configuration at that moment. -/
theorem step_sess {cfg : Cfg} {s : Sys} (h : Reach s) (ev : Ev) {x : Sess} (hx : x ∈ (step cfg s ev).sess) :
    (∃ y ∈ s.sess, Kept (Continues cfg y ev) y x) ∨ ∃ c m e, ev = .rx c (some m) e ∧ IsSs m.typ ∧ NewSess cfg s c m x := by
  by_cases hu : s.ub = true
  · rw [step_ub hu] at hx; exact .inl ⟨x, hx, .refl _ x⟩
  have hu : s.ub = false := by simpa using hu
  by_cases h1 : ∃ c m e, ev = .rx c (some m) e ∧ IsSs m.typ
  · obtain ⟨c, m, e, rfl, hm⟩ := h1
    rw [step_rx hu] at hx
    cases hc : s.conn? c with
    | none =>
      unfold rx at hx; rw [hc] at hx
      exact .inl ⟨x, hx, .refl _ x⟩
    | some k =>
      rcases fr_rx cfg e (reach_sessReq h) hc hm with
        ⟨nrs, x0, ⟨lg, -, -, -, w⟩, -, h0⟩ | ⟨-, lg, -, -, w⟩
      case inr => exact .inl ⟨x, w x hx, .refl _ x⟩
      rcases w x hx with w | ⟨y, hy, w⟩
      · exact .inl ⟨x, w, .refl _ x⟩
      · rcases h0 y hy with ⟨y0, h2, hk0, hy0⟩ | ⟨q, r, hq, hf, hb, hp, hcore⟩
        · simp only [Sess.key, Prod.mk.injEq] at hk0
          rcases hy0 with rfl | ⟨hst, rfl⟩
          · exact .inl ⟨y, h2, w.kept _⟩
          · obtain ⟨st, v, rfl⟩ := w
            refine .inl ⟨y0, h2, st, v, (rearm cfg y0).timer, ?_, ?_⟩
            · unfold rearm
              split <;> rfl
            · unfold rearm
              by_cases hg : cfg.guardTimer = true
              · rw [if_pos hg]
                exact .inr ⟨rfl, of_decide_eq_true hg, c, m, e, rfl, hst, hk0.1.symm, hk0.2.symm⟩
              · rw [if_neg hg]; exact .inl rfl
        · exact .inr ⟨c, m, e, rfl, hm, q, r, hq, hf, hb, hp, hcore.trans w⟩
  by_cases h2 : ∃ i d, ev = .ssTimeout i d
  · obtain ⟨i, d, rfl⟩ := h2
    rw [step_ssTimeout hu] at hx
    unfold ssTimeout at hx
    split at hx
    · exact .inl ⟨x, hx, .refl _ x⟩
    · split at hx
      · rw [ssFree_sess] at hx
        exact .inl ⟨x, (List.mem_filter.1 hx).1, .refl _ x⟩
      · exact .inl ⟨x, hx, .refl _ x⟩
  · obtain ⟨lg, -, -, w⟩ := stay_step cfg s ev (fun c m e he hm => h1 ⟨c, m, e, he, hm⟩)
      (fun i d he => h2 ⟨i, d, he⟩)
    exact .inl ⟨x, w x hx, .refl _ x⟩

end Verif.Sys
