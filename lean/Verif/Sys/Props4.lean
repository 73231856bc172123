import Verif.Sys.SessHist
import Verif.Sys.Props3
/-!
# Properties of the running HLR: USSD sessions (C34) and USSD routing (C35)
-/
namespace Verif.Sys.Props
open Verif Verif.Db Verif.Gsup Verif.Hlr

/-! ## C34: sessions are unique and isolated -/

/-- The process was restarted between `s` and `t`. -/
def Restarted (s t : Sys) : Prop := ∃ lg, t.log = lg ++ s.log ∧ .restart ∈ lg

/-- The event belongs to the session with IMSI and id `K`: a supplementary service message
with that IMSI and session id, or the expiry of that session's guard timer. -/
def EvFor (K : Bytes × Nat) : Ev → Prop
  | .rx _ (some m) _ => IsSs m.typ ∧ (m.imsi, m.sessId) = K
  | .ssTimeout i d => (i, d) = K
  | _ => False

theorem reach_sessReq {s : Sys} (h : Reach s) : ∀ x ∈ s.sess, SessReqOk x := by
  obtain ⟨P, hi, -⟩ := reach_done h
  exact hi.sessReq

/-- At any time there is at most one session per IMSI and session id. -/
theorem c34_unique {s : Sys} (h : Reach s) {x y : Sess} (hx : x ∈ s.sess) (hy : y ∈ s.sess)
    (hi : x.imsi = y.imsi) (hd : x.id = y.id) : x = y := by
  obtain ⟨P, hv, -⟩ := reach_done h
  exact uniqueSess hv.keys hx hy (by simp [Sess.key, hi, hd])

theorem step_rx {cfg : Cfg} {s : Sys} (hu : s.ub = false) (c : ConnId) (mo : Option Msg) (e : Env) :
    step cfg s (.rx c mo e) = rx cfg e c mo s := by
  unfold step
  rw [hu]
  rfl

theorem step_ssTimeout {cfg : Cfg} {s : Sys} (hu : s.ub = false) (i : Bytes) (d : Nat) :
    step cfg s (.ssTimeout i d) = ssTimeout i d s := by
  unfold step
  rw [hu]
  rfl

theorem step_ub {cfg : Cfg} {s : Sys} (hu : s.ub = true) (ev : Ev) : step cfg s ev = s := by
  unfold step
  rw [hu]
  rfl

theorem mem_filter_key {l l' : List Sess} {K : Bytes × Nat}
    (h : l'.filter (·.key != K) = l.filter (·.key != K)) {x : Sess} (hx : x.key ≠ K) : x ∈ l' ↔ x ∈ l := by
  have : x ∈ l'.filter (·.key != K) ↔ x ∈ l.filter (·.key != K) := by rw [h]
  simpa [List.mem_filter, hx] using this

theorem ssFree_sess (s : Sys) (x : Sess) :
    (ssFree s x).sess = s.sess.filter (fun y => !(y.imsi == x.imsi && y.id == x.id)) := by
  rw [ssFree_eq]
  cases x.reqMs <;> cases x.reqEuse <;> rfl

theorem ssFree_log (s : Sys) (x : Sess) :
    (ssFree s x).log = (x.reqs.reverse.map (fun q => Out.concl q.nr .session)) ++ s.log := by
  rw [ssFree_eq]
  unfold Sess.reqs
  cases x.reqMs <;> cases x.reqEuse <;> rfl

theorem ssFree_ub (s : Sys) (x : Sess) : (ssFree s x).ub = s.ub := by
  rw [ssFree_eq]
  cases x.reqMs <;> cases x.reqEuse <;> rfl

/-- No event changes a session it does not belong to: messages of other subscribers or
other sessions, other timers, connections, database changes, location updates leave it as
it is.  Only a restart of the process ends it. -/
theorem c34_isolated {cfg : Cfg} {s : Sys} (h : Reach s) (ev : Ev) {K : Bytes × Nat} (hev : ¬ EvFor K ev) :
    Restarted s (step cfg s ev) ∨ ∀ x : Sess, (x.imsi, x.id) = K → (x ∈ (step cfg s ev).sess ↔ x ∈ s.sess) := by
  by_cases hu : s.ub = true
  · rw [step_ub hu]; exact .inr (fun _ _ => Iff.rfl)
  have hu : s.ub = false := by simpa using hu
  by_cases h1 : ∃ c m e, ev = .rx c (some m) e ∧ IsSs m.typ
  · obtain ⟨c, m, e, rfl, hm⟩ := h1
    rw [step_rx hu]
    cases hc : s.conn? c with
    | none =>
      unfold rx; rw [hc]
      exact .inr (fun _ _ => Iff.rfl)
    | some k =>
      rcases fr_rx cfg e (reach_sessReq h) hc hm with
        ⟨nrs, x0, ⟨lg, e1, -, f, -⟩, -, -⟩ | ⟨-, lg, e1, f, -⟩
      case inr =>
        rcases f with f | f
        · refine .inl ⟨lg ++ [.rx s.nextReq c (some m)], ?_, List.mem_append_left _ f⟩
          rw [e1]; simp [entered]
        · exact .inr (fun x _ => by rw [f]; exact Iff.rfl)
      rcases f with f | f
      · refine .inl ⟨lg ++ [.rx s.nextReq c (some m)], ?_, List.mem_append_left _ f⟩
        rw [e1]; simp [entered]
      · refine .inr (fun x hx => ?_)
        refine mem_filter_key (K := (m.imsi, m.sessId)) f (fun hk => hev ⟨hm, ?_⟩)
        rw [← hk, ← hx]; rfl
  by_cases h2 : ∃ i d, ev = .ssTimeout i d
  · obtain ⟨i, d, rfl⟩ := h2
    rw [step_ssTimeout hu]
    refine .inr (fun x hx => ?_)
    unfold ssTimeout
    split
    · exact Iff.rfl
    · rename_i y hy
      split
      · obtain ⟨-, h3, h4⟩ := ssFind_some hy
        have hk : y.key = (i, d) := by simp [Sess.key, h3, h4]
        rw [ssFree_sess, List.mem_filter]
        refine ⟨And.left, fun hm => ⟨hm, ?_⟩⟩
        have : ¬ (x.imsi == y.imsi && x.id == y.id) = true := by
          intro hc
          have hc := keyEq.1 hc
          rw [hk] at hc
          exact hev (by rw [← hx]; exact hc.symm)
        simp only [Bool.not_eq_true] at this
        rw [this]; rfl
      · exact Iff.rfl
  · obtain ⟨lg, e1, f, -⟩ := stay_step cfg s ev (fun c m e he hm => h1 ⟨c, m, e, he, hm⟩)
      (fun i d he => h2 ⟨i, d, he⟩)
    rcases f with f | f
    · exact .inl ⟨lg, e1, f⟩
    · exact .inr (fun x _ => by rw [f])

/-- While a supplementary service message for a subscriber of this HLR is handled everything that is sent carries the
message's IMSI and session id, and only this message and the requests kept by the session
of that IMSI and id are responded to or concluded. -/
theorem c34_delivered {cfg : Cfg} {s : Sys} (h : Reach s) (hu : s.ub = false) {c : ConnId}
    (hc : (s.conn? c).isSome) {m : Msg} (hm : IsSs m.typ) (e : Env)
    (hloc : Local e m s) :
    ∃ lg, (step cfg s (.rx c (some m) e)).log = lg ++ .rx s.nextReq c (some m) :: s.log
      ∧ (∀ c' m' re, .tx c' m' re ∈ lg → m'.imsi = m.imsi ∧ m'.sessId = m.sessId
          ∧ ∀ nr, re = some nr → nr = s.nextReq
            ∨ ∃ x ∈ s.sess, x.imsi = m.imsi ∧ x.id = m.sessId ∧ nr ∈ x.reqs.map (·.nr))
      ∧ (∀ nr how, .concl nr how ∈ lg → nr = s.nextReq
            ∨ ∃ x ∈ s.sess, x.imsi = m.imsi ∧ x.id = m.sessId ∧ nr ∈ x.reqs.map (·.nr)) := by
  rw [step_rx hu]
  obtain ⟨k, hk⟩ := Option.isSome_iff_exists.1 hc
  obtain ⟨nrs, x0, ⟨lg, e1, o, -, -⟩, hn, -⟩ :=
    (fr_rx cfg e (reach_sessReq h) hk hm).resolve_right (fun h => h.1 hloc)
  have hn' : ∀ nr ∈ nrs, nr = s.nextReq
      ∨ ∃ x ∈ s.sess, x.imsi = m.imsi ∧ x.id = m.sessId ∧ nr ∈ x.reqs.map (·.nr) := by
    intro nr hnr
    rcases hn nr hnr with h | ⟨x, h1, h2, h3⟩
    · exact .inl h
    · simp only [Sess.key, Prod.mk.injEq] at h2
      exact .inr ⟨x, h1, h2.1, h2.2, h3⟩
  refine ⟨lg, e1, ?_, ?_⟩
  · intro c' m' re h
    obtain ⟨h1, h2, h3⟩ := o _ h
    exact ⟨h1, h2, fun nr hnr => hn' nr (h3 nr hnr)⟩
  · intro nr how h
    exact hn' nr (o _ h)

theorem ssNew_timer (cfg : Cfg) (q : Req) (r : SsReq) : (ssNew cfg q r).timer = decide (cfg.guard ≠ 0) := by
  unfold ssNew
  dsimp only
  repeat' split
  all_goals rfl

/-- The sessions when the message continues one: its guard timer runs if a guard time is configured. -/
def continued (cfg : Cfg) (s : Sys) (m : Msg) : List Sess :=
  s.sess.map fun y => if y.imsi = m.imsi ∧ y.id = m.sessId then { y with timer := y.timer || decide (cfg.guard ≠ 0) } else y

theorem ssSet_rearm {cfg : Cfg} {s t : Sys} (hr : Reach s) {m : Msg} {x : Sess} (hx : x ∈ s.sess) (hxi : x.imsi = m.imsi)
    (hxd : x.id = m.sessId) (ht : t.sess = s.sess) : ssSet t (rearm cfg x) = { t with sess := continued cfg s m } := by
  unfold ssSet continued
  rw [ht]
  congr 1
  apply List.map_congr_left
  intro z hz
  have hk := (rearm_core cfg x).1
  simp only [Sess.key, Prod.mk.injEq] at hk
  rw [hk.1, hk.2, hxi, hxd]
  by_cases hc : z.imsi = m.imsi ∧ z.id = m.sessId
  · rw [if_pos hc, if_pos (by simp [hc.1, hc.2]), (rearm_core cfg x).2.2.2.2.2.2.2,
      c34_unique hr hz hx (hc.1.trans hxi.symm) (hc.2.trans hxd.symm)]
    rfl
  · rw [if_neg hc, if_neg (by simpa using hc)]

/-- A session there is after an event was there before (it may have changed its state,
or learned the name of the subscriber's MSC, but is still handled by the same external or
internal node and keeps the same requests; its guard timer is never stopped, and it is started
only by a CONTINUE message of the session while a guard time is configured), or a BEGIN message
has just started it, and there was none with its IMSI and id; it has a timer if a guard time is
configured. -/
theorem c34_continues {cfg : Cfg} {s : Sys} (h : Reach s) (ev : Ev) {x : Sess}
    (hx : x ∈ (step cfg s ev).sess) :
    (∃ y ∈ s.sess, x = { y with state := x.state, vlr := x.vlr, timer := x.timer }
      ∧ (x.timer = y.timer ∨ (x.timer = true ∧ cfg.guard ≠ 0 ∧ ∃ c m e, ev = .rx c (some m) e ∧ IsSs m.typ
          ∧ m.sessState = .continue_ ∧ m.imsi = y.imsi ∧ m.sessId = y.id)))
    ∨ ∃ c m e q, ev = .rx c (some m) e ∧ IsSs m.typ ∧ m.sessState = .begin
      ∧ (∀ y ∈ s.sess, ¬ (y.imsi = m.imsi ∧ y.id = m.sessId))
      ∧ x.imsi = m.imsi ∧ x.id = m.sessId ∧ x.reqs = [q] ∧ q.nr = s.nextReq ∧ q.gsup = m
      ∧ x.timer = decide (cfg.guard ≠ 0) := by
  have core : ∀ {y z : Sess}, Core y z → z = { y with state := z.state, vlr := z.vlr, timer := z.timer }
      ∧ z.timer = y.timer := by
    rintro y z ⟨a, b, rfl⟩; exact ⟨rfl, rfl⟩
  by_cases hu : s.ub = true
  · rw [step_ub hu] at hx; exact .inl ⟨x, hx, rfl, .inl rfl⟩
  have hu : s.ub = false := by simpa using hu
  by_cases h1 : ∃ c m e, ev = .rx c (some m) e ∧ IsSs m.typ
  · obtain ⟨c, m, e, rfl, hm⟩ := h1
    rw [step_rx hu] at hx
    cases hc : s.conn? c with
    | none =>
      unfold rx at hx; rw [hc] at hx
      exact .inl ⟨x, hx, rfl, .inl rfl⟩
    | some k =>
      rcases fr_rx cfg e (reach_sessReq h) hc hm with
        ⟨nrs, x0, ⟨lg, -, -, -, w⟩, -, h0⟩ | ⟨-, lg, -, -, w⟩
      case inr => exact .inl ⟨x, w x hx, rfl, .inl rfl⟩
      rcases w x hx with w | ⟨y, hy, w⟩
      · exact .inl ⟨x, w, rfl, .inl rfl⟩
      · rcases h0 y hy with ⟨y0, h2, hk0, hy0⟩ | ⟨q, r, hq, hf, hb, -, hcore⟩
        · left
          simp only [Sess.key, Prod.mk.injEq] at hk0
          rcases hy0 with rfl | ⟨hst, rfl⟩
          · exact ⟨y, h2, (core w).1, .inl (core w).2⟩
          · refine ⟨y0, h2, ?_, ?_⟩
            · obtain ⟨a, b, rfl⟩ := w
              unfold rearm
              split <;> rfl
            · rw [(core w).2]
              unfold rearm
              by_cases hg : cfg.guardTimer = true
              · rw [if_pos hg]
                exact .inr ⟨rfl, of_decide_eq_true hg, c, m, e, rfl, hm, hst, hk0.1.symm, hk0.2.symm⟩
              · rw [if_neg hg]; exact .inl rfl
        · right
          obtain ⟨k1, k2, k3⟩ := ssNew_key cfg q r
          have hcx := hcore.trans w
          have hkey := hcx.key
          simp only [Sess.key, Prod.mk.injEq, k1, k2] at hkey
          have hqg : q.gsup = m ∧ q.nr = s.nextReq := by
            obtain ⟨k', -, h | h⟩ := hq
            · rw [h.2.2]; exact ⟨rfl, rfl⟩
            · rw [h.2]; exact ⟨mkReq_gsup _ _ _, mkReq_nr _ _ _⟩
          refine ⟨c, m, e, q, rfl, hm, hb, ?_, ?_, ?_, ?_, hqg.2, hqg.1, ?_⟩
          · intro z hz hc
            have := List.find?_eq_none.1 hf z hz
            simp [hc.1, hc.2] at this
          · rw [hkey.1, hqg.1]
          · rw [hkey.2, hqg.1]
          · rw [hcx.reqs, k3]
          · rw [(core hcx).2]; exact ssNew_timer cfg q r
  by_cases h2 : ∃ i d, ev = .ssTimeout i d
  · obtain ⟨i, d, rfl⟩ := h2
    rw [step_ssTimeout hu] at hx
    unfold ssTimeout at hx
    split at hx
    · exact .inl ⟨x, hx, rfl, .inl rfl⟩
    · split at hx
      · rw [ssFree_sess] at hx
        exact .inl ⟨x, (List.mem_filter.1 hx).1, rfl, .inl rfl⟩
      · exact .inl ⟨x, hx, rfl, .inl rfl⟩
  · obtain ⟨lg, -, -, w⟩ := stay_step cfg s ev (fun c m e he hm => h1 ⟨c, m, e, he, hm⟩)
      (fun i d he => h2 ⟨i, d, he⟩)
    exact .inl ⟨x, w x hx, rfl, .inl rfl⟩

/-! ### The end of a session -/

theorem isOpen_concl (x : Sess) (l : List Out) {q : Req} (hq : q ∈ x.reqs) :
    isOpen q.nr (x.reqs.reverse.map (fun q => Out.concl q.nr .session) ++ l) = false := by
  have : q ∈ x.reqs.reverse := List.mem_reverse.2 hq
  generalize x.reqs.reverse = rs at this
  induction rs with
  | nil => cases this
  | cons a rs ih =>
    simp only [List.map_cons, List.cons_append, isOpen]
    rcases List.mem_cons.1 this with h | h
    · rw [h]; simp
    · rw [ih h]; simp

/-- The session is over, its requests are concluded. -/
def Ended (x : Sess) (t : Sys) : Prop :=
  (∀ y ∈ t.sess, ¬ (y.imsi = x.imsi ∧ y.id = x.id)) ∧ ∀ q ∈ x.reqs, isOpen q.nr t.log = false

theorem ended_ssFree (s : Sys) (x : Sess) : Ended x (ssFree s x) := by
  refine ⟨?_, ?_⟩
  · intro y hy hc
    rw [ssFree_sess, List.mem_filter] at hy
    have := hy.2
    rw [hc.1, hc.2] at this
    simp at this
  · intro q hq
    rw [ssFree_log]
    exact isOpen_concl x _ hq

theorem Ended.core {x y : Sess} (h : Core x y) {t : Sys} (he : Ended y t) : Ended x t := by
  obtain ⟨a, b, rfl⟩ := h
  exact he

theorem Ended.reqFree {x : Sess} {t : Sys} (he : Ended x t) (q : Req) (how : How) : Ended x (reqFree t q how) := by
  refine ⟨he.1, fun q' hq' => ?_⟩
  have := he.2 q' hq'
  simp only [Sys.reqFree, Sys.emit, isOpen, this, Bool.and_false]

theorem Ended.crash (x : Sess) (t : Sys) : Ended x t.crash := ⟨fun y hy => (by cases hy), fun q _ => rfl⟩

/-- The guard timer ends the session it belongs to and concludes its requests. -/
theorem c34_timer {cfg : Cfg} {s : Sys} (hu : s.ub = false)
    (h : Reach s) {x : Sess} (hx : x ∈ s.sess) (hg : x.timer = true) : Ended x (step cfg s (.ssTimeout x.imsi x.id)) := by
  rw [step_ssTimeout hu]
  unfold ssTimeout
  split
  · rename_i hn
    have := List.find?_eq_none.1 hn x hx
    simp at this
  · rename_i y hy
    obtain ⟨h1, h2, h3⟩ := ssFind_some hy
    have : y = x := c34_unique h h1 hx h2 h3
    rw [this, hg, if_pos rfl]
    exact ended_ssFree s x

theorem step_ss {cfg : Cfg} {s : Sys} (h : Reach s) (hu : s.ub = false) {c : ConnId} {k : Conn} {m : Msg}
    (ha : Accepted cfg s c k m) (hm : IsSs m.typ) (e : Env) (hloc : Local e m s) :
    step cfg s (.rx c (some m) e) = rxProcSs cfg e (mkReq k s.nextReq m) (received s c k m) := by
  rw [step_accepted h hu ha e hloc]
  unfold dispatch
  rw [mkReq_gsup]
  rcases hm with h | h <;> rw [h] <;> rfl

/-- A session whose handler is one of the internal ones that answer and end at once is
never stored. -/
def IuOk (s : Sys) : Prop := ∀ x ∈ s.sess, ∀ i, x.u = .iuse i → i = .testIdle

theorem ssNew_iuse {cfg : Cfg} {q : Req} {r : SsReq} {i : Iuse} (h : (ssNew cfg q r).u = .iuse i) :
    nameIsEuse q.source = false ∧ opIsUssd r.opcode = true := by
  unfold ssNew at h
  dsimp only at h
  by_cases h1 : opIsUssd r.opcode = true
  · refine ⟨?_, h1⟩
    by_cases h2 : nameIsEuse q.source = true
    · rw [if_pos h1, if_pos h2, if_pos h2] at h
      split at h
      · cases h
      · cases h
    · simpa using h2
  · rw [if_neg h1] at h
    split at h <;> cases h

theorem begin_iuse (cfg : Cfg) (e : Env) (s : Sys) (q : Req) (hu : s.ub = false) {r : SsReq} {i : Iuse}
    (hst : q.gsup.sessState = .begin)
    (hr : cfg.parseSs q.gsup.ssInfo = some r) (hi : (ssNew cfg q r).u = .iuse i) (hne : i ≠ .testIdle)
    (hn : ssFind s q.gsup.imsi q.gsup.sessId = none) :
    ssFind (rxProcSs cfg e q s) q.gsup.imsi q.gsup.sessId = none := by
  obtain ⟨h1, h2⟩ := ssNew_iuse hi
  unfold rxProcSs
  dsimp only
  split
  · have : ∀ c, ssFind (respondErr cfg s q c) q.gsup.imsi q.gsup.sessId = none := by
      intro c; rw [respondErr_frame]; exact hn
    exact this _
  · rename_i hinfo
    have : ¬ q.gsup.ssInfo.isEmpty = true := fun h => hinfo ⟨h, by rw [hst]; decide⟩
    rw [if_neg this, hr, hst, hn]
    dsimp only
    obtain ⟨k1, k2, k3⟩ := ssNew_key cfg q r
    refine po_handleSsAny (Z := fun t => ssFind t q.gsup.imsi q.gsup.sessId = none) (fun t => rfl) cfg e
      (s := { s with sess := s.sess ++ [ssNew cfg q r] }) _ _ _ (by simp) hu ?_ ?_ ?_
    · intro t n hc
      rw [hi] at hc; cases hc
    · intro x' t j _ _ _ _ hcore _ _
      have hk := hcore.key
      simp only [Sess.key, Prod.mk.injEq, k1, k2] at hk
      have := ssFree_none t x'
      rw [hk.1, hk.2] at this
      exact this
    · intro x' t _ _ _ hh
      rcases hh i hi hne with h | h
      · rw [h1] at h; cases h
      · rw [h2] at h; cases h

theorem iuOk_step (cfg : Cfg) {s : Sys} (h : Reach s) (hs : IuOk s) (ev : Ev) : IuOk (step cfg s ev) := by
  intro x hx i hi
  rcases c34_continues h ev hx with ⟨y, hy, he⟩ | ⟨c, m, e, q', rfl, hm, hb, hno, hxi, hxd, -⟩
  · rw [he.1] at hi
    exact hs y hy i hi
  · by_cases hu : s.ub = true
    · rw [step_ub hu] at hx; exact hs x hx i hi
    have hu : s.ub = false := by simpa using hu
    rw [step_rx hu] at hx
    cases hc : s.conn? c with
    | none =>
      unfold rx at hx; rw [hc] at hx
      exact hs x hx i hi
    | some k =>
      rcases rx_ss_cases cfg e hc hm with ⟨-, h1⟩ | ⟨-, rts, h1⟩ | ⟨-, lg, -, -, w⟩
      case inr.inr => exact hs x (w x hx) i hi
      · rw [h1] at hx; exact hs x hx i hi
      · rw [h1] at hx
        have hfn : ssFind (entered s c m rts) (mkReq k s.nextReq m).gsup.imsi (mkReq k s.nextReq m).gsup.sessId = none := by
          rw [mkReq_gsup]
          refine List.find?_eq_none.2 (fun z hz hcz => hno z hz ?_)
          simpa using hcz
        obtain ⟨nrs, x0, ⟨lg, -, -, -, w⟩, -, h3⟩ := fr_procSs cfg e (s := entered s c m rts)
          (q := mkReq k s.nextReq m) (fun x hx => reach_sessReq h x hx) (by rw [mkReq_gsup]; exact hm)
        rcases w x hx with w | ⟨y, hy, w⟩
        · exact hs x w i hi
        · rcases h3 y hy with ⟨y0, h4, -, rfl | ⟨-, rfl⟩⟩ | ⟨-, -, r, h6, rfl⟩
          · rw [w.u] at hi; exact hs y h4 i hi
          · rw [w.u, (rearm_core cfg y0).2.2.1] at hi; exact hs y0 h4 i hi
          · by_cases hne : i = .testIdle
            · exact hne
            · exfalso
              rw [w.u] at hi
              have := begin_iuse cfg e (entered s c m rts) (mkReq k s.nextReq m) hu
                (by rw [mkReq_gsup]; exact hb) h6 hi hne hfn
              have := List.find?_eq_none.1 this x hx
              rw [mkReq_gsup, hxi, hxd] at this
              simp at this

theorem reach_iuOk {s : Sys} (h : Reach s) : IuOk s := by
  obtain ⟨d, evs, rfl⟩ := h
  suffices ∀ evs s, Reach s → IuOk s → IuOk (run s evs) from
    this evs _ ⟨d, [], rfl⟩ (fun x hx => by cases hx)
  intro evs
  induction evs with
  | nil => intro s _ h; exact h
  | cons a l ih => intro s hr h; exact ih _ (hr.step a.1 a.2) (iuOk_step a.1 hr h a.2)

/-- A message, not from an external node, within a session begun by an external node's own
message, or within a session of an external node that has been removed from the
configuration. -/
def Misread (cfg : Cfg) (s : Sys) (k : Conn) (m : Msg) : Prop :=
  nameIsEuse (mkReq k s.nextReq m).source = false
    ∧ ∃ x ∈ s.sess, x.imsi = m.imsi ∧ x.id = m.sessId
      ∧ ∃ n, x.u = .euse n ∧ (x.isExternal = false ∨ n ∉ cfg.euses)

/-- The external nodes that new sessions are given to are configured ones. -/
def EuseOk (cfg : Cfg) : Prop :=
  (∀ rt ∈ cfg.ussdRoutes, ∀ n, rt.to = .inl n → n ∈ cfg.euses) ∧ ∀ n, cfg.euseDefault = some n → n ∈ cfg.euses

theorem ssNew_ext {cfg : Cfg} {q : Req} {r : SsReq} {n : Ent} (h : (ssNew cfg q r).u = .euse n)
    (h2 : nameIsEuse q.source = false) (hok : EuseOk cfg) :
    (ssNew cfg q r).isExternal = true ∧ n ∈ cfg.euses := by
  unfold ssNew at h ⊢
  dsimp only at h ⊢
  by_cases h1 : opIsUssd r.opcode = true
  · rw [if_pos h1, if_neg (by simp [h2]), if_neg (by simp [h2])] at h ⊢
    split at h
    · rename_i rt hrt
      have hm : rt ∈ cfg.ussdRoutes := by
        unfold ussdLookup at hrt
        split at hrt
        · exact List.mem_of_find?_eq_some hrt
        · cases hrt
      split at h
      · rename_i p hp
        cases h
        exact ⟨rfl, hok.1 rt hm _ hp⟩
      · cases h
    · split at h
      · rename_i p hp
        cases h
        exact ⟨rfl, hok.2 _ hp⟩
      · cases h
  · rw [if_neg h1] at h
    split at h <;> cases h

/-- An END message ends the session with its IMSI and session id, and concludes the
requests the session keeps. -/
theorem c34_end_partial {cfg : Cfg} {s : Sys} (h : Reach s) (hu : s.ub = false) {c : ConnId} {k : Conn} {m : Msg}
    (ha : Accepted cfg s c k m) (hm : IsSs m.typ) (e : Env) (hloc : Local e m s) (hst : m.sessState = .end_)
    (hp : m.ssInfo = [] ∨ (cfg.parseSs m.ssInfo).isSome)
    (hmis : ¬ Misread cfg s k m) {x : Sess} (hx : x ∈ s.sess) (hi : x.imsi = m.imsi) (hd : x.id = m.sessId) :
    Ended x (step cfg s (.rx c (some m) e)) := by
  rw [step_ss h hu ha hm e hloc]
  have hf : ssFind (received s c k m) m.imsi m.sessId = some x := by
    cases hc : ssFind (received s c k m) m.imsi m.sessId with
    | none =>
      have := List.find?_eq_none.1 hc x hx
      simp [hi, hd] at this
    | some y =>
      obtain ⟨h1, h2, h3⟩ := ssFind_some hc
      rw [c34_unique h h1 hx (h2.trans hi.symm) (h3.trans hd.symm)]
  unfold rxProcSs
  dsimp only
  rw [mkReq_gsup, if_neg (by rw [hst]; simp), hst]
  by_cases hem : m.ssInfo.isEmpty = true
  · rw [if_pos hem]
    dsimp only
    rw [hf]
    dsimp only
    rw [if_pos hem]
    exact (ended_ssFree _ x).reqFree _ _
  · rw [if_neg hem]
    have hps : (cfg.parseSs m.ssInfo).isSome := by
      rcases hp with hp | hp
      · rw [hp] at hem; simp at hem
      · exact hp
    obtain ⟨r, hr⟩ := Option.isSome_iff_exists.1 hps
    rw [hr]
    dsimp only
    rw [hf]
    dsimp only
    rw [if_neg hem]
    refine po_handleSsAny (Z := fun t => Ended x t) (fun t => .crash x t) cfg e
      (s := received s c k m) _ _ _ hx hu ?_ ?_ ?_
    · intro t n h1 h2 h3
      exact absurd ⟨h3, x, hx, hi, hd, n, h1, h2⟩ hmis
    · intro x' t i h1 h2
      exact absurd (reach_iuOk h x hx i h1) h2
    · intro x' t hc hx' hu' _
      have hk := hc.key
      simp only [Sess.key, Prod.mk.injEq] at hk
      rw [if_neg]
      · exact ((ended_ssFree t x').core hc).reqFree _ _
      · intro hn
        have hn : ssFind t m.imsi m.sessId = none := by simpa using hn
        have := List.find?_eq_none.1 hn x' hx'
        rw [hk.1, hk.2, hi, hd] at this
        simp at this

/-- Supplementary service messages are handled without undefined behaviour, whatever else the state
is, if the session, if any, is not of the two bad kinds. -/
theorem procSs_safe {cfg : Cfg} (hok : EuseOk cfg) (e : Env) {s : Sys} (hiu : IuOk s) (hu : s.ub = false) (q : Req)
    (hmis : ¬ (nameIsEuse q.source = false ∧ ∃ x ∈ s.sess, x.imsi = q.gsup.imsi ∧ x.id = q.gsup.sessId
      ∧ ∃ n, x.u = .euse n ∧ (x.isExternal = false ∨ n ∉ cfg.euses))) :
    (rxProcSs cfg e q s).ub = false := by
  have hue : ∀ c', (respondErr cfg s q c').ub = false := by
    intro c'; rw [respondErr_frame]; exact hu
  unfold rxProcSs
  dsimp only
  split
  · exact hue _
  · split
    · exact hue _
    · rename_i r hr
      have old : ∀ x, ssFind (s) q.gsup.imsi q.gsup.sessId = some x →
          x ∈ s.sess ∧ x.imsi = q.gsup.imsi ∧ x.id = q.gsup.sessId := fun x hx => ssFind_some hx
      split
      · split
        · exact hue _
        · refine po_handleSsAny (Z := fun t => t.ub = false) (fun t => rfl) cfg e _ _ _ (by simp) hu ?_ ?_ ?_
          · intro t n h1 h2 h3
            obtain ⟨h4, h5⟩ := ssNew_ext h1 h3 hok
            rcases h2 with h2 | h2
            · rw [h4] at h2; cases h2
            · exact absurd h5 h2
          · intro x' t i _ _ _ _ _ _ hu'
            rw [ssFree_ub]; exact hu'
          · intro x' t _ _ hu' _
            exact hu'
      · split
        · exact hue _
        · rename_i x hx
          obtain ⟨h1, h2, h3⟩ := old x hx
          obtain ⟨-, -, hru, hre, -⟩ := rearm_core cfg x
          refine po_handleSsAny (Z := fun t => t.ub = false) (fun t => rfl) cfg e
            (s := ssSet s (rearm cfg x)) _ _ _ (mem_ssSet h1 (rearm_core cfg x).1) hu ?_ ?_ ?_
          · intro t n h4 h5 h6
            rw [hru] at h4
            rw [hre] at h5
            exact absurd ⟨h6, x, h1, h2, h3, n, h4, h5⟩ hmis
          · intro x' t i h4 h5
            rw [hru] at h4
            exact absurd (hiu x h1 i h4) h5
          · intro x' t _ _ hu' _
            exact hu'
      · split
        · exact hue _
        · rename_i x hx
          obtain ⟨h1, h2, h3⟩ := old x hx
          split
          · show (ssFree _ _).ub = false
            rw [ssFree_ub]; exact hu
          · refine po_handleSsAny (Z := fun t => t.ub = false) (fun t => rfl) cfg e
              (s := s) _ _ _ h1 hu ?_ ?_ ?_
            · intro t n h4 h5 h6
              exact absurd ⟨h6, x, h1, h2, h3, n, h4, h5⟩ hmis
            · intro x' t i h4 h5
              exact absurd (hiu x h1 i h4) h5
            · intro x' t hc hx' hu' _
              have hk := hc.key
              simp only [Sess.key, Prod.mk.injEq] at hk
              rw [if_neg]
              · show (ssFree _ _).ub = false
                rw [ssFree_ub]; exact hu'
              · intro hn
                have hn : ssFind t q.gsup.imsi q.gsup.sessId = none := by simpa using hn
                have := List.find?_eq_none.1 hn x' hx'
                rw [hk.1, hk.2, h2, h3] at this
                simp at this
      · exact hu

/-- Supplementary service messages are handled without undefined behaviour, but for those
within a session begun by an external node, or of one that has been removed, that do not
come from an external node. -/
theorem c34_safe_partial {cfg : Cfg} (hok : EuseOk cfg) {s : Sys} (h : Reach s) (hu : s.ub = false) {c : ConnId} {k : Conn} {m : Msg}
    (ha : Accepted cfg s c k m) (hm : IsSs m.typ) (e : Env) (hloc : Local e m s) (hmis : ¬ Misread cfg s k m) :
    (step cfg s (.rx c (some m) e)).ub = false := by
  rw [step_ss h hu ha hm e hloc]
  refine procSs_safe (s := received s c k m) hok e (fun x hx => reach_iuOk h x hx) hu _ ?_
  rw [mkReq_gsup]
  exact hmis

/-! ## C35: routing of USSD requests -/

/-- Who handles a USSD request. -/
inductive Target where
  | external (n : Ent)
  | internal (i : Iuse)
  | nobody
deriving DecidableEq

/-- The prefix of the route starts the code.  Only texts of coding group 0 have a code. -/
def Matching (r : SsReq) (rt : UssdRoute) : Prop := r.cgroup0 = true ∧ ∃ rest, r.code = rt.pfx ++ rest

/-- Who should handle a new request: the target of the first configured route that matches;
without one the default external node; without that nobody. -/
inductive RoutedTo (cfg : Cfg) (r : SsReq) : Target → Prop
  | ext {pre post rt n} : cfg.ussdRoutes = pre ++ rt :: post → Matching r rt → (∀ rt' ∈ pre, ¬ Matching r rt') →
      rt.to = .inl n → RoutedTo cfg r (.external n)
  | int {pre post rt i} : cfg.ussdRoutes = pre ++ rt :: post → Matching r rt → (∀ rt' ∈ pre, ¬ Matching r rt') →
      rt.to = .inr i → RoutedTo cfg r (.internal i)
  | dflt {n} : (∀ rt ∈ cfg.ussdRoutes, ¬ Matching r rt) → cfg.euseDefault = some n → RoutedTo cfg r (.external n)
  | nobody : (∀ rt ∈ cfg.ussdRoutes, ¬ Matching r rt) → cfg.euseDefault = none → RoutedTo cfg r .nobody

theorem lookup_first {cfg : Cfg} {r : SsReq} {pre post : List UssdRoute} {rt : UssdRoute}
    (h : cfg.ussdRoutes = pre ++ rt :: post) (hm : Matching r rt) (hp : ∀ rt' ∈ pre, ¬ Matching r rt') :
    ussdLookup cfg r = some rt := by
  unfold ussdLookup
  rw [if_pos hm.1, h]
  have h1 : ∀ rt' ∈ pre, rt'.pfx.isPrefixOf r.code = false := by
    intro rt' hrt
    rw [← Bool.not_eq_true, List.isPrefixOf_iff_prefix]
    rintro ⟨rest, hr⟩
    exact hp rt' hrt ⟨hm.1, rest, hr.symm⟩
  have h2 : rt.pfx.isPrefixOf r.code = true := by
    rw [List.isPrefixOf_iff_prefix]
    exact hm.2.imp fun _ h => h.symm
  rw [List.find?_append, List.find?_eq_none.2 (fun x hx => by rw [h1 x hx]; simp)]
  simp [h2]

theorem lookup_none {cfg : Cfg} {r : SsReq} (h : ∀ rt ∈ cfg.ussdRoutes, ¬ Matching r rt) : ussdLookup cfg r = none := by
  unfold ussdLookup
  split
  · rename_i hc
    refine List.find?_eq_none.2 (fun rt hrt => ?_)
    rw [List.isPrefixOf_iff_prefix]
    rintro ⟨rest, hr⟩
    exact h rt hrt ⟨hc, rest, hr.symm⟩
  · rfl

/-- The session of a new request from the subscriber's side. -/
def sessFor (cfg : Cfg) (q : Req) : Target → Sess
  | .external n => { imsi := q.gsup.imsi, id := q.gsup.sessId, vlr := q.source, reqMs := some q, timer := cfg.guardTimer, isExternal := true, u := .euse n }
  | .internal i => { imsi := q.gsup.imsi, id := q.gsup.sessId, vlr := q.source, reqMs := some q, timer := cfg.guardTimer, u := .iuse i }
  | .nobody => { imsi := q.gsup.imsi, id := q.gsup.sessId, vlr := q.source, reqMs := some q, timer := cfg.guardTimer }

theorem ssNew_for {cfg : Cfg} {r : SsReq} {t : Target} (h : RoutedTo cfg r t) {q : Req}
    (hs : nameIsEuse q.source = false) (ho : opIsUssd r.opcode = true) : ssNew cfg q r = sessFor cfg q t := by
  unfold ssNew
  dsimp only
  rw [hs, if_pos ho, if_neg (by simp), if_neg (by simp)]
  cases h with
  | ext h1 h2 h3 h4 => rw [lookup_first h1 h2 h3]; dsimp only; rw [h4]; rfl
  | int h1 h2 h3 h4 => rw [lookup_first h1 h2 h3]; dsimp only; rw [h4]; rfl
  | dflt h1 h2 => rw [lookup_none h1]; dsimp only; rw [h2]; rfl
  | nobody h1 h2 => rw [lookup_none h1]; dsimp only; rw [h2]; rfl

/-- There is exactly one target for every request. -/
theorem c35_target_unique (cfg : Cfg) (r : SsReq) : ∃ t, RoutedTo cfg r t ∧ ∀ t', RoutedTo cfg r t' → t' = t := by
  have ex : ∃ t, RoutedTo cfg r t := by
    by_cases hm : ∃ rt ∈ cfg.ussdRoutes, Matching r rt
    · have : ∃ pre rt post, cfg.ussdRoutes = pre ++ rt :: post ∧ Matching r rt ∧ ∀ rt' ∈ pre, ¬ Matching r rt' := by
        generalize cfg.ussdRoutes = l at hm
        induction l with
        | nil => obtain ⟨_, h, _⟩ := hm; cases h
        | cons a l ih =>
          by_cases ha : Matching r a
          · exact ⟨[], a, l, rfl, ha, fun _ h => by cases h⟩
          · obtain ⟨rt, h1, h2⟩ := hm
            rcases List.mem_cons.1 h1 with h1 | h1
            · rw [h1] at h2; exact absurd h2 ha
            · obtain ⟨pre, rt, post, e1, e2, e3⟩ := ih ⟨rt, h1, h2⟩
              refine ⟨a :: pre, rt, post, by rw [e1]; rfl, e2, ?_⟩
              intro rt' h
              rcases List.mem_cons.1 h with h | h
              · rw [h]; exact ha
              · exact e3 rt' h
      obtain ⟨pre, rt, post, e1, e2, e3⟩ := this
      cases ht : rt.to with
      | inl n => exact ⟨_, .ext e1 e2 e3 ht⟩
      | inr i => exact ⟨_, .int e1 e2 e3 ht⟩
    · have hm : ∀ rt ∈ cfg.ussdRoutes, ¬ Matching r rt := fun rt h1 h2 => hm ⟨rt, h1, h2⟩
      cases hd : cfg.euseDefault with
      | none => exact ⟨_, .nobody hm hd⟩
      | some n => exact ⟨_, .dflt hm hd⟩
  obtain ⟨t, ht⟩ := ex
  refine ⟨t, ht, fun t' ht' => ?_⟩
  let q : Req := ⟨0, 0, { typ := 0 }, {}, .empty⟩
  have e : sessFor cfg q t' = sessFor cfg q t :=
    (ssNew_for (r := { r with opcode := 0x3b }) (q := q) (t := t') (by
      cases ht' with
      | ext h1 h2 h3 h4 => exact .ext h1 h2 h3 h4
      | int h1 h2 h3 h4 => exact .int h1 h2 h3 h4
      | dflt h1 h2 => exact .dflt h1 h2
      | nobody h1 h2 => exact .nobody h1 h2) (by decide) (show opIsUssd 0x3b = true by decide)).symm.trans
    (ssNew_for (r := { r with opcode := 0x3b }) (q := q) (t := t) (by
      cases ht with
      | ext h1 h2 h3 h4 => exact .ext h1 h2 h3 h4
      | int h1 h2 h3 h4 => exact .int h1 h2 h3 h4
      | dflt h1 h2 => exact .dflt h1 h2
      | nobody h1 h2 => exact .nobody h1 h2) (by decide) (show opIsUssd 0x3b = true by decide))
  cases t <;> cases t' <;> simp [sessFor] at e ⊢ <;> exact e

/-- A Result with the given state and contents, as a response to the request `q` that
started the session. -/
def msResult (q : Req) (st : SessState) (info : Bytes) : Msg where
  typ := PROC_SS + 2
  imsi := q.gsup.imsi
  sessId := q.gsup.sessId
  sessState := st
  ssInfo := info
  cls := q.gsup.cls
  dst := q.gsup.src
  smRpMr := q.gsup.smRpMr

/-- What is sent to the subscriber's node that started the session with request `q`. -/
def toMs (s : Sys) (q : Req) (M : Msg) : List Out :=
  (routeFind s.routes q.source.name).toList.map fun c => .tx c M (some q.nr)

theorem respond_toMs (cfg : Cfg) (s : Sys) (q : Req) (henc : ∀ m, cfg.enc m = true) {st : SessState} (hst : st ≠ .none)
    (info : Bytes) :
    (respond cfg s q { typ := PROC_SS + 2, imsi := q.gsup.imsi, sessId := q.gsup.sessId, sessState := st, ssInfo := info }
      false false).2 = { s with log := toMs s q (msResult q st info) ++ s.log } := by
  rw [respond_frame, c22_response_sent]
  have e1 : (makeResponse { typ := PROC_SS + 2, imsi := q.gsup.imsi, sessId := q.gsup.sessId, sessState := st, ssInfo := info }
      q.gsup false false).2 = msResult q st info := by
    simp only [makeResponse, fillResponse, msResult]
    congr 1
    · by_cases h : q.gsup.imsi = [] <;> simp [h]
    · by_cases h : q.gsup.sessId = 0 <;> simp [h]
    · exact if_neg (fun h => hst h.2)
  have hrc : (makeResponse { typ := PROC_SS + 2, imsi := q.gsup.imsi, sessId := q.gsup.sessId, sessState := st, ssInfo := info }
      q.gsup false false).1 = 0 := by
    show responseRc (makeResponse _ _ _ _).2 _ = 0
    rw [e1]
    simp [responseRc, msResult]
  have hrt : q.routing (msResult q st info) = q.source := by
    unfold Req.routing
    split
    · rw [if_neg (fun h => absurd h.1 (show PROC_SS + 2 ≠ ROUTING_ERROR by decide))]
    · rfl
  rw [e1, hrc, henc, hrt]
  unfold toMs
  cases routeFind s.routes q.source.name <;> simp

/-- The last session replaced. -/
theorem ssSet_last {l : List Sess} {x x' : Sess} (hk : x'.key = x.key)
    (hl : ∀ y ∈ l, ¬ (y.imsi = x.imsi ∧ y.id = x.id)) (s : Sys) (hs : s.sess = l ++ [x]) :
    ssSet s x' = { s with sess := l ++ [x'] } := by
  simp only [Sess.key, Prod.mk.injEq] at hk
  unfold ssSet
  rw [hs, List.map_append]
  congr 2
  · refine List.map_congr_left (g := id) (fun y hy => ?_) |>.trans (List.map_id _)
    rw [if_neg]
    · rfl
    · intro hc
      exact hl y hy (by simpa [hk.1, hk.2] using hc)
  · simp [hk.1, hk.2]

theorem txToMs_new {cfg : Cfg} (henc : ∀ m, cfg.enc m = true) (e : Env) {t : Sys} {q : Req} {x : Sess}
    (hx : x.reqMs = some q) (hxi : x.imsi = q.gsup.imsi) (hxd : x.id = q.gsup.sessId) (hst : x.state ≠ .none) (info : Bytes)
    (k' : Sess → Sys → Sys) :
    ssTxToMs cfg e t x info k' = k' x { t with log := toMs t q (msResult q x.state info) ++ t.log } := by
  unfold ssTxToMs ssSendToMs
  rw [hx]
  dsimp only
  rw [hxi, hxd, respond_toMs cfg _ q henc hst]

theorem txErr_new {cfg : Cfg} (henc : ∀ m, cfg.enc m = true) (e : Env) {t : Sys} {q : Req} {l : List Sess} {x : Sess}
    (hx : x.reqMs = some q) (hxi : x.imsi = q.gsup.imsi)
    (hxd : x.id = q.gsup.sessId) (hl : ∀ y ∈ l, ¬ (y.imsi = x.imsi ∧ y.id = x.id)) (hs : t.sess = l ++ [x]) (inv code : Nat)
    (k' : Sess → Sys → Sys) :
    ssTxErr cfg e t x inv code k' = k' { x with state := .end_ } { t with
      sess := l ++ [{ x with state := .end_ }]
      log := toMs t q (msResult q .end_ (cfg.ssError inv code)) ++ t.log } := by
  unfold ssTxErr
  dsimp only
  rw [ssSet_last (x := x) (x' := { x with state := .end_ }) rfl hl t hs,
    txToMs_new henc e (q := q) (x := { x with state := .end_ }) hx hxi hxd (by simp)]
  rfl

theorem ssFree_last {t : Sys} {q : Req} {l : List Sess} {x : Sess} (hx : x.reqMs = some q) (hx' : x.reqEuse = none)
    (hl : ∀ y ∈ l, ¬ (y.imsi = x.imsi ∧ y.id = x.id)) (hs : t.sess = l ++ [x]) :
    ssFree t x = { t with sess := l, log := .concl q.nr .session :: t.log } := by
  have h1 : t.sess.filter (fun y => !(y.imsi == x.imsi && y.id == x.id)) = l := by
    rw [hs, List.filter_append, List.filter_eq_self.2]
    · simp
    · intro y hy
      have := hl y hy
      have h2 : ¬ (y.imsi == x.imsi && y.id == x.id) = true := by simpa using this
      simp only [Bool.not_eq_true] at h2
      rw [h2]; rfl
  rw [ssFree_eq, h1, hx, hx']
  rfl

section
variable {cfg : Cfg} {s : Sys} (hr : Reach s) (hu : s.ub = false) {c : ConnId} {k : Conn} {m : Msg}
  (h : Accepted cfg s c k m) (e : Env) (hloc : Local e m s) (henc : ∀ m, cfg.enc m = true)
  (hm : IsSs m.typ) {r : SsReq} (hi : m.ssInfo ≠ []) (hp : cfg.parseSs m.ssInfo = some r)
  (ho : opIsUssd r.opcode = true) (hms : nameIsEuse (mkReq k s.nextReq m).source = false)
include hr hu h hloc henc hm hi hp ho hms

section
variable (hb : m.sessState = .begin) (hno : ∀ y ∈ s.sess, ¬ (y.imsi = m.imsi ∧ y.id = m.sessId))
include hb hno

theorem begin_eq : step cfg s (.rx c (some m) e) =
    handleUssd cfg e { received s c k m with sess := s.sess ++ [ssNew cfg (mkReq k s.nextReq m) r] }
      (ssNew cfg (mkReq k s.nextReq m) r) false m r (fun _ s => s) := by
  rw [step_ss hr hu h hm e hloc]
  unfold rxProcSs
  dsimp only
  have hie : ¬ m.ssInfo.isEmpty = true := by simpa using hi
  have hfn : ssFind (received s c k m) m.imsi m.sessId = none :=
    List.find?_eq_none.2 (fun z hz hcz => hno z hz (by simpa using hcz))
  rw [mkReq_gsup, if_neg (fun hc => hie hc.1), if_neg hie, hp, hb]
  dsimp only
  rw [hfn, hms]
  dsimp only
  unfold handleSsAny
  rw [if_pos ho]

/-- A new request for an external node goes, unchanged, to the connection registered under
"EUSE-" and the node's name; if there is none the subscriber gets the error "system
failure". -/
theorem c35_external {n : Ent} (ht : RoutedTo cfg r (.external n)) (hcf : n ∈ cfg.euses) (hn : n.name.length ≤ 122) :
    (∀ c', routeFind (received s c k m).routes (b "EUSE-" ++ n.name ++ [0]) = some c' →
      step cfg s (.rx c (some m) e) = { received s c k m with
        sess := s.sess ++ [sessFor cfg (mkReq k s.nextReq m) (.external n)]
        log := .tx c' m none :: (received s c k m).log })
    ∧ (routeFind (received s c k m).routes (b "EUSE-" ++ n.name ++ [0]) = none →
      step cfg s (.rx c (some m) e) = { received s c k m with
        sess := s.sess ++ [{ sessFor cfg (mkReq k s.nextReq m) (.external n) with state := .end_ }]
        log := toMs (received s c k m) (mkReq k s.nextReq m) (msResult (mkReq k s.nextReq m) .end_ (cfg.ssError r.invokeId 0x22))
          ++ (received s c k m).log }) := by
  rw [begin_eq hr hu h e hloc henc hm hi hp ho hms hb hno, ssNew_for ht hms ho]
  have hnm : (ipaSetStr {} (eusePfx ++ n.name)).2.name = b "EUSE-" ++ n.name ++ [0] :=
    name_setStr (v := eusePfx ++ n.name) (by simp [eusePfx]; omega)
  unfold handleUssd
  have hext : (sessFor cfg (mkReq k s.nextReq m) (.external n)).isExternal = true := rfl
  rw [show (sessFor cfg (mkReq k s.nextReq m) (.external n)).u = .euse n from rfl]
  dsimp only
  rw [hext, if_neg (by simp), if_pos ⟨rfl, hcf⟩, hnm]
  constructor
  · intro c' hc
    rw [show routeFind (routesFor s c (mkReq k s.nextReq m)) _ = _ from hc]
    rfl
  · intro hc
    rw [show routeFind (routesFor s c (mkReq k s.nextReq m)) _ = _ from hc]
    dsimp only
    rw [txErr_new henc e (q := mkReq k s.nextReq m) (l := s.sess) rfl rfl rfl
      (by show ∀ y ∈ s.sess, ¬ (y.imsi = (mkReq k s.nextReq m).gsup.imsi ∧ y.id = (mkReq k s.nextReq m).gsup.sessId)
          rw [mkReq_gsup]; exact hno) rfl]
    rfl

/-- A new request nobody is configured for gets the error "supplementary service not
available". -/
theorem c35_nobody (ht : RoutedTo cfg r .nobody) :
    step cfg s (.rx c (some m) e) = { received s c k m with
      sess := s.sess ++ [{ sessFor cfg (mkReq k s.nextReq m) .nobody with state := .end_ }]
      log := toMs (received s c k m) (mkReq k s.nextReq m) (msResult (mkReq k s.nextReq m) .end_ (cfg.ssError r.invokeId 0x12))
        ++ (received s c k m).log } := by
  rw [begin_eq hr hu h e hloc henc hm hi hp ho hms hb hno, ssNew_for ht hms ho]
  unfold handleUssd
  rw [show (sessFor cfg (mkReq k s.nextReq m) .nobody).u = .null from rfl]
  dsimp only
  rw [txErr_new henc e (q := mkReq k s.nextReq m) (l := s.sess) rfl rfl rfl
    (by show ∀ y ∈ s.sess, ¬ (y.imsi = (mkReq k s.nextReq m).gsup.imsi ∧ y.id = (mkReq k s.nextReq m).gsup.sessId)
        rw [mkReq_gsup]; exact hno) rfl]
  rfl

/-- A new request for one of the internal handlers is answered: own IMSI and own number end
the session at once (an unknown subscriber gets the error "unknown subscriber"), the
idle test leaves it open. -/
theorem c35_internal {i : Iuse} (ht : RoutedTo cfg r (.internal i)) :
    (i = .testIdle → step cfg s (.rx c (some m) e) = { received s c k m with
      sess := s.sess ++ [{ sessFor cfg (mkReq k s.nextReq m) (.internal i) with state := .continue_ }]
      log := toMs (received s c k m) (mkReq k s.nextReq m) (msResult (mkReq k s.nextReq m) .continue_
          (cfg.ssText r.invokeId (b "Keeping your session idle, it will expire at most in " ++ udec cfg.guard ++ b " seconds.")))
        ++ (received s c k m).log })
    ∧ (i = .ownImsi → step cfg s (.rx c (some m) e) = { received s c k m with
      log := .concl s.nextReq .session :: (toMs (received s c k m) (mkReq k s.nextReq m)
          (msResult (mkReq k s.nextReq m) .end_ (cfg.ssText r.invokeId (b "Your IMSI is " ++ m.imsi)))
        ++ (received s c k m).log) })
    ∧ (i = .ownMsisdn → Unique s.db → firstFate e.sc = .ok →
      ((∀ row ∈ s.db.subs, row.imsi ≠ m.imsi) → step cfg s (.rx c (some m) e) = { received s c k m with
        log := .concl s.nextReq .session :: (toMs (received s c k m) (mkReq k s.nextReq m)
            (msResult (mkReq k s.nextReq m) .end_ (cfg.ssError r.invokeId 0x01))
          ++ (received s c k m).log) })
      ∧ (∀ row ∈ s.db.subs, row.imsi = m.imsi → step cfg s (.rx c (some m) e) = { received s c k m with
        log := .concl s.nextReq .session :: (toMs (received s c k m) (mkReq k s.nextReq m)
            (msResult (mkReq k s.nextReq m) .end_ (cfg.ssText r.invokeId
              (if (HlrSubscr.ofRow row).msisdn = [] then b "You have no MSISDN!"
               else b "Your extension is " ++ (HlrSubscr.ofRow row).msisdn)))
          ++ (received s c k m).log) })) := by
  rw [begin_eq hr hu h e hloc henc hm hi hp ho hms hb hno, ssNew_for ht hms ho]
  have hno' : ∀ y ∈ s.sess, ¬ (y.imsi = (mkReq k s.nextReq m).gsup.imsi ∧ y.id = (mkReq k s.nextReq m).gsup.sessId) := by
    rw [mkReq_gsup]; exact hno
  have hset : ∀ (st : SessState) (t : Sys), t.sess = s.sess ++ [sessFor cfg (mkReq k s.nextReq m) (.internal i)] →
      ssSet t { sessFor cfg (mkReq k s.nextReq m) (.internal i) with state := st }
        = { t with sess := s.sess ++ [{ sessFor cfg (mkReq k s.nextReq m) (.internal i) with state := st }] } := fun st t ht =>
    ssSet_last (x := sessFor cfg (mkReq k s.nextReq m) (.internal i))
      (x' := { sessFor cfg (mkReq k s.nextReq m) (.internal i) with state := st }) rfl hno' t ht
  have hfree : ∀ (t : Sys), t.sess = s.sess ++ [{ sessFor cfg (mkReq k s.nextReq m) (.internal i) with state := .end_ }] →
      ssFree t { sessFor cfg (mkReq k s.nextReq m) (.internal i) with state := .end_ }
        = { t with sess := s.sess, log := .concl s.nextReq .session :: t.log } := by
    intro t hs
    rw [ssFree_last (q := mkReq k s.nextReq m) rfl rfl hno' hs, mkReq_nr]
  unfold handleUssd
  rw [show (sessFor cfg (mkReq k s.nextReq m) (.internal i)).u = .iuse i from rfl]
  dsimp only
  rw [if_neg (by simp)]
  refine ⟨?_, ?_, ?_⟩
  · intro hi
    subst hi
    unfold iuseHandle
    dsimp only
    rw [hset _ _ rfl, txToMs_new henc e (q := mkReq k s.nextReq m)
      (x := { sessFor cfg (mkReq k s.nextReq m) (.internal .testIdle) with state := .continue_ }) rfl rfl rfl (by simp)]
    rw [if_neg (by simp)]
    rfl
  · intro hi
    subst hi
    unfold iuseHandle
    dsimp only
    rw [hset _ _ rfl, txToMs_new henc e (q := mkReq k s.nextReq m)
      (x := { sessFor cfg (mkReq k s.nextReq m) (.internal .ownImsi) with state := .end_ }) rfl rfl rfl (by simp)]
    rw [if_pos rfl, hfree _ rfl]
    rw [show (sessFor cfg (mkReq k s.nextReq m) (.internal .ownImsi)).imsi = m.imsi from by
      show (mkReq k s.nextReq m).gsup.imsi = _; rw [mkReq_gsup]]
    rfl
  · intro hi hU hsc
    subst hi
    have him : (sessFor cfg (mkReq k s.nextReq m) (.internal .ownMsisdn)).imsi = m.imsi := by
      show (mkReq k s.nextReq m).gsup.imsi = _; rw [mkReq_gsup]
    have hx : exec (getByImsi m.imsi) s.db e.sc = (match s.db.subs.find? (fun r => r.imsi == m.imsi) with
        | some r => (some (0, some r), s.db) | none => (some (-ENOENT, none), s.db)) := by
      simp only [getByImsi, dbSel, exec_bind_stmt, sqlSel]
      rcases hsc' : e.sc with _ | ⟨_ | _ | _, sc⟩
      · cases List.find? (fun r => r.imsi == m.imsi) s.db.subs <;> rfl
      · cases List.find? (fun r => r.imsi == m.imsi) s.db.subs <;> rfl
      · rw [hsc'] at hsc; cases hsc
      · rw [hsc'] at hsc; cases hsc
    unfold iuseHandle withDb
    dsimp only
    rw [hset _ _ rfl, show getByImsi (sessFor cfg (mkReq k s.nextReq m) (.internal .ownMsisdn)).imsi = getByImsi m.imsi from by rw [him]]
    dsimp only
    rw [hx]
    constructor
    · intro hn
      rw [List.find?_eq_none.2 (fun r hr => by simpa using hn r hr)]
      dsimp only
      rw [if_pos rfl, txErr_new henc _ (q := mkReq k s.nextReq m) (l := s.sess)
        (x := { sessFor cfg (mkReq k s.nextReq m) (.internal .ownMsisdn) with state := .end_ }) rfl rfl rfl hno' rfl]
      rw [if_pos rfl, hfree _ rfl]
      rfl
    · intro row hrow hri
      have hf : s.db.subs.find? (fun r => r.imsi == m.imsi) = some row := by
        cases hf : s.db.subs.find? (fun r => r.imsi == m.imsi) with
        | none =>
          have := List.find?_eq_none.mp hf row hrow
          simp [hri] at this
        | some r =>
          have h2 : (r.imsi == m.imsi) = true := by have := List.find?_some hf; exact this
          rw [eq_of_nodup_map hU.imsis (List.mem_of_find?_eq_some hf) hrow (by rw [hri]; simpa using h2)]
      rw [hf]
      dsimp only
      rw [txToMs_new henc _ (q := mkReq k s.nextReq m)
        (x := { sessFor cfg (mkReq k s.nextReq m) (.internal .ownMsisdn) with state := .end_ }) rfl rfl rfl (by simp)]
      rw [if_pos rfl, hfree _ rfl]
      have : ((HlrSubscr.ofRow row).msisdn.isEmpty = true) = ((HlrSubscr.ofRow row).msisdn = []) := by simp
      simp only [this]
      rfl

end

/-- A CONTINUE message from the subscriber's side goes to the external node chosen when
the session began, whatever the routes are now, as long as that node has not been removed
from the configuration; if that is no longer connected, the subscriber's node gets the error
"system failure" as a response to its first request. -/
theorem c35_continued (hc : m.sessState = .continue_) {x : Sess} (hx : x ∈ s.sess) (hxi : x.imsi = m.imsi)
    (hxd : x.id = m.sessId) {n : Ent} (hxu : x.u = .euse n) (hxe : x.isExternal = true) (hcf : n ∈ cfg.euses)
    (hn : n.name.length ≤ 122) :
    (∀ c', routeFind (received s c k m).routes (b "EUSE-" ++ n.name ++ [0]) = some c' →
      step cfg s (.rx c (some m) e) = { received s c k m with
        sess := continued cfg s m
        log := .concl s.nextReq .dropped :: .tx c' m none :: (received s c k m).log })
    ∧ (routeFind (received s c k m).routes (b "EUSE-" ++ n.name ++ [0]) = none → ∀ q, x.reqMs = some q →
      (step cfg s (.rx c (some m) e)).log = .concl s.nextReq .dropped ::
        (toMs (received s c k m) q (msResult q .end_ (cfg.ssError r.invokeId 0x22)) ++ (received s c k m).log)) := by
  have hnm : (ipaSetStr {} (eusePfx ++ n.name)).2.name = b "EUSE-" ++ n.name ++ [0] :=
    name_setStr (v := eusePfx ++ n.name) (by simp [eusePfx]; omega)
  have hf : ssFind (received s c k m) m.imsi m.sessId = some x := by
    cases hc : ssFind (received s c k m) m.imsi m.sessId with
    | none =>
      have := List.find?_eq_none.1 hc x hx
      simp [hxi, hxd] at this
    | some y =>
      obtain ⟨h1, h2, h3⟩ := ssFind_some hc
      rw [c34_unique hr h1 hx (h2.trans hxi.symm) (h3.trans hxd.symm)]
  have hie : ¬ m.ssInfo.isEmpty = true := by simpa using hi
  have hs : step cfg s (.rx c (some m) e) =
      handleUssd cfg e (ssSet (received s c k m) (rearm cfg x)) (rearm cfg x) false m r (fun _ s' => reqFree s' (mkReq k s.nextReq m) .dropped) := by
    rw [step_ss hr hu h hm e hloc]
    unfold rxProcSs
    dsimp only
    rw [mkReq_gsup, if_neg (fun hc => hie hc.1), if_neg hie, hp, hc]
    dsimp only
    rw [hf, hms]
    dsimp only
    unfold handleSsAny
    rw [if_pos ho]
  obtain ⟨hrk, -, hru, hre, hrq, -⟩ := rearm_core cfg x
  simp only [Sess.key, Prod.mk.injEq] at hrk
  rw [hs]
  unfold handleUssd
  rw [hru, hxu]
  dsimp only
  rw [hre, hxe, if_neg (by simp), if_pos ⟨rfl, hcf⟩, hnm]
  constructor
  · intro c' hc
    rw [show routeFind (ssSet (received s c k m) (rearm cfg x)).routes _ = _ from hc,
      ssSet_rearm hr hx hxi hxd (t := received s c k m) rfl]
    dsimp only
    unfold reqFree
    rw [mkReq_nr]
    rfl
  · intro hc q hq
    rw [show routeFind (ssSet (received s c k m) (rearm cfg x)).routes _ = _ from hc]
    dsimp only
    obtain ⟨-, hqi, hqd⟩ := reach_sessReq hr x hx q (by simp [Sess.reqs, hq])
    unfold ssTxErr
    dsimp only
    rw [txToMs_new henc e (q := q) (x := { rearm cfg x with state := .end_ }) (hrq.trans hq) (hrk.1.trans hqi.symm) (hrk.2.trans hqd.symm) (by simp)]
    unfold reqFree
    rw [mkReq_nr]
    rfl

end

/-- A message of an external node within a session begun by the subscriber goes to the
subscriber's node, as a response to its first request. -/
theorem c35_from_external {cfg : Cfg} {s : Sys} (hr : Reach s) (hu : s.ub = false) {c : ConnId} {k : Conn} {m : Msg}
    (h : Accepted cfg s c k m) (e : Env) (hloc : Local e m s) (henc : ∀ m, cfg.enc m = true)
    (hm : IsSs m.typ) {r : SsReq} (hi : m.ssInfo ≠ []) (hp : cfg.parseSs m.ssInfo = some r)
    (ho : opIsUssd r.opcode = true) (hms : nameIsEuse (mkReq k s.nextReq m).source = true)
    (hc : m.sessState = .continue_) {x : Sess} (hx : x ∈ s.sess) (hxi : x.imsi = m.imsi)
    (hxd : x.id = m.sessId) (hxu : x.u ≠ .null) {q : Req} (hq : x.reqMs = some q)
    (h1 : m.cls = 0 ∨ m.cls = q.gsup.cls) (h2 : m.smRpMr = none ∨ m.smRpMr = q.gsup.smRpMr) :
    ∃ M, (step cfg s (.rx c (some m) e)).log = .concl s.nextReq .dropped :: (toMs (received s c k m) q M
        ++ (received s c k m).log)
      ∧ M.typ = m.typ ∧ M.imsi = m.imsi ∧ M.sessId = m.sessId ∧ M.sessState = .continue_ ∧ M.ssInfo = m.ssInfo := by
  have hf : ssFind (received s c k m) m.imsi m.sessId = some x := by
    cases hc : ssFind (received s c k m) m.imsi m.sessId with
    | none =>
      have := List.find?_eq_none.1 hc x hx
      simp [hxi, hxd] at this
    | some y =>
      obtain ⟨h1, h2, h3⟩ := ssFind_some hc
      rw [c34_unique hr h1 hx (h2.trans hxi.symm) (h3.trans hxd.symm)]
  have hie : ¬ m.ssInfo.isEmpty = true := by simpa using hi
  have hs : step cfg s (.rx c (some m) e) =
      handleUssd cfg e (ssSet (received s c k m) (rearm cfg x)) (rearm cfg x) true m r (fun _ s' => reqFree s' (mkReq k s.nextReq m) .dropped) := by
    rw [step_ss hr hu h hm e hloc]
    unfold rxProcSs
    dsimp only
    rw [mkReq_gsup, if_neg (fun hc => hie hc.1), if_neg hie, hp, hc]
    dsimp only
    rw [hf, hms]
    dsimp only
    unfold handleSsAny
    rw [if_pos ho]
  obtain ⟨-, hqi, hqd⟩ := reach_sessReq hr x hx q (by simp [Sess.reqs, hq])
  have hqi : q.gsup.imsi = m.imsi := hqi.trans hxi
  have hqd : q.gsup.sessId = m.sessId := hqd.trans hxd
  have hs2 : step cfg s (.rx c (some m) e)
      = reqFree (respond cfg (ssSet (received s c k m) (rearm cfg x)) q m false false).2 (mkReq k s.nextReq m) .dropped := by
    rw [hs]
    unfold handleUssd
    obtain ⟨-, -, hru, -, hrq, -⟩ := rearm_core cfg x
    rw [hru]
    have hq := hrq.trans hq
    cases hxu' : x.u with
    | null => exact absurd hxu' hxu
    | euse n => dsimp only; rw [if_pos rfl]; unfold ssSendToMs; rw [hq]
    | iuse i => dsimp only; rw [if_pos rfl]; unfold ssSendToMs; rw [hq]
  have htyp : m.typ ≠ 0 ∧ m.typ ≠ ROUTING_ERROR := by
    rcases hm with h | h <;> rw [h] <;> decide
  refine ⟨(makeResponse m q.gsup false false).2, ?_, ?_⟩
  · rw [hs2]
    show .concl _ _ :: (respond cfg (ssSet (received s c k m) (rearm cfg x)) q m false false).2.log = _
    rw [mkReq_nr, c22_response_sent]
    have hrc : (makeResponse m q.gsup false false).1 = 0 := by
      show responseRc (fillResponse m q.gsup false false) q.gsup = 0
      have e1 : (fillResponse m q.gsup false false).imsi = q.gsup.imsi := by
        simp only [fillResponse]; split
        · rfl
        · exact hqi.symm
      have e2 : (fillResponse m q.gsup false false).cls = q.gsup.cls := by
        simp only [fillResponse]; split
        · rfl
        · exact h1.resolve_left (by assumption)
      have e3 : (fillResponse m q.gsup false false).smRpMr = q.gsup.smRpMr := by
        simp only [fillResponse]
        rcases h2 with h2 | h2
        · rw [h2]; rfl
        · rw [h2]; split <;> rfl
      have e4 : (fillResponse m q.gsup false false).sessId = q.gsup.sessId := by
        simp only [fillResponse]; split
        · rfl
        · exact hqd.symm
      simp [responseRc, e1, e2, e3, e4]
    have hrt : q.routing (makeResponse m q.gsup false false).2 = q.source := by
      have : (makeResponse m q.gsup false false).2.typ = m.typ := by
        simp [makeResponse, fillResponse, htyp.1]
      unfold Req.routing
      split
      · rw [if_neg (fun h => by rw [this] at h; exact htyp.2 h.1)]
      · rfl
    rw [hrc, henc, hrt]
    unfold toMs
    rw [show (ssSet (received s c k m) (rearm cfg x)).routes = (received s c k m).routes from rfl,
      show (ssSet (received s c k m) (rearm cfg x)).log = (received s c k m).log from rfl]
    cases routeFind (received s c k m).routes q.source.name <;> simp
  · refine ⟨?_, ?_, ?_, ?_, rfl⟩
    · simp [makeResponse, fillResponse, htyp.1]
    · simp only [makeResponse, fillResponse]; split
      · exact hqi
      · rfl
    · simp only [makeResponse, fillResponse]; split
      · exact hqd
      · rfl
    · simp [makeResponse, fillResponse, hc]

/-! ## Cases, and what is not true -/

/-- The external nodes of the examples. -/
def eFoo : Ent := ⟨1, b "foo"⟩
def eBar : Ent := ⟨2, b "bar"⟩

/-- Two external nodes, four routes, a default. -/
def ussdCfg : Cfg where
  crypto := Auc.Props.exCrypto
  myName := b "HLR-1"
  parseSs := fun info => some { opcode := 0x3b, invokeId := 1, code := info }
  ssError := fun _ c => [UInt8.ofNat c]
  ssText := fun _ t => t
  euses := [eFoo, eBar]
  ussdRoutes := [⟨b "*#100#", .inr .ownMsisdn⟩, ⟨b "*#1", .inl eBar⟩, ⟨b "*#10", .inl eFoo⟩, ⟨b "*9", .inr .testIdle⟩]
  euseDefault := some eFoo

/-- The two MSCs and the external nodes are connected. -/
def exUssd : List Ev :=
  exTwo ++ [.connect, .ccm 3 (some (b "EUSE-foo" ++ [0])), .connect, .ccm 4 (some (b "EUSE-bar" ++ [0]))]

def ssMsg (st : SessState) (id : Nat) (info : Bytes) : Msg where
  typ := PROC_SS
  imsi := imsi1
  sessId := id
  sessState := st
  ssInfo := info

/-- The message in the direction back. -/
def ssRes (st : SessState) (id : Nat) (info : Bytes) : Msg where
  typ := PROC_SS + 2
  imsi := imsi1
  sessId := id
  sessState := st
  ssInfo := info

/-- What was sent, newest first: to whom, in which session state, with which contents. -/
def ussdSent (s : Sys) : List (ConnId × SessState × Bytes) :=
  s.log.filterMap fun | .tx c m _ => some (c, m.sessState, m.ssInfo) | _ => none

/-- The cases of C35 happen: the first route that matches is taken (not the longest
prefix), the default, an internal handler that ends the session and one that keeps it; the
answer of the external node and a continuation. -/
example :
    let s := runWith ussdCfg (init {}) exUssd
    (ussdSent (step ussdCfg s (.rx 1 (some (ssMsg .begin 5 (b "*#101#"))) {}))).head? = some (4, .begin, b "*#101#")
    ∧ (ussdSent (step ussdCfg s (.rx 1 (some (ssMsg .begin 5 (b "*77#"))) {}))).head? = some (3, .begin, b "*77#")
    ∧ (ussdSent (step ussdCfg s (.rx 1 (some (ssMsg .begin 5 (b "*#100#"))) {}))).head?
        = some (1, .end_, b "Your extension is 1001")
    ∧ (step ussdCfg s (.rx 1 (some (ssMsg .begin 5 (b "*#100#"))) {})).sess = []
    ∧ (ussdSent (step ussdCfg s (.rx 1 (some (ssMsg .begin 5 (b "*9"))) {}))).head? = some (1, .continue_,
        b "Keeping your session idle, it will expire at most in 30 seconds.")
    ∧ ((step ussdCfg s (.rx 1 (some (ssMsg .begin 5 (b "*9"))) {})).sess.map Sess.key) = [(imsi1, 5)] := by
  decide +kernel

example :
    let s := runWith ussdCfg (init {}) (exUssd ++ [.rx 1 (some (ssMsg .begin 5 (b "*77#"))) {},
      .rx 2 (some (ssMsg .begin 6 (b "*#101#"))) {}, .rx 3 (some (ssRes .continue_ 5 (b "1 or 2?"))) {},
      .rx 1 (some (ssMsg .continue_ 5 (b "2"))) {}, .rx 3 (some (ssRes .end_ 5 (b "ok"))) {}])
    (ussdSent s).take 5 = [(1, .end_, b "ok"), (3, .continue_, b "2"), (1, .continue_, b "1 or 2?"),
      (4, .begin, b "*#101#"), (3, .begin, b "*77#")]
    ∧ s.sess.map Sess.key = [(imsi1, 6)] ∧ s.ub = false
    ∧ (step ussdCfg s (.ssTimeout imsi1 6)).sess = [] := by
  decide +kernel

example : EuseOk ussdCfg := by
  constructor
  · intro rt hrt n hn
    rcases List.mem_cons.1 hrt with rfl | hrt
    · cases hn
    rcases List.mem_cons.1 hrt with rfl | hrt
    · cases hn; decide +kernel
    rcases List.mem_cons.1 hrt with rfl | hrt
    · cases hn; decide +kernel
    rw [List.mem_singleton.1 hrt] at hn
    cases hn
  · intro n hn; cases hn; decide +kernel

/-- The hypotheses of `c35_external`, `c34_end_partial` are met in reachable states. -/
example : RoutedTo ussdCfg { opcode := 0x3b, code := b "*#101#" } (.external eBar) :=
  .ext (pre := [⟨b "*#100#", .inr .ownMsisdn⟩]) (post := [⟨b "*#10", .inl eFoo⟩, ⟨b "*9", .inr .testIdle⟩])
    (rt := ⟨b "*#1", .inl eBar⟩) rfl ⟨rfl, b "01#", by decide +kernel⟩ (by
      intro rt hrt ⟨_, rest, hr⟩
      rw [List.mem_singleton.1 hrt] at hr
      have := congrArg (List.take 6) hr
      rw [List.take_left' (by decide +kernel)] at this
      revert this
      decide +kernel) rfl

/-- C34 violated: an external node begins a session with a subscriber; when the
subscriber's answer comes, a function pointer is read from memory that holds something
else. -/
theorem c34_misread_violated : ∃ s m, Reach s ∧ s.ub = false ∧ m.typ = PROC_SS
    ∧ s.sess.map (fun x => (x.imsi, x.id)) = [(m.imsi, m.sessId)]
    ∧ (step ussdCfg s (.rx 1 (some m) {})).ub = true :=
  ⟨runWith ussdCfg (init {}) (exUssd ++ [.rx 1 (some ulMsg) {}, .rx 3 (some (ssMsg .begin 7 (b "hello"))) {}]),
    ssMsg .continue_ 7 (b "yes"), ⟨_, _, rfl⟩, by decide +kernel, rfl, by decide +kernel, by decide +kernel⟩

def noGuardCfg : Cfg := { ussdCfg with euseDefault := none, guard := 0 }

/-- C34 violated: after a request that was answered with an error, in session state END,
the session stays; the next request with the same session id is refused, and without a
guard time this does not change. -/
theorem c34_error_keeps_session_violated : ∃ s, Reach s ∧ s.ub = false
    ∧ (ussdSent s).head? = some (1, .end_, [0x12])
    ∧ s.sess.map (fun x => (x.imsi, x.id, x.state)) = [(imsi1, 5, .end_)]
    ∧ (ussdSent (step noGuardCfg s (.rx 1 (some (ssMsg .begin 5 (b "*#100#"))) {}))).head? = some (1, .end_, [])
    ∧ (step noGuardCfg s (.ssTimeout imsi1 5)).sess = s.sess :=
  ⟨runWith noGuardCfg (init {}) (exUssd ++ [.rx 1 (some (ssMsg .begin 5 (b "*77#"))) {}]), ⟨_, _, rfl⟩,
    by decide +kernel, by decide +kernel, by decide +kernel, by decide +kernel, by decide +kernel⟩

/-- A node that has nothing to do with a session ends it: the other MSC sends END, and the
subscriber's MSC is not told. -/
theorem c34_foreign_end : ∃ s, Reach s ∧ s.ub = false
    ∧ s.sess.map (fun x => (x.imsi, x.id, x.reqMs.map (·.conn))) = [(imsi1, 5, some 1)]
    ∧ (step ussdCfg s (.rx 2 (some (ssMsg .end_ 5 [])) {})).sess = []
    ∧ (step ussdCfg s (.rx 2 (some (ssMsg .end_ 5 [])) {})).log.take 2 = [.concl 2 .dropped, .concl 1 .session] :=
  ⟨runWith ussdCfg (init {}) (exUssd ++ [.rx 1 (some (ssMsg .begin 5 (b "*77#"))) {}]), ⟨_, _, rfl⟩,
    by decide +kernel, by decide +kernel, by decide +kernel, by decide +kernel⟩

end Verif.Sys.Props
