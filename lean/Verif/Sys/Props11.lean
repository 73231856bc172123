import Verif.Sys.Kept
/-! # C76: a subscriber whose home is another HLR is served in the end -/
namespace Verif.Sys.Props
open Verif Verif.Db Verif.Gsup Verif.Hlr

/-- A node's message for a subscriber who is not in the database of this HLR, while distributed GSM is switched on. -/
structure Roams (cfg : Cfg) (s : Sys) (c : ConnId) (k : Conn) (m : Msg) (e : Env) : Prop extends Accepted cfg s c k m where
  on : e.dgsm = true
  sc0 : firstFate e.sc0 = .ok
  away : ∀ r ∈ s.db.subs, r.imsi ≠ m.imsi

/-- The entry of the subscriber, if there is one, was last changed between `lo` and the time of the event. -/
structure Since (s : Sys) (imsi : Bytes) (lo : Int) (e : Env) : Prop where
  now : lo ≤ e.clock
  entry : ∀ x ∈ s.proxy, x.data.imsi = imsi → lo ≤ x.lastUpdate ∧ x.lastUpdate ≤ e.clock

/-- The message with the name of the sender. -/
def named (m : Msg) (n : Bytes) : Msg := { m with src := n }

theorem Roams.known {cfg : Cfg} {s : Sys} {c : ConnId} {k : Conn} {m : Msg} {e : Env} (h : Roams cfg s c k m e) : known e m s = some (-2) :=
  (c40_known e m s h.sc0).2.2 (fun ⟨r, hr, hi⟩ => h.away r hr hi)

section asks
variable {cfg : Cfg} {s : Sys} (hr : Reach s) (hu : s.ub = false) {c : ConnId} {k : Conn} {m : Msg} {e : Env} (h : Roams cfg s c k m e)
  (ht : m.typ = UPDATE_LOCATION) {cs : Bool} (hcs : m.cnDomain = if cs then 2 else 1) {lo : Int} (hs : Since s m.imsi lo e)
include hr hu h ht hcs hs

theorem lu_awaits : Awaits (step cfg s (.rx c (some m) e)) m.imsi cs (homeOf e s m.imsi) (senderName k m) lo e.clock := by
  obtain ⟨y, h1, h2, h3, h4⟩ := lu_entry hr hu h.toAccepted h.on h.known (by decide) ht hcs
  rcases h2 with h2 | h2
  · obtain ⟨a1, a2⟩ := entryOf_some h2
    obtain ⟨b1, b2⟩ := hs.entry y a1 a2
    exact ⟨y, h1, b1, b2, h3, h4⟩
  · exact ⟨y, h1, by rw [h2]; exact hs.now, by rw [h2]; exact Int.le_refl _, h3, h4⟩

/-- C76: the home HLR is known and there is a link to it: it gets the request of the node at once, with the node's name, and
the node's request is remembered. -/
theorem c76_asks (hp : (∃ q' ∈ s.pending, q'.gsup.imsi = m.imsi) → ∃ x ∈ s.proxy, x.data.imsi = m.imsi)
    (ha : (homeOf e s m.imsi).nonzero = true) {r : Remote} (hl : s.remote? (homeOf e s m.imsi) = some r)
    (hup : r.up = true) (henc : ∀ m, cfg.enc m = true) :
    .remote (homeOf e s m.imsi) (named m (senderName k m)) (some s.nextReq) ∈ (step cfg s (.rx c (some m) e)).log
    ∧ Awaits (step cfg s (.rx c (some m) e)) m.imsi cs (homeOf e s m.imsi) (senderName k m) lo e.clock := by
  refine ⟨?_, lu_awaits hr hu h ht hcs hs⟩
  have hp' : (∃ q' ∈ s.pending, q'.gsup.imsi = m.imsi) → ∃ d, proxyByImsi s.proxy m.imsi = some d := by
    intro hq
    obtain ⟨x, hx, hi⟩ := hp hq
    cases hd : proxyByImsi s.proxy m.imsi with
    | some d => exact ⟨d, rfl⟩
    | none => exact absurd hi (byImsi_none hd x hx)
  rw [(c40_forwarded hr hu h.toAccepted h.on h.known (by decide) hp' ha hl hup henc).1]
  exact List.mem_cons_of_mem _ List.mem_cons_self

/-- C76: the home HLR is not known, or the link to it is not up: the request waits. -/
theorem c76_waits (hp : (∃ q' ∈ s.pending, q'.gsup.imsi = m.imsi) → ∃ x ∈ s.proxy, x.data.imsi = m.imsi)
    (hl : (homeOf e s m.imsi).nonzero = true → ∀ r, s.remote? (homeOf e s m.imsi) = some r → r.up = false)
    (hok : (homeOf e s m.imsi).nonzero = true → s.remote? (homeOf e s m.imsi) = none → e.connectOk = true) :
    Kept (mkReq k s.nextReq m) (homeOf e s m.imsi) (step cfg s (.rx c (some m) e))
    ∧ Awaits (step cfg s (.rx c (some m) e)) m.imsi cs (homeOf e s m.imsi) (senderName k m) lo e.clock := by
  have hA := lu_awaits hr hu h ht hcs hs
  refine ⟨?_, hA⟩
  have hp' : (∃ q' ∈ s.pending, q'.gsup.imsi = m.imsi) → ∃ d, proxyByImsi s.proxy m.imsi = some d := by
    intro hq
    obtain ⟨x, hx, hi⟩ := hp hq
    cases hd : proxyByImsi s.proxy m.imsi with
    | some d => exact ⟨d, rfl⟩
    | none => exact absurd hi (byImsi_none hd x hx)
  obtain ⟨-, h2, h3⟩ := c40_deferred hr hu h.toAccepted h.on h.known (by decide) hp' hl hok
  refine ⟨by rw [h2]; simp, ?_, ?_⟩
  · obtain ⟨y, h4, -, -, h5, -⟩ := hA
    unfold addrOf
    rw [mkReq_gsup, byImsi_entry, h4]
    exact congrArg some h5
  · cases hz : (homeOf e s m.imsi).nonzero with
    | false => exact .inl hz
    | true => exact .inr (h3 hz)

end asks

theorem mem_passed {a : Addr} {p : List Req} {q : Req} (h : q ∈ p) : .remote a (named q.gsup q.source.name) (some q.nr) ∈ passed a p := by
  unfold passed
  rw [List.mem_flatMap]
  exact ⟨q, List.mem_reverse.2 h, by simp [named]⟩

theorem mem_allFor {s : Sys} {a : Addr} {p p' : List Req} (h : AllFor s a p p') {q : Req} (hq : q ∈ p) (hh : HomeAt s q.gsup.imsi a) : q ∈ p' := by
  have := h q.gsup.imsi
  rw [if_pos hh] at this
  have hm : q ∈ p.filter (·.gsup.imsi == q.gsup.imsi) := List.mem_filter.2 ⟨hq, by simp⟩
  rw [← this] at hm
  exact (List.mem_filter.1 hm).1

section found
variable {cfg : Cfg} {s : Sys} (hr : Reach s) (hu : s.ub = false) {q : Req} {a : Addr} (hK : Kept q a s) {cs : Bool} {n : Bytes} {lo now : Int}
  (hA : Awaits s q.gsup.imsi cs a n lo now)
include hr hu hK hA

theorem found_awaits (hlo : lo ≤ now) {v : Addr × Addr} (hv : (foundAddr v).nonzero = true) (hne : a ≠ foundAddr v) (e : Env) (he : now ≤ e.clock) :
    Awaits (step cfg s (.lookup q.gsup.imsi (some v) e)) q.gsup.imsi cs (foundAddr v) n lo e.clock := by
  obtain ⟨x, hx, h1, h2, h3, h4⟩ := hA
  obtain ⟨hm, hi⟩ := entryOf_some hx
  rw [found_eq hr hu e hv hm hi (by rw [h3]; exact hne) ⟨q, hK.1, rfl⟩]
  refine ⟨{ lastUpdate := e.clock, data := { x.data with addr := foundAddr v } }, ?_, by show lo ≤ e.clock; omega, by show e.clock ≤ e.clock; omega, rfl, ?_⟩
  · rw [connectRemote_proxy, entryOf_put, if_pos hi.symm]
  · cases cs <;> exact h4

/-- C76: the home HLR of a subscriber with a waiting request is found, and there is a link to it: the request is sent to it, with
the name of the node. -/
theorem c76_found_linked (hlo : lo ≤ now) {v : Addr × Addr} (hv : (foundAddr v).nonzero = true) (hne : a ≠ foundAddr v) {e : Env} (he : now ≤ e.clock) {r : Remote}
    (hl : s.remote? (foundAddr v) = some r) (hup : r.up = true) (henc : ∀ m, cfg.enc m = true) :
    .remote (foundAddr v) (named q.gsup q.source.name) (some q.nr) ∈ (step cfg s (.lookup q.gsup.imsi (some v) e)).log
    ∧ Awaits (step cfg s (.lookup q.gsup.imsi (some v) e)) q.gsup.imsi cs (foundAddr v) n lo e.clock := by
  refine ⟨?_, found_awaits hr hu hK hA hlo hv hne e he⟩
  obtain ⟨x, hx, h1, h2, h3, h4⟩ := hA
  obtain ⟨hm, hi⟩ := entryOf_some hx
  obtain ⟨hh, p, hp, hlog, -⟩ := c38_found_linked (cfg := cfg) hr hu e hv hm hi (by rw [h3]; exact hne) ⟨q, hK.1, rfl⟩ hl hup henc
  rw [hlog]
  exact List.mem_append_left _ (mem_passed (mem_allFor hp hK.1 hh))

/-- C76: the home HLR is found and there is no link to it yet: the request goes on waiting while the link is set up. -/
theorem c76_found (hlo : lo ≤ now) {v : Addr × Addr} (hv : (foundAddr v).nonzero = true) (hne : a ≠ foundAddr v) {e : Env} (he : now ≤ e.clock)
    (hl : ∀ r, s.remote? (foundAddr v) = some r → r.up = false) (hok : s.remote? (foundAddr v) = none → e.connectOk = true) :
    Kept q (foundAddr v) (step cfg s (.lookup q.gsup.imsi (some v) e))
    ∧ Awaits (step cfg s (.lookup q.gsup.imsi (some v) e)) q.gsup.imsi cs (foundAddr v) n lo e.clock := by
  refine ⟨?_, found_awaits hr hu hK hA hlo hv hne e he⟩
  obtain ⟨x, hx, h1, h2, h3, h4⟩ := hA
  obtain ⟨hm, hi⟩ := entryOf_some hx
  obtain ⟨hh, -, hpend, hrem⟩ := c38_found_unlinked (cfg := cfg) hr hu e hv hm hi (by rw [h3]; exact hne) ⟨q, hK.1, rfl⟩ hl hok
  refine ⟨by rw [hpend]; exact hK.1, ?_, .inr hrem⟩
  exact (homeAt_iff (c37_one_entry (hr.step cfg _)) _ _).1 hh

/-- C76: the link to the home HLR that a request waits for comes up: the request is sent to it, with the name of the node. -/
theorem c76_link_up (hz : a.nonzero = true) (henc : ∀ m, cfg.enc m = true) :
    .remote a (named q.gsup q.source.name) (some q.nr) ∈ (step cfg s (.remoteUp a)).log
    ∧ Awaits (step cfg s (.remoteUp a)) q.gsup.imsi cs a n lo now := by
  obtain ⟨h1, h2, h3⟩ := hK
  have hl : ∃ r, s.remote? a = some r ∧ r.up = false ∧ 0 < r.cbs := by
    rcases h3 with h3 | h3
    · rw [h3] at hz; cases hz
    · exact h3
  obtain ⟨r, hl, hup, hcb⟩ := hl
  obtain ⟨p, hp, hlog, -⟩ := c38_link_up hr hu hl hcb henc
  have hh : HomeAt s q.gsup.imsi a := (homeAt_iff (c37_one_entry hr) _ _).2 h2
  refine ⟨by rw [hlog]; exact List.mem_append_left _ (mem_passed (mem_allFor hp h1 hh)), ?_⟩
  have : (step cfg s (.remoteUp a)).proxy = s.proxy := by
    unfold step
    rw [if_neg (by simp [hu])]
    show (remoteUp cfg a s).proxy = _
    unfold remoteUp
    rw [hl]
    obtain ⟨p, l, h⟩ := repeatCb_frame cfg a true r.cbs (setRemote { r with up := true, cbs := 0 } s)
    dsimp only
    rw [h]
    rfl
  unfold Awaits at hA ⊢
  rw [this]
  exact hA

end found

/-- C76: the request of a node for a subscriber whose home is not known yet reaches the home HLR when that is found and
the link to it has come up, whatever else happens in the meantime. -/
theorem c76_reaches_home {cfg : Cfg} {s : Sys} (hr : Reach s) (hu : s.ub = false) {c : ConnId} {k : Conn} {m : Msg} {e : Env} (h : Roams cfg s c k m e)
    (ht : m.typ = UPDATE_LOCATION) {cs : Bool} (hcs : m.cnDomain = if cs then 2 else 1) {lo : Int} (hs : Since s m.imsi lo e)
    (hp : (∃ q' ∈ s.pending, q'.gsup.imsi = m.imsi) → ∃ x ∈ s.proxy, x.data.imsi = m.imsi) (hz : (homeOf e s m.imsi).nonzero = false)
    {l1 : List (Cfg × Ev)} {s1 : Sys} (hs1 : s1 = run (step cfg s (.rx c (some m) e)) l1)
    {cfg1 : Cfg} {v : Addr × Addr} {e1 : Env} (hv : (foundAddr v).nonzero = true)
    (hq1 : Quiet m.imsi cs (homeOf e s m.imsi) (senderName k m) (lo + 3600) e.clock l1)
    (hi1 : ∀ x ∈ l1, Idle m.imsi (homeOf e s m.imsi) x.2) (he1 : ∀ x ∈ l1, ∀ t, Ev.time x.2 = some t → t ≤ e1.clock) (he0 : e.clock ≤ e1.clock)
    (hl : ∀ r, s1.remote? (foundAddr v) = some r → r.up = false) (hok : s1.remote? (foundAddr v) = none → e1.connectOk = true)
    {l2 : List (Cfg × Ev)} {s2 : Sys} (hs2 : s2 = run (step cfg1 s1 (.lookup m.imsi (some v) e1)) l2) {cfg2 : Cfg}
    (hq2 : Quiet m.imsi cs (foundAddr v) (senderName k m) (lo + 3600) e1.clock l2)
    (hi2 : ∀ x ∈ l2, Idle m.imsi (foundAddr v) x.2) (hnr : NoRestart s s2) (hu2 : s2.ub = false) (henc : ∀ m, cfg2.enc m = true) :
    .remote (foundAddr v) (named m (senderName k m)) (some s.nextReq) ∈ (step cfg2 s2 (.remoteUp (foundAddr v))).log
    ∧ ∃ now, lo ≤ now ∧ Awaits (step cfg2 s2 (.remoteUp (foundAddr v))) m.imsi cs (foundAddr v) (senderName k m) lo now := by
  obtain ⟨hK, hA⟩ := c76_waits hr hu h ht hcs hs hp (fun x => by rw [hz] at x; cases x) (fun x => by rw [hz] at x; cases x)
  have hr0 := hr.step cfg (.rx c (some m) e)
  have hall : s2 = run (step cfg s (.rx c (some m) e)) (l1 ++ (cfg1, .lookup m.imsi (some v) e1) :: l2) := by
    rw [run_append, ← hs1, hs2]; rfl
  obtain ⟨-, n0⟩ := noRestart_step hall hnr
  have n1 : NoRestart (step cfg s (.rx c (some m) e)) s1 := by
    rw [hall] at n0; rw [hs1]; exact noRestart_prefix n0
  have hgi : (mkReq k s.nextReq m).gsup.imsi = m.imsi := by rw [mkReq_gsup]
  -- the time of the last event before the lookup
  have htime : ∀ (l : List (Cfg × Ev)) (t : Sys) (now : Int), now ≤ e1.clock → lo ≤ now → Reach t →
      Awaits t (mkReq k s.nextReq m).gsup.imsi cs (homeOf e s m.imsi) (senderName k m) lo now → Kept (mkReq k s.nextReq m) (homeOf e s m.imsi) t →
      Quiet (mkReq k s.nextReq m).gsup.imsi cs (homeOf e s m.imsi) (senderName k m) (lo + 3600) now l →
      (∀ x ∈ l, Idle (mkReq k s.nextReq m).gsup.imsi (homeOf e s m.imsi) x.2) → (∀ x ∈ l, ∀ t, Ev.time x.2 = some t → t ≤ e1.clock) → NoRestart t (run t l) →
      Kept (mkReq k s.nextReq m) (homeOf e s m.imsi) (run t l) ∧
        Awaits (run t l) (mkReq k s.nextReq m).gsup.imsi cs (homeOf e s m.imsi) (senderName k m) lo e1.clock := by
    intro l
    induction l with
    | nil =>
      intro t now h1 h2 h3 h4 h5 h6 h7 h8 h9
      obtain ⟨x, hx, b1, b2, b3⟩ := h4
      exact ⟨h5, x, hx, b1, Int.le_trans b2 h1, b3⟩
    | cons x l ih =>
      intro t now h1 h2 h3 h4 h5 h6 h7 h8 h9
      obtain ⟨n1, n2⟩ := noRestart_step (s := t) (cfg := x.1) (ev := x.2) (l := l) rfl h9
      have hx := kept_run (l := [x]) h3 h4 h2 h5 ⟨h6.1, h6.2.1, trivial⟩ (fun y hy => by rw [List.mem_singleton.1 hy]; exact h7 x List.mem_cons_self) n1
      have hA' := awaits_step h3 h4 h2 h6.1 h6.2.1 n1
      refine ih _ ((Ev.time x.2).getD now) ?_ ?_ (h3.step x.1 x.2) hA' hx.1 h6.2.2 (fun y hy => h7 y (List.mem_cons_of_mem _ hy))
        (fun y hy => h8 y (List.mem_cons_of_mem _ hy)) n2
      · cases ht : Ev.time x.2 with
        | none => exact h1
        | some t => exact h8 x List.mem_cons_self t ht
      · cases ht : Ev.time x.2 with
        | none => exact h2
        | some t => exact Int.le_trans h2 (h6.2.1 t ht).1
  obtain ⟨hK1, hA1⟩ := htime l1 _ e.clock he0 hs.now hr0 (by rw [hgi]; exact hA) hK (by rw [hgi]; exact hq1) (by rw [hgi]; exact hi1) he1 (by rw [← hs1]; exact n1)
  rw [← hs1] at hK1 hA1
  have hr1 : Reach s1 := hs1 ▸ reach_run hr0 l1
  have hu1 : s1.ub = false := by
    have : (run s1 ((cfg1, .lookup m.imsi (some v) e1) :: l2)).ub = false := by
      rw [show run s1 ((cfg1, .lookup m.imsi (some v) e1) :: l2) = s2 from hs2.symm]; exact hu2
    exact run_sound this
  have hne : homeOf e s m.imsi ≠ foundAddr v := by
    intro hc; rw [hc, hv] at hz; cases hz
  obtain ⟨hK2, hA2⟩ := c76_found (cfg := cfg1) hr1 hu1 hK1 hA1 (Int.le_trans hs.now he0) hv hne (Int.le_refl _) hl hok
  rw [mkReq_gsup] at hK2 hA2
  have n2 : NoRestart (step cfg1 s1 (.lookup m.imsi (some v) e1)) s2 := by
    intro x hx hrst
    obtain ⟨y, hy⟩ := run_log (step cfg s (.rx c (some m) e)) l1
    obtain ⟨z, hz, -⟩ := step_kfr cfg1 s1 (.lookup m.imsi (some v) e1)
    rw [← hs1] at hy
    exact n0 (x ++ (z ++ y)) (by rw [hx, hz, hy]; simp) (List.mem_append_left _ hrst)
  rw [hs2] at n2
  obtain ⟨hK3, now', hn', hA3, -⟩ := kept_run (q := mkReq k s.nextReq m) (hr1.step cfg1 _) (by rw [mkReq_gsup]; exact hA2)
    (Int.le_trans hs.now he0) hK2 (by rw [mkReq_gsup]; exact hq2) (by rw [mkReq_gsup]; exact hi2) n2
  rw [← hs2] at hK3 hA3
  have hr2 : Reach s2 := hs2 ▸ reach_run (hr1.step cfg1 _) l2
  obtain ⟨f1, f2⟩ := c76_link_up (cfg := cfg2) hr2 hu2 hK3 hA3 hv henc
  rw [mkReq_gsup] at f1 f2
  rw [mkReq_source (fun _ => ipaSet_ok h.src), mkReq_nr] at f1
  exact ⟨f1, now', hn', f2⟩

/-- A later state of the visited HLR: nothing that has happened since `v` disturbs the location update of the node on connection `c`,
which is still connected, as is the home HLR. -/
structure Meanwhile (v : Sys) (imsi : Bytes) (cs : Bool) (a : Addr) (n : Bytes) (lo now : Int) (c : ConnId) (w : Sys) : Prop where
  run : ∃ l, w = Sys.run v l ∧ Quiet imsi cs a n (lo + 3600) now l
  noRestart : NoRestart v w
  sound : w.ub = false
  node : c ∈ w.conns.map (·.id)
  link : ∃ r, w.remote? a = some r ∧ r.up = true

section back
variable {v : Sys} (hr : Reach v) {imsi : Bytes} {cs : Bool} {a : Addr} {n : Bytes} {lo now : Int} (hA : Awaits v imsi cs a n lo now) (hlo : lo ≤ now)
  {c : ConnId} {w : Sys} (hw : Meanwhile v imsi cs a n lo now c w)
include hr hA hlo hw

theorem meanwhile_awaits : Reach w ∧ ∃ now', Awaits w imsi cs a n lo now' := by
  obtain ⟨l, rfl, hq⟩ := hw.run
  exact ⟨reach_run hr l, awaits_run hr hA hlo hq hw.noRestart⟩

/-- C76: what the home HLR sends to the node that asked, data or result, is passed on to that node. -/
theorem c76_back (hc : routeFind v.routes n = some c) (hn : n ≠ []) {M : Msg} (hi : M.imsi = imsi) (hv : Digits 6 15 imsi) (hd : M.dst = n)
    {cfg : Cfg} (henc : cfg.enc M = true) (e : Env) :
    (step cfg w (.remoteRx a M e)).log = .tx c M none :: .remoteRx a M :: w.log := by
  obtain ⟨hrw, now', x, hx, -, -, ha, hpn⟩ := meanwhile_awaits hr hA hlo hw
  obtain ⟨r, hl, -⟩ := hw.link
  have hdone := reach_done hrw
  have hroute : routeFind w.routes n = some c := by
    obtain ⟨l, rfl, -⟩ := hw.run
    exact (run_stays l (reach_done hr) hc).resolve_right (fun h => h hw.node)
  have hlen : n.length ≤ 128 := by
    have hwf := reach_prelim hrw x (entryOf_some hx).1 cs
    rw [← hpn]
    unfold IpaName.name
    rw [List.length_take]
    have := hwf.2
    omega
  have hset : (ipaSet {} M.dst).1 = 0 := by rw [hd]; exact ipaSet_ok hlen
  have hname : (ipaSet {} M.dst).2.name = n := by rw [name_set hset, hd]
  obtain ⟨k, hk, hkid⟩ : ∃ k, w.conn? c = some k ∧ k.id = c := by
    cases hk : w.conn? c with
    | some k => exact ⟨k, rfl, by have := List.find?_some hk; simpa using this⟩
    | none =>
      obtain ⟨k, hkm, hkid⟩ := List.mem_map.1 hw.node
      have := List.find?_eq_none.1 hk k hkm
      simp [hkid] at this
  have hentry : proxyByImsi (w.emit (.remoteRx a M)).proxy M.imsi = some x.data := by
    show proxyByImsi w.proxy M.imsi = _
    rw [hi, byImsi_entry, hx]; rfl
  have hpass : ∃ t, Passes cfg e M (w.emit (.remoteRx a M)) x.data k t := by
    have hack : ∃ t, ackFromRemote cfg e x.data M (ipaSet {} M.dst).2 k.name (w.emit (.remoteRx a M)) = some t := by
      unfold ackFromRemote
      split
      · split
        · exact ⟨_, rfl⟩
        · split
          · exact ⟨_, rfl⟩
          · split
            · exact ⟨_, rfl⟩
            · exact ⟨_, rfl⟩
      · split
        · have wf : ({} : IpaName).WF := ⟨List.length_replicate, Nat.zero_le _⟩
          have h0 := (Gsup.Props.c25_cmp_eq (ipaSet_wf wf M.dst) (reach_prelim hrw x (entryOf_some hx).1 cs)).2 (by rw [hname, hpn])
          unfold ackLuResult
          dsimp only
          rw [if_neg (by
            intro hno
            apply hno
            cases cs with
            | true => exact .inl h0
            | false => exact .inr h0)]
          exact ⟨_, rfl⟩
        · exact ⟨_, rfl⟩
    obtain ⟨t, ht⟩ := hack
    exact ⟨t, { entry := hentry, dst := hset, route := by rw [hname, hkid]; exact hroute, conn := by rw [hkid]; exact hk, ack := ht }⟩
  have hvalid : imsiValid M.imsi = true := by rw [hi]; exact Db.isNDigits_spec.2 hv
  unfold step
  rw [if_neg (by simp [hw.sound])]
  show (remoteRx cfg e a M w).log = _
  rcases remoteRx_cases cfg e M hl with ⟨d, k', t, -, hp, ⟨-, h⟩ | ⟨h, -⟩⟩ | ⟨h, -⟩
  · rw [h]
    have hkk : k'.id = c := by
      have := hp.route
      rw [hname] at this
      have h2 : routeFind w.routes n = some k'.id := this
      rw [hroute] at h2
      exact (Option.some.inj h2).symm
    have htl : t.log = .remoteRx a M :: w.log := by
      rcases ackFromRemote_some hp.ack with ⟨rfl, -⟩ | ⟨_, -, rfl⟩ | ⟨_, -, -, rfl⟩ <;> rfl
    show .tx k'.id M none :: t.log = _
    rw [hkk, htl]
  · rw [henc] at h; cases h
  · obtain ⟨t, ht⟩ := hpass
    exact absurd ht (h hvalid _ _ _)

/-- C76: what a node sends for the subscriber in the meantime is passed on to the home HLR, with the name of the node. -/
theorem c76_confirms {cfg : Cfg} {c2 : ConnId} {k2 : Conn} {m2 : Msg} {e2 : Env} (h2 : Roams cfg w c2 k2 m2 e2) (hi : m2.imsi = imsi)
    (hz : a.nonzero = true) (henc : ∀ m, cfg.enc m = true) :
    (step cfg w (.rx c2 (some m2) e2)).log = .concl w.nextReq .forwarded :: .remote a (named m2 (senderName k2 m2)) (some w.nextReq)
      :: .rx w.nextReq c2 (some m2) :: w.log := by
  obtain ⟨hrw, now', x, hx, -, -, ha, -⟩ := meanwhile_awaits hr hA hlo hw
  obtain ⟨r, hl, hup⟩ := hw.link
  have hb : proxyByImsi w.proxy m2.imsi = some x.data := by rw [hi, byImsi_entry, hx]; rfl
  have hh : homeOf e2 w m2.imsi = a := by
    unfold homeOf
    rw [hb]
    exact ha
  have := (c40_forwarded (cfg := cfg) (e := e2) hrw hw.sound h2.toAccepted h2.on h2.known (by decide) (fun _ => ⟨_, hb⟩) (by rw [hh]; exact hz)
    (by rw [hh]; exact hl) hup henc).1
  rw [hh] at this
  exact this

end back

/-- C76: the home HLR of the subscriber has received the request that the visited HLR passed on (`c76_asks`, `c76_found_linked`, `c76_link_up`).
It sends the subscriber's data, which reach the node; the node's confirmation reaches the home HLR; and then the home HLR sends the
result, which reaches the node - whatever else happens at the two HLRs in the meantime, as long as nothing disturbs the location
update. -/
theorem c76_served_partial {v : Sys} (hr : Reach v) {m : Msg} {cs : Bool} {a : Addr} (hz : a.nonzero = true) {n : Bytes} {lo now : Int}
    (hA : Awaits v m.imsi cs a n lo now) (hlo : lo ≤ now) {c : ConnId} (hc : routeFind v.routes n = some c) (h0 : (0 : UInt8) ∈ n)
    {d : Db} (hd : Unique d) {evs : List (Cfg × Ev)} {s : Sys} (hs : s = run (init d) evs) (hu : s.ub = false)
    {cfg : Cfg} {ch : ConnId} {k : Conn} {e : Env} (h : Accepted cfg s ch k (named m n)) (hrd : Ready s ch k)
    (ht : m.typ = UPDATE_LOCATION) (hwk : Works e) (hmay : May s.db m.imsi m.isCs)
    (hb : ∀ row ∈ s.db.subs, row.imsi = m.imsi → ∃ b, cfg.bcdEnc (HlrSubscr.ofRow row).msisdn = some b)
    (henc : ∀ x, cfg.enc x = true) :
    ∃ M1, .tx ch M1 (some s.nextReq) ∈ (step cfg s (.rx ch (some (named m n)) e)).log ∧ M1.typ = INSERT_DATA ∧ M1.imsi = m.imsi
      ∧ (∃ row ∈ s.db.subs, row.imsi = m.imsi ∧ cfg.bcdEnc (HlrSubscr.ofRow row).msisdn = some M1.msisdn)
      ∧ (∀ w, Meanwhile v m.imsi cs a n lo now c w → ∀ cfg1 e1, cfg1.enc M1 = true →
          .tx c M1 none ∈ (step cfg1 w (.remoteRx a M1 e1)).log)
      ∧ (∀ w, Meanwhile v m.imsi cs a n lo now c w → ∀ cfg1 k2 m2 e2, Roams cfg1 w c k2 m2 e2 → m2.imsi = m.imsi → (∀ x, cfg1.enc x = true) →
          .remote a (named m2 (senderName k2 m2)) (some w.nextReq) ∈ (step cfg1 w (.rx c (some m2) e2)).log)
      ∧ ∀ l2 s2 cfg2 k2 m2 e2, s2 = run (step cfg s (.rx ch (some (named m n)) e)) l2 → s2.ub = false →
          (∀ p ∈ l2, ∀ c' m' e', p.2 = .rx c' (some m') e' → m'.typ = UPDATE_LOCATION → m'.imsi ≠ m.imsi) →
          isOpen s.nextReq s2.log = true → ch ∈ s2.conns.map (·.id) →
          Accepted cfg2 s2 ch k2 m2 → m2.typ = INSERT_DATA + 2 → m2.imsi = m.imsi → Local e2 m2 s2 → (∀ x, cfg2.enc x = true) →
          ∃ M2, .tx ch M2 (some s.nextReq) ∈ (step cfg2 s2 (.rx ch (some m2) e2)).log ∧ M2.typ = UPDATE_LOCATION + 2 ∧ M2.imsi = m.imsi
            ∧ ∀ w, Meanwhile v m.imsi cs a n lo now c w → ∀ cfg1 e1, cfg1.enc M2 = true →
              .tx c M2 none ∈ (step cfg1 w (.remoteRx a M2 e1)).log := by
  have hn : n ≠ [] := by intro hc; rw [hc] at h0; cases h0
  have hmay' : May s.db (named m n).imsi (named m n).isCs := hmay
  have hsrc : (named m n).src = [] ∨ (0 : UInt8) ∈ (named m n).src := .inr h0
  obtain ⟨M1, l, h1, h2, -, h4, h5, -, h7, h8, -, -⟩ := c73_data hd hs hu h hrd hsrc ht hwk hmay' hb henc
  have hdig : Digits 6 15 m.imsi := h.imsi
  refine ⟨M1, by rw [h1]; exact List.mem_append_left _ h2, h4, h5, h8, ?_, ?_, ?_⟩
  · intro w hw cfg1 e1 he
    rw [c76_back hr hA hlo hw hc hn h5 hdig h7 he e1]
    exact List.mem_cons_self
  · intro w hw cfg1 k2 m2 e2 h2 hi he
    rw [c76_confirms hr hA hlo hw h2 hi hz he]
    exact List.mem_cons_of_mem _ List.mem_cons_self
  · intro l2 s2 cfg2 k2 m2 e2 hs2 hu2 hq ho hcn ha2 ht2 hi2 hl2 henc2
    obtain ⟨M2, l, g1, g2, g3, g4, g5, -⟩ := c73_served hd hs hu h hrd hsrc ht hwk hmay' hb henc hs2 hu2 hq ho hcn ha2 ht2 hi2 hl2 henc2
    refine ⟨M2, by rw [g1]; exact List.mem_append_left _ g2, g3, g4, ?_⟩
    intro w hw cfg1 e1 he
    rw [c76_back hr hA hlo hw hc hn g4 hdig g5 he e1]
    exact List.mem_cons_self

end Verif.Sys.Props
