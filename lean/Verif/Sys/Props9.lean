import Verif.Sys.LuLast
import Verif.Sys.Origin
import Verif.Sys.Props6
import Verif.Sys.Props7
/-!
# Property theorems C73: whoever may be served is served

The other properties say that nobody gets more than they may; here: everybody gets what they may.
-/
namespace Verif.Sys.Props
open Verif Verif.Db Verif.Gsup Verif.Hlr

/-- The connection is registered under a proper name. -/
structure Ready (s : Sys) (c : ConnId) (k : Conn) : Prop where
  name : k.name.name ≠ []
  ends : (0 : UInt8) ∈ k.name.name
  route : routeFind s.routes k.name.name = some c

/-- The database works: no statement of the event fails, and the clock can be read. -/
structure Works (e : Env) : Prop where
  sc : AllOk e.sc
  sc0 : AllOk e.sc0
  clock : ∃ t, e.now = some t

/-- The subscriber is in the database and may use the domain. -/
def May (d : Db) (imsi : Bytes) (cs : Bool) : Prop :=
  ∃ row ∈ d.subs, row.imsi = imsi ∧ (if cs then row.namCs else row.namPs) = true

theorem cstr_of_name {n : IpaName} (h : (0 : UInt8) ∈ n.name) : ∃ v, n.cstr = some v := by
  have : n.val.contains 0 = true := by
    simpa using List.mem_of_mem_take h
  unfold IpaName.cstr
  rw [if_pos this]
  exact ⟨_, rfl⟩

theorem known_row {e : Env} {m : Msg} {s : Sys} (hw : AllOk e.sc0) {row : SubRow} (h : row ∈ s.db.subs) (hi : row.imsi = m.imsi) :
    known e m s = some 0 := by
  unfold known
  rw [(existsByImsi_uniform m.imsi).exec s.db hw]
  have : s.db.subs.find? (fun r => r.imsi == m.imsi) ≠ none := by
    intro hn
    have := List.find?_eq_none.1 hn row h
    simp [hi] at this
  unfold exec existsByImsi
  cases hf : s.db.subs.find? (fun r => r.imsi == m.imsi) with
  | none => exact absurd hf this
  | some r => simp [bind_run, stmt, sqlSel, hf]; rfl

/-- Creation on demand leaves a subscriber that is there alone. -/
theorem cod_there {cfg : Hlr.Cfg} {rnd : Nat → Option (Nat → UInt8)} {imsi : Bytes} {d : Db} (hU : Unique d) {row : SubRow}
    (h : row ∈ d.subs) (hi : row.imsi = imsi) (sc : Script) : (exec (createOnDemand cfg rnd imsi) d sc).2 = d := by
  have := (createOnDemand_post cfg rnd imsi d hU).exec d sc rfl
  rcases this.or with ⟨h1, -⟩ | ⟨-, m, -, h1, -⟩ | ⟨-, m, -, h1, -⟩
  · exact h1
  · exact absurd ⟨row, h, hi⟩ h1.1
  · exact absurd ⟨row, h, hi⟩ h1.1

theorem Ready.proper {s : Sys} {c : ConnId} {k : Conn} (hr : Ready s c k) {m : Msg} (h : Arrives s c k m) (e : Env) :
    Proper s (.rx c (some m) e) := by
  intro k' hk
  rw [h.conn] at hk
  cases hk
  refine ⟨?_, hr.route, ?_⟩
  · have := hr.name
    unfold IpaName.name at this
    unfold IpaName.isEmpty
    cases hl : k.name.len with
    | zero => rw [hl] at this; simp at this
    | succ n => rfl
  · rcases h.free with h | h | h
    · exact .inl h
    · right
      intro c' hc
      rw [h, hr.route] at hc
      exact (Option.some.inj hc).symm
    · exact .inr h

/-- The names of the request can be used. -/
theorem names_ok {s : Sys} {c : ConnId} {k : Conn} (hr : Ready s c k) {m : Msg} (h : Arrives s c k m)
    (h0 : m.src = [] ∨ (0 : UInt8) ∈ m.src) :
    (mkReq k s.nextReq m).source.isEmpty = false ∧ (∃ n, (mkReq k s.nextReq m).source.cstr = some n)
    ∧ ∃ via, viaName (mkReq k s.nextReq m).viaProxy = some via := by
  have hk : k.name.isEmpty = false := (hr.proper h {} k h.conn).1
  obtain ⟨pn, hpn⟩ := cstr_of_name hr.ends
  unfold mkReq
  split
  · exact ⟨hk, ⟨pn, hpn⟩, none, rfl⟩
  · rename_i hs
    have hne : m.src ≠ [] := by simpa using hs
    have hset := name_set (ipaSet_ok (n := k.name) h.src)
    have h0 : (0 : UInt8) ∈ (ipaSet k.name m.src).2.name := by
      rw [hset]
      rcases h0 with h0 | h0
      · exact absurd h0 hne
      · exact h0
    refine ⟨?_, cstr_of_name h0, ?_⟩
    · dsimp only
      unfold ipaSet
      rw [if_neg (by simpa using hne), if_neg (by have := h.src; omega)]
      unfold IpaName.isEmpty
      cases hl : m.src with
      | nil => exact absurd hl hne
      | cons x l => rfl
    · dsimp only
      split
      · exact ⟨some pn, by unfold viaName; dsimp only; rw [if_neg (by simp [hk]), hpn]; rfl⟩
      · exact ⟨none, rfl⟩

theorem routing_typ {q : Req} {m : Msg} (h : m.typ ≠ ROUTING_ERROR) : q.routing m = q.source := by
  unfold Req.routing
  split
  · rw [if_neg (fun h' => h h'.1)]
  · rfl

theorem makeResponse_rc {reply rx : Msg} {er fi : Bool} (h1 : reply.imsi = [] ∨ reply.imsi = rx.imsi) (h2 : reply.cls = 0) (h3 : reply.smRpMr = none)
    (h4 : reply.sessId = 0) : (makeResponse reply rx er fi).1 = 0 := by
  have e1 : (if reply.imsi.isEmpty then rx.imsi else reply.imsi) = rx.imsi := by
    rcases h1 with h | h
    · rw [h]; rfl
    · rw [h]; split <;> rfl
  have f1 : (fillResponse reply rx er fi).imsi = rx.imsi := e1
  have f2 : (fillResponse reply rx er fi).cls = rx.cls := by show (if reply.cls = 0 then rx.cls else reply.cls) = _; rw [if_pos h2]
  have f3 : (fillResponse reply rx er fi).smRpMr = rx.smRpMr := by
    show (if reply.smRpMr.isNone then rx.smRpMr else reply.smRpMr) = _; rw [h3]; rfl
  have f4 : (fillResponse reply rx er fi).sessId = rx.sessId := by
    show (if reply.sessId = 0 then rx.sessId else reply.sessId) = _; rw [if_pos h4]
  simp only [makeResponse, responseRc]
  simp [f1, f2, f3, f4]

/-- A response whose addressee is connected is sent. -/
theorem respond_sent {cfg : Cfg} {s : Sys} {q : Req} {reply : Msg} {er fi : Bool} {c : ConnId} (hrc : (makeResponse reply q.gsup er fi).1 = 0)
    (hr : routeFind s.routes (q.routing (makeResponse reply q.gsup er fi).2).name = some c)
    (he : cfg.enc (makeResponse reply q.gsup er fi).2 = true) :
    respond cfg s q reply er fi = (0, (if fi then (s.emit (.tx c (makeResponse reply q.gsup er fi).2 (some q.nr))).emit (.concl q.nr .answered)
      else s.emit (.tx c (makeResponse reply q.gsup er fi).2 (some q.nr)))) := by
  unfold respond
  dsimp only
  rw [if_neg (show ¬ (makeResponse reply q.gsup er fi).1 ≠ 0 by simp [hrc]), if_neg (show ¬ (makeResponse reply q.gsup er fi).1 ≠ 0 by simp [hrc])]
  unfold sendReqResponse
  rw [hr]
  dsimp only
  rw [if_pos he]

/-- How a permitted location update begins. -/
theorem lu_begins {d : Db} (hd : Unique d) {evs : List (Cfg × Ev)} {s : Sys} (hs : s = run (init d) evs) (hu : s.ub = false)
    {cfg : Cfg} {c : ConnId} {k : Conn} {m : Msg} {e : Env} (h : Accepted cfg s c k m) (hr : Ready s c k)
    (h0 : m.src = [] ∨ (0 : UInt8) ∈ m.src) (ht : m.typ = UPDATE_LOCATION) (hw : Works e)
    {row : SubRow} (hrow : row ∈ s.db.subs) (hi : row.imsi = m.imsi) (hnam : (if m.isCs then row.namCs else row.namPs) = true)
    {b : Bytes} (hb : cfg.bcdEnc (HlrSubscr.ofRow row).msisdn = some b) (henc : ∀ x, cfg.enc x = true) :
    ∃ M d2, M.typ = INSERT_DATA ∧ M.imsi = m.imsi ∧ M.msisdn = b ∧ M.cnDomain = (if m.isCs then 2 else 1) ∧ M.dst = m.src
      ∧ (step cfg s (.rx c (some m) e)).db = d2
      ∧ (∃ n via t, (mkReq k s.nextReq m).source.cstr = some n ∧ viaName (mkReq k s.nextReq m).viaProxy = some via ∧ e.now = some t
        ∧ Recorded d2 m.imsi (!m.isCs) n via t)
      ∧ (step cfg s (.rx c (some m) e)).log = .tx c M (some s.nextReq) :: .rx s.nextReq c (some m) :: s.log
      ∧ (step cfg s (.rx c (some m) e)).lus = { req := mkReq k s.nextReq m, isPs := !m.isCs, subscr := HlrSubscr.ofRow row } :: s.lus
      ∧ (step cfg s (.rx c (some m) e)).routes = routesFor s c (mkReq k s.nextReq m)
      ∧ (step cfg s (.rx c (some m) e)).ub = false
      ∧ routeFind (routesFor s c (mkReq k s.nextReq m)) (mkReq k s.nextReq m).source.name = some c := by
  have hreach : Reach s := ⟨d, evs, hs⟩
  obtain ⟨P, hi', hP⟩ := reach_done hreach
  have hP := hP hu
  subst hP
  have hU : Unique s.db := by rw [hs]; exact c01_running d hd evs
  obtain ⟨t, hnow⟩ := hw.clock
  obtain ⟨hne, ⟨n, hn⟩, via, hv⟩ := names_ok hr h.toArrives h0
  have hg := mkReq_gsup k s.nextReq m
  obtain ⟨d2, hex⟩ := (((c27_outcome cfg e (mkReq k s.nextReq m) s.db hU hw.sc hnow hn hv).2 hne).2 row
    (by rw [hg, cod_there hU hrow hi]; exact hrow) (by rw [hg]; exact hi)).2.2 (by rw [hg]; exact hnam)
  have hpost := (luStart_post cfg e (mkReq k s.nextReq m)).exec s.db e.sc trivial
  rw [hex] at hpost
  obtain ⟨-, hsub, n', via', t', h1, h2, h3, h4⟩ := hpost _ rfl
  rw [hg] at h4 hsub
  have hok : IsNew s c m (mkReq k s.nextReq m) := ⟨k, h.conn, .inr ⟨by simp [ipaSet_ok (n := k.name) h.src], rfl⟩⟩
  obtain ⟨hqc, -, -, hmem, hknown, -⟩ := known_new hi' (hr.proper h.toArrives e) hok
  have hroute : routeFind (routesFor s c (mkReq k s.nextReq m)) (mkReq k s.nextReq m).source.name = some c := by
    have := hknown.src hmem
    rw [hqc] at this
    exact this
  have himsi : strlcpy 16 m.imsi = m.imsi := strlcpy_valid (by simp [imsiValid, isNDigits_spec.2 h.imsi])
  let lu : Lu := { req := mkReq k s.nextReq m, isPs := !m.isCs, subscr := HlrSubscr.ofRow row }
  let reply : Msg := { typ := INSERT_DATA, imsi := m.imsi, msisdn := b, cnDomain := if m.isCs then 2 else 1, pdp := if m.isCs then 0 else cfg.pdpInfos }
  have hisd : isdMsg cfg lu.subscr.imsi lu.subscr.msisdn lu.isPs = some reply := by
    unfold isdMsg
    show (cfg.bcdEnc (HlrSubscr.ofRow row).msisdn).map _ = _
    rw [hb]
    show some _ = some _
    congr 1
    have : (HlrSubscr.ofRow row).imsi = m.imsi := by rw [hsub, himsi]
    show Msg.mk .. = Msg.mk ..
    simp only [lu, this, himsi]
    rcases Bool.eq_false_or_eq_true m.isCs with h | h <;> simp [h]
  let M := (makeResponse reply m false false).2
  have hMt : M.typ = INSERT_DATA := typ_set _ _ _ _ (by show INSERT_DATA ≠ 0; decide)
  refine ⟨M, d2, hMt, ?_, rfl, rfl, rfl, ?_⟩
  · show (if m.imsi.isEmpty then m.imsi else m.imsi) = m.imsi
    split <;> rfl
  have hstep := step_accepted hreach hu h e (.inr (known_row hw.sc0 hrow hi))
  have hdisp : dispatch cfg e k (mkReq k s.nextReq m) (received s c k m) = rxUpdLocReq cfg e k (mkReq k s.nextReq m) (received s c k m) := by
    unfold dispatch
    rw [hg, if_neg (by rw [ht]; decide), if_pos ht]
  rw [hdisp] at hstep
  unfold rxUpdLocReq withDb at hstep
  rw [hg] at hstep
  dsimp only at hstep
  generalize hk' : (if m.isCs = true then ({ k with supportsCs := true } : Conn) else { k with supportsPs := true }) = k' at hstep
  have hdb : (setConn (received s c k m) k').db = s.db := rfl
  rw [hdb, hex] at hstep
  dsimp only at hstep
  generalize hs1 : ({ setConn (received s c k m) k' with db := d2 } : Sys) = s1 at hstep
  have hon : luOnenter cfg s1 lu = { s1 with log := .tx c M (some s.nextReq) :: s1.log, lus := lu :: s1.lus } := by
    unfold luOnenter
    rw [hisd]
    dsimp only
    have hq : lu.req.gsup = m := hg
    have hrc : (makeResponse reply lu.req.gsup false false).1 = 0 := makeResponse_rc (.inr (by rw [hq])) rfl rfl rfl
    have hresp : respond cfg s1 lu.req reply false false = (0, s1.emit (.tx c M (some s.nextReq))) := by
      have := respond_sent (cfg := cfg) (s := s1) (q := lu.req) (reply := reply) (er := false) (fi := false) (c := c) hrc
        (by rw [hq, routing_typ (by show M.typ ≠ _; rw [hMt]; decide), ← hs1]; exact hroute) (henc _)
      rw [this, hq, show lu.req.nr = s.nextReq from mkReq_nr _ _ _]
      rfl
    rw [hresp]
    dsimp only
    rw [if_neg (by simp)]
    rfl
  have hstep : step cfg s (.rx c (some m) e) = { s1 with log := .tx c M (some s.nextReq) :: s1.log, lus := lu :: s1.lus } := by
    rw [hstep]; exact hon
  rw [hstep]
  subst hs1
  exact ⟨rfl, ⟨n', via', t', h1, h2, h3, h4⟩, rfl, rfl, rfl, hu, hroute⟩

/-- After undefined behaviour nothing is claimed any more: the model stands still. -/
theorem run_stuck {s : Sys} (h : s.ub = true) (evs : List (Cfg × Ev)) : run s evs = s := by
  induction evs with
  | nil => rfl
  | cons a l ih =>
    show run (step a.1 s a.2) l = s
    have : step a.1 s a.2 = s := by unfold step; rw [if_pos h]
    rw [this]
    exact ih

theorem run_sound {s : Sys} {evs : List (Cfg × Ev)} (h : (run s evs).ub = false) : s.ub = false := by
  cases hu : s.ub with
  | false => rfl
  | true => rw [run_stuck hu, hu] at h; cases h

/-- What was concluded, or was there before a restart, is not open. -/
theorem ended {l1 l2 : List Out} {nr : Nat} (h : GoodLog (l1 ++ l2)) {c : ConnId} {m : Option Msg} (hrx : .rx nr c m ∈ l2)
    (he : (∃ how, .concl nr how ∈ l1) ∨ .restart ∈ l1) : isOpen nr (l1 ++ l2) = false := by
  rcases he with ⟨how, he⟩ | he
  all_goals
    obtain ⟨a, b, rfl⟩ := List.append_of_mem he
    rw [List.append_assoc] at h ⊢
    exact closed_stays h (m := m) (c := c) (List.mem_cons_of_mem _ (List.mem_append_right _ hrx)) (by simp [isOpen])

theorem run_log (s : Sys) (evs : List (Cfg × Ev)) : ∃ l, (run s evs).log = l ++ s.log := by
  induction evs generalizing s with
  | nil => exact ⟨[], rfl⟩
  | cons a l ih =>
    obtain ⟨l1, h1⟩ := ih (step a.1 s a.2)
    obtain ⟨l2, h2, -⟩ := step_kfr a.1 s a.2
    exact ⟨l1 ++ l2, by rw [List.append_assoc, ← h2]; exact h1⟩

/-- A sublist that still has the last occurrence of an element has before it only what was
before it. -/
theorem before_last {α : Type} {A' B' X B : List α} {x : α} (h : (A' ++ x :: B').Sublist (X ++ x :: B)) (hx : x ∉ B) :
    A'.Sublist X := by
  obtain ⟨r1, r2, e, h1, h2⟩ := List.append_sublist_iff.1 h
  rcases List.append_eq_append_iff.1 e with ⟨a, ha', ha⟩ | ⟨a, ha, hb⟩
  · cases a with
    | nil => rw [List.append_nil] at ha'; exact ha' ▸ h1
    | cons y a =>
      rw [List.cons_append] at ha
      obtain ⟨-, rfl⟩ := List.cons.inj ha
      exact absurd (List.mem_append_right _ (h2.subset (List.mem_cons_self ..))) hx
  · exact h1.trans (ha ▸ List.sublist_append_left _ _)

/-- The procedure is the first one of its subscriber. -/
def First (lu : Lu) (s : Sys) : Prop := ∃ A B, s.lus = A ++ lu :: B ∧ ∀ x ∈ A, x.subscr.imsi ≠ lu.subscr.imsi

/-- As long as nothing ends a location update and no other one is begun for the subscriber,
it is the one that goes on. -/
theorem first_stays {d : Db} {evs : List (Cfg × Ev)} {s : Sys} (hs : s = run (init d) evs) {lu : Lu} (hf : First lu s)
    (e2 : List (Cfg × Ev)) (hq : ∀ p ∈ e2, ∀ c m e, p.2 = .rx c (some m) e → m.typ = UPDATE_LOCATION → m.imsi ≠ lu.subscr.imsi)
    (hu : (run s e2).ub = false) (ho : isOpen lu.req.nr (run s e2).log = true) : First lu (run s e2) := by
  subst hs
  induction e2 using evs_snoc with
  | nil => exact hf
  | snoc e2 p ih =>
    rw [run_append] at hu ho ⊢
    have hu1 := run_sound hu
    change (step p.1 (run (run (init d) evs) e2) p.2).ub = false at hu
    change isOpen lu.req.nr (step p.1 (run (run (init d) evs) e2) p.2).log = true at ho
    show First lu (step p.1 (run (run (init d) evs) e2) p.2)
    have hreach : Reach (run (run (init d) evs) e2) := ⟨d, evs ++ e2, (run_append _ _ _).symm⟩
    have hreach' := hreach.step p.1 p.2
    obtain ⟨l, hl, ⟨n, hn, hΦ⟩, hk⟩ := step_kfr p.1 (run (run (init d) evs) e2) p.2
    obtain ⟨hnd, hop, -⟩ := c28_no_orphans hreach hu1
    have hmem0 : lu ∈ (run (init d) evs).lus := by
      obtain ⟨A, B, h, -⟩ := hf
      rw [h]; simp
    have hrx0 : .rx lu.req.nr lu.req.conn (some lu.req.gsup) ∈ (run (init d) evs).log :=
      ((c28_no_orphans ⟨d, evs, rfl⟩ (run_sound hu1)).2.1 lu hmem0).2.2
    obtain ⟨l0, hl0⟩ := run_log (run (init d) evs) e2
    have hrx : .rx lu.req.nr lu.req.conn (some lu.req.gsup) ∈ (run (run (init d) evs) e2).log := by
      rw [hl0]; exact List.mem_append_right _ hrx0
    have hfi := ih (fun p' hp => hq p' (List.mem_append_left _ hp)) hu1 (by
      cases hc : isOpen lu.req.nr (run (run (init d) evs) e2).log with
      | true => rfl
      | false =>
        rw [hl, closed_stays (hl ▸ reach_good hreach') hrx hc] at ho
        cases ho)
    obtain ⟨A, B, hAB, hA⟩ := hfi
    have hin : lu ∈ (step p.1 (run (run (init d) evs) e2) p.2).lus := by
      rcases hk lu (by rw [hAB]; simp) with h | h
      · exact h
      · rw [hl, ended (hl ▸ reach_good hreach') hrx h] at ho
        cases ho
    obtain ⟨A', B', hAB'⟩ := List.append_of_mem hin
    have hB : lu ∉ B := by
      rw [hAB] at hnd
      intro hb
      rw [List.map_append, List.map_cons] at hnd
      exact (List.nodup_cons.1 (List.nodup_append.1 hnd).2.1).1 (List.mem_map_of_mem hb)
    rw [hAB', hAB, ← List.append_assoc] at hn
    have hsub := before_last hn hB
    refine ⟨A', B', hAB', fun x hx => ?_⟩
    rcases List.mem_append.1 (hsub.subset hx) with h | h
    · obtain ⟨c, e, he, ht⟩ := hΦ x h
      have hx' : x ∈ (run (init d) ((evs ++ e2) ++ [p])).lus := by
        rw [run_append, run_append]
        show x ∈ (step p.1 (run (run (init d) evs) e2) p.2).lus
        rw [hAB']; exact List.mem_append_left _ hx
      obtain ⟨-, -, -, -, -, -, -, -, -, hi, -⟩ := c27_waiting d _ hx'
      rw [hi]
      exact hq p (by simp) _ _ _ he ht
    · exact hA x h

theorem First.find {lu : Lu} {s : Sys} (h : First lu s) {i : Bytes} (hi : lu.subscr.imsi = i) :
    s.lus.find? (fun x => x.subscr.imsi == i) = some lu := by
  obtain ⟨A, B, h, hA⟩ := h
  subst hi
  rw [h, List.find?_append, List.find?_eq_none.2 (by simpa using hA)]
  simp

/-- A location update for a subscriber who may be served is taken up: the peer that asked
gets the subscriber's number, for the domain it asked for, with its request's address, and
the location is recorded; the request stays open. -/
theorem c73_data {d : Db} (hd : Unique d) {evs : List (Cfg × Ev)} {s : Sys} (hs : s = run (init d) evs) (hu : s.ub = false)
    {cfg : Cfg} {c : ConnId} {k : Conn} {m : Msg} {e : Env} (h : Accepted cfg s c k m) (hr : Ready s c k)
    (h0 : m.src = [] ∨ (0 : UInt8) ∈ m.src) (ht : m.typ = UPDATE_LOCATION) (hw : Works e) (hmay : May s.db m.imsi m.isCs)
    (hb : ∀ row ∈ s.db.subs, row.imsi = m.imsi → ∃ b, cfg.bcdEnc (HlrSubscr.ofRow row).msisdn = some b)
    (henc : ∀ x, cfg.enc x = true) :
    ∃ M l, (step cfg s (.rx c (some m) e)).log = l ++ s.log ∧ .tx c M (some s.nextReq) ∈ l
      ∧ isOpen s.nextReq (step cfg s (.rx c (some m) e)).log = true
      ∧ M.typ = INSERT_DATA ∧ M.imsi = m.imsi ∧ M.cnDomain = (if m.isCs then 2 else 1) ∧ M.dst = m.src
      ∧ (∃ row ∈ s.db.subs, row.imsi = m.imsi ∧ cfg.bcdEnc (HlrSubscr.ofRow row).msisdn = some M.msisdn)
      ∧ (∃ n via t, (mkReq k s.nextReq m).source.cstr = some n ∧ viaName (mkReq k s.nextReq m).viaProxy = some via ∧ e.now = some t
        ∧ Recorded (step cfg s (.rx c (some m) e)).db m.imsi (!m.isCs) n via t)
      ∧ (step cfg s (.rx c (some m) e)).ub = false := by
  obtain ⟨row, hrow, hi, hnam⟩ := hmay
  obtain ⟨b, hb⟩ := hb row hrow hi
  obtain ⟨M, d2, h1, h2, h3, h4, h5, h6, h7, h8, -, -, h9, -⟩ := lu_begins hd hs hu h hr h0 ht hw hrow hi hnam hb henc
  refine ⟨M, [.tx c M (some s.nextReq), .rx s.nextReq c (some m)], h8, by simp, by rw [h8]; simp [isOpen], h1, h2, h4, h5,
    ⟨row, hrow, hi, by rw [h3]; exact hb⟩, h6 ▸ h7, h9⟩

/-- And once the peer has taken the data, the location update is confirmed to it, whatever
else has happened in between, if the request is still open (it has not timed out, and the
HLR was not restarted), the peer is still connected and no other location update was begun
for the subscriber. -/
theorem c73_served {d : Db} (hd : Unique d) {evs : List (Cfg × Ev)} {s : Sys} (hs : s = run (init d) evs) (hu : s.ub = false)
    {cfg : Cfg} {c : ConnId} {k : Conn} {m : Msg} {e : Env} (h : Accepted cfg s c k m) (hr : Ready s c k)
    (h0 : m.src = [] ∨ (0 : UInt8) ∈ m.src) (ht : m.typ = UPDATE_LOCATION) (hw : Works e) (hmay : May s.db m.imsi m.isCs)
    (hb : ∀ row ∈ s.db.subs, row.imsi = m.imsi → ∃ b, cfg.bcdEnc (HlrSubscr.ofRow row).msisdn = some b)
    (henc : ∀ x, cfg.enc x = true)
    {e2 : List (Cfg × Ev)} {s2 : Sys} (hs2 : s2 = run (step cfg s (.rx c (some m) e)) e2) (hu2 : s2.ub = false)
    (hquiet : ∀ p ∈ e2, ∀ c' m' e', p.2 = .rx c' (some m') e' → m'.typ = UPDATE_LOCATION → m'.imsi ≠ m.imsi)
    (hopen : isOpen s.nextReq s2.log = true) (hconn : c ∈ s2.conns.map (·.id))
    {cfg2 : Cfg} {c2 : ConnId} {k2 : Conn} {m2 : Msg} {env2 : Env} (h2 : Accepted cfg2 s2 c2 k2 m2) (ht2 : m2.typ = INSERT_DATA + 2)
    (hi2 : m2.imsi = m.imsi) (hl2 : Local env2 m2 s2) (henc2 : ∀ x, cfg2.enc x = true) :
    ∃ M l, (step cfg2 s2 (.rx c2 (some m2) env2)).log = l ++ s2.log ∧ .tx c M (some s.nextReq) ∈ l
      ∧ M.typ = UPDATE_LOCATION + 2 ∧ M.imsi = m.imsi ∧ M.dst = m.src
      ∧ .concl s.nextReq .answered ∈ l := by
  obtain ⟨row, hrow, hi, hnam⟩ := hmay
  obtain ⟨b, hb⟩ := hb row hrow hi
  obtain ⟨-, -, -, -, -, -, -, -, -, -, hlus, hroutes, -, hroute⟩ := lu_begins hd hs hu h hr h0 ht hw hrow hi hnam hb henc
  have hs1 : step cfg s (.rx c (some m) e) = run (init d) (evs ++ [(cfg, .rx c (some m) e)]) := by
    rw [run_append, ← hs]; rfl
  generalize step cfg s (.rx c (some m) e) = s1 at hs2 hlus hroutes hs1
  have hreach1 : Reach s1 := ⟨d, _, hs1⟩
  have hreach2 : Reach s2 := ⟨d, (evs ++ [(cfg, .rx c (some m) e)]) ++ e2, by rw [run_append, ← hs1]; exact hs2⟩
  have hg := mkReq_gsup k s.nextReq m
  have hn := mkReq_nr k s.nextReq m
  have hlimsi : (HlrSubscr.ofRow row).imsi = m.imsi := by
    have := c27_waiting d (evs ++ [(cfg, .rx c (some m) e)])
      (lu := { req := mkReq k s.nextReq m, isPs := !m.isCs, subscr := HlrSubscr.ofRow row }) (by rw [← hs1, hlus]; simp)
    obtain ⟨-, -, -, -, -, -, -, -, -, hi, -⟩ := this
    dsimp only at hi
    rw [hg] at hi
    exact hi
  generalize hlu : ({ req := mkReq k s.nextReq m, isPs := !m.isCs, subscr := HlrSubscr.ofRow row } : Lu) = lu at hlus
  have hlui : lu.subscr.imsi = m.imsi := by rw [← hlu]; exact hlimsi
  have hlureq : lu.req = mkReq k s.nextReq m := by rw [← hlu]
  have hfirst : First lu s2 := by
    rw [hs2]
    refine first_stays hs1 ⟨[], s.lus, hlus, by simp⟩ e2 (by rw [hlui]; exact hquiet) (hs2 ▸ hu2) ?_
    rw [hlureq, hn, ← hs2]
    exact hopen
  have hr2 : routeFind s2.routes (mkReq k s.nextReq m).source.name = some c := by
    rcases run_stays e2 (reach_done hreach1) (a := (mkReq k s.nextReq m).source.name) (c := c) (by rw [hroutes]; exact hroute) with h | h
    · rw [hs2]; exact h
    · exact absurd (hs2 ▸ hconn) h
  have hstep := step_accepted hreach2 hu2 h2 env2 hl2
  have hg2 := mkReq_gsup k2 s2.nextReq m2
  have hdisp : dispatch cfg2 env2 k2 (mkReq k2 s2.nextReq m2) (received s2 c2 k2 m2) = luRxGsup cfg2 (mkReq k2 s2.nextReq m2) (received s2 c2 k2 m2) := by
    unfold dispatch
    rw [hg2, ht2]
    simp [INSERT_DATA, SEND_AUTH_INFO, UPDATE_LOCATION, PURGE_MS, DELETE_DATA, PROC_SS]
  rw [hdisp] at hstep
  unfold luRxGsup at hstep
  rw [hg2] at hstep
  have hfind : (received s2 c2 k2 m2).lus.find? (fun x => x.subscr.imsi == m2.imsi) = some lu := hfirst.find (by rw [hlui, hi2])
  rw [hfind] at hstep
  dsimp only at hstep
  rw [if_pos ht2] at hstep
  unfold respondMsgt at hstep
  have hq : lu.req.gsup = m := by rw [hlureq]; exact hg
  have hMt : (makeResponse { typ := UPDATE_LOCATION + 2 } lu.req.gsup ((UPDATE_LOCATION + 2) % 4 == 1) true).2.typ = UPDATE_LOCATION + 2 :=
    typ_set _ _ _ _ (by show UPDATE_LOCATION + 2 ≠ 0; decide)
  have hsent := respond_sent (cfg := cfg2) (s := reqFree (received s2 c2 k2 m2) (mkReq k2 s2.nextReq m2) .dropped) (q := lu.req)
    (reply := { typ := UPDATE_LOCATION + 2 }) (er := (UPDATE_LOCATION + 2) % 4 == 1) (fi := true) (c := c)
    (makeResponse_rc (.inl rfl) rfl rfl rfl)
    (by
      rw [routing_typ (by rw [hMt]; decide), hlureq]
      show routeFind (routesFor s2 c2 (mkReq k2 s2.nextReq m2)) _ = _
      unfold routesFor
      split
      · exact hr2
      · exact routeFind_add hr2)
    (henc2 _)
  rw [hsent, if_pos rfl] at hstep
  have hlog := congrArg Sys.log hstep
  have hnr : lu.req.nr = s.nextReq := by rw [hlureq]; exact hn
  rw [hnr] at hlog
  refine ⟨_, [_, _, _, _], hlog, List.mem_cons_of_mem _ (List.mem_cons_self ..), hMt, ?_, ?_, List.mem_cons_self ..⟩
  · show (if List.isEmpty ([] : Bytes) then lu.req.gsup.imsi else []) = m.imsi
    rw [hq]; rfl
  · show lu.req.gsup.src = m.src
    rw [hq]

theorem find_put {l : List Conn} {c : ConnId} {k k' : Conn} (h : l.find? (·.id == c) = some k) (hk : k'.id = c) :
    (l.map (fun y => if y.id == c then k' else y)).find? (·.id == c) = some k' := by
  induction l with
  | nil => cases h
  | cons a l ih =>
    rw [List.map_cons]
    by_cases ha : (a.id == c) = true
    · rw [if_pos ha, List.find?_cons_of_pos (p := fun x : Conn => x.id == c) (by simpa using hk)]
    · rw [if_neg ha, List.find?_cons_of_neg (p := fun x : Conn => x.id == c) ha]
      rw [List.find?_cons_of_neg (p := fun x : Conn => x.id == c) ha] at h
      exact ih h

/-- A node that has identified itself by a proper name that no other node has is ready. -/
theorem c73_identified {s : Sys} (hreach : Reach s) (hu : s.ub = false) (cfg : Cfg) {c : ConnId} {k : Conn} (hk : s.conn? c = some k) {n : Bytes} (hn : n ≠ [])
    (h0 : (0 : UInt8) ∈ n) (hl : n.length ≤ 128) (hf : ∀ c', routeFind s.routes n = some c' → c' = c) :
    ∃ k', (step cfg s (.ccm c (some n))).conn? c = some k' ∧ k'.name.name = n ∧ Ready (step cfg s (.ccm c (some n))) c k'
      ∧ (step cfg s (.ccm c (some n))).ub = false := by
  have hid : k.id = c := by
    have := List.find?_some hk
    simpa using this
  obtain ⟨x, l, rfl⟩ : ∃ x l, n = x :: l := by
    cases n with
    | nil => exact absurd rfl hn
    | cons x l => exact ⟨x, l, rfl⟩
  have hname : (ipaSet k.name (x :: l)).2.name = x :: l := name_set (ipaSet_ok hl)
  have hstep : step cfg s (.ccm c (some (x :: l))) = ccmCb s k (some (x :: l)) := by
    unfold step
    rw [if_neg (by simp [hu])]
    dsimp only
    rw [hk]
  rw [hstep]
  refine ⟨{ k with name := (ipaSet k.name (x :: l)).2, ccm := some (x :: l) }, ?_, hname, ⟨?_, ?_, ?_⟩, hu⟩
  · show (s.conns.map (fun y => if y.id == k.id then _ else y)).find? (·.id == c) = _
    rw [hid]
    exact find_put hk rfl
  · rw [hname]; exact hn
  · rw [hname]; exact h0
  · show routeFind (routeAdd s.routes k.id (ipaSet k.name (x :: l)).2.name).2 (ipaSet k.name (x :: l)).2.name = some c
    rw [hname, hid]
    exact routeFind_routeAdd hf

/-! ## Examples -/

/-- MSC-1 after it identified itself. -/
def exConn1 : Conn := { id := 1, name := { len := 6, val := msc1 ++ List.replicate 122 0 }, ccm := some msc1 }

theorem ex_ready : Ready (runWith exCfg (init {}) exTwo) 1 exConn1 :=
  ⟨by decide +kernel, by decide +kernel, by decide +kernel⟩

theorem ex_works : Works {} := ⟨by simp [AllOk], by simp [AllOk], ⟨_, rfl⟩⟩

theorem ex_may : May (runWith exCfg (init {}) exTwo).db imsi1 true := by
  have : ((runWith exCfg (init {}) exTwo).db.subs.any fun r => r.imsi == imsi1 && r.namCs) = true := by decide +kernel
  obtain ⟨r, h1, h2⟩ := List.any_eq_true.1 this
  rw [Bool.and_eq_true] at h2
  exact ⟨r, h1, by simpa using h2.1, h2.2⟩

theorem ex_accepted {evs : List Ev} {m : Msg} (h : (runWith exCfg (init {}) evs).conn? 1 = some exConn1) (h1 : m.src = []) (h2 : m.dst = []) (h3 : m.imsi = imsi1) :
    Accepted exCfg (runWith exCfg (init {}) evs) 1 exConn1 m :=
  ⟨⟨h, by rw [h1]; decide, by rw [h3]; exact isNDigits_spec.1 (by decide +kernel), .inl h1⟩, .inl h2⟩

/-- MSC-2 purges the subscriber during the location update of MSC-1. -/
def exBetween : List (Cfg × Ev) := [(exCfg, .rx 2 (some purgeMsg) {})]

/-- The hypotheses of `c73_data` and `c73_served` are met by that location update. -/
example (s s2 : Sys) (hs : s = runWith exCfg (init {}) exTwo) (hs2 : s2 = run (step exCfg s (.rx 1 (some ulMsg) {})) exBetween) :
    ∃ M l, (step exCfg s2 (.rx 1 (some ackMsg) {})).log = l ++ s2.log
    ∧ .tx 1 M (some s.nextReq) ∈ l ∧ M.typ = UPDATE_LOCATION + 2 ∧ M.imsi = ulMsg.imsi ∧ M.dst = ulMsg.src ∧ .concl s.nextReq .answered ∈ l := by
  have hsr : s = run (init {}) (exTwo.map fun ev => (exCfg, ev)) := hs
  have h2 : s2 = run (step exCfg (runWith exCfg (init {}) exTwo) (.rx 1 (some ulMsg) {})) exBetween := hs ▸ hs2
  refine c73_served Db.Props.unique_empty hsr (by rw [hs]; decide +kernel) (k := exConn1)
    (by rw [hs]; exact ex_accepted (by decide +kernel) rfl rfl rfl) (by rw [hs]; exact ex_ready) (.inl rfl) rfl ex_works
    (by rw [hs]; exact ex_may) (fun _ _ _ => ⟨_, rfl⟩) (fun _ => rfl)
    hs2 (by rw [h2]; decide +kernel)
    (by
      intro p hp c' m' e' he ht
      unfold exBetween at hp
      simp only [List.mem_singleton] at hp
      subst hp
      cases he
      cases ht)
    (by rw [h2, hs]; decide +kernel) (by rw [h2]; decide +kernel) (k2 := { exConn1 with supportsCs := true })
    ⟨⟨by rw [h2]; decide +kernel, by decide, isNDigits_spec.1 (by decide +kernel), .inl rfl⟩, .inl rfl⟩ rfl rfl (.inl rfl) (fun _ => rfl)

end Verif.Sys.Props
