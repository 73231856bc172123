import Verif.Euse.Model
import Verif.Sys.Props4
import Verif.Sys.Props9
/-!
# C75: a USSD request is answered by the application

The HLR of `Verif.Sys` with the sample application of `Verif.Euse.Model` behind it.
-/
namespace Verif.Euse.Props
open Verif Verif.Gsup Verif.Sys Verif.Sys.Props

/-! ## The application alone -/

/-- `A` is an answer to `m`: a Result that ends the session of `m`. -/
structure Answers (A m : Msg) : Prop where
  typ : A.typ = PROC_SS + 2
  imsi : A.imsi = m.imsi
  sessId : A.sessId = m.sessId
  ends : A.sessState = .end_

/-- The message of the application in reply to `m`, with the given contents. -/
def reply (m : Msg) (info : Bytes) : Msg where
  typ := PROC_SS + 2
  imsi := m.imsi
  sessId := m.sessId
  sessState := .end_
  ssInfo := info

theorem reply_answers (m : Msg) (info : Bytes) : Answers (reply m info) m := ⟨rfl, rfl, rfl, rfl⟩

theorem txSs_result (L : Lib) (henc : ∀ x, L.enc x = true) (m : Msg) (info : Bytes) :
    txSs L m.imsi m.sessId (PROC_SS + 2) true (some info) = [.msg (reply m info)] := by
  unfold txSs
  rw [if_pos (by decide)]
  dsimp only
  rw [henc]
  rfl

/-- Each supplementary service message, request or result, of whatever contents, is answered with exactly one
message, which ends the session; to anything else nothing is said. -/
theorem c75_one_answer (L : Lib) (henc : ∀ x, L.enc x = true) (m : Msg) :
    (IsSs m.typ → ∃ A, (readCb L (some m)).sent = [.msg A] ∧ Answers A m)
    ∧ (¬ IsSs m.typ → (readCb L (some m)).sent = []) := by
  constructor
  · intro h
    have h1 : (readCb L (some m)).sent = rxProcSsReq L m := by
      exact congrArg Out.sent (if_pos h)
    rw [h1]
    unfold rxProcSsReq txReject txResp
    split
    · exact ⟨_, txSs_result L henc m _, reply_answers _ _⟩
    · split
      · exact ⟨_, txSs_result L henc m _, reply_answers _ _⟩
      · exact ⟨_, txSs_result L henc m _, reply_answers _ _⟩
  · intro h
    exact congrArg Out.sent (if_neg h)

/-- The contents: what was sent, if it begins a session and can be read; otherwise a
rejection. -/
theorem c75_contents (L : Lib) (henc : ∀ x, L.enc x = true) {m : Msg} (h : IsSs m.typ) :
    (∀ inv t, m.ssInfo ≠ [] → L.parse m.ssInfo = some (inv, t) → m.sessState = .begin →
      (readCb L (some m)).sent = [.msg (reply m (L.text inv (answer t)))])
    ∧ (∀ inv t, m.ssInfo ≠ [] → L.parse m.ssInfo = some (inv, t) → m.sessState ≠ .begin →
      (readCb L (some m)).sent = [.msg (reply m (L.reject inv 0x80 0))])
    ∧ (m.ssInfo ≠ [] → L.parse m.ssInfo = none → (readCb L (some m)).sent = [.msg (reply m (L.reject (-1) 0x80 2))]) := by
  have h1 : (readCb L (some m)).sent = rxProcSsReq L m := by
    exact congrArg Out.sent (if_pos h)
  rw [h1]
  unfold rxProcSsReq
  refine ⟨fun inv t hn hp hs => ?_, fun inv t hn hp hs => ?_, fun hn hp => ?_⟩
  · rw [if_neg (by simpa using hn), hp]
    dsimp only
    rw [if_neg (by simp [hs])]
    exact txSs_result L henc m _
  · rw [if_neg (by simpa using hn), hp]
    dsimp only
    rw [if_pos hs]
    exact txSs_result L henc m _
  · rw [if_neg (by simpa using hn), hp]
    exact txSs_result L henc m _

/-- The answer quotes the text, in full if it has at most 171 characters; it is never longer
than a USSD string. -/
theorem c75_quotes (t : Bytes) : (answer t).length ≤ 182
    ∧ (t.length ≤ 171 → answer t = b "You sent \"" ++ t ++ b "\"")
    ∧ (171 < t.length → answer t = b "You sent \"" ++ t.take 172) := by
  have h1 : (b "You sent \"").length = 10 := by decide
  have h2 : (b "\"").length = 1 := by decide
  unfold answer
  refine ⟨?_, fun h => ?_, fun h => ?_⟩
  · rw [List.length_take]; exact Nat.min_le_left _ _
  · exact List.take_of_length_le (by rw [List.length_append, List.length_append, h1, h2]; show _ ≤ 182; omega)
  · rw [List.append_assoc, List.take_append, List.take_of_length_le (by rw [h1]; decide), h1, List.take_append,
      show 182 - 10 - t.length = 0 by omega]
    simp [USSD_7BIT_STRING_LEN]

/-! ## With the HLR -/

/-- The HLR passes an END message of an external node on to the subscriber's node, as a response
to its first request, and ends the session. -/
theorem end_from_external {cfg : Cfg} {s : Sys} (hr : Reach s) (hu : s.ub = false) {c : ConnId} {k : Conn} {m : Msg}
    (h : Accepted cfg s c k m) (e : Env) (hloc : Local e m s) (henc : ∀ m, cfg.enc m = true)
    (hm : IsSs m.typ) {r : SsReq} (hi : m.ssInfo ≠ []) (hp : cfg.parseSs m.ssInfo = some r)
    (ho : opIsUssd r.opcode = true) (hms : nameIsEuse (mkReq k s.nextReq m).source = true)
    (hc : m.sessState = .end_) {x : Sess} (hx : x ∈ s.sess) (hxi : x.imsi = m.imsi)
    (hxd : x.id = m.sessId) (hxu : x.u ≠ .null) {q : Req} (hq : x.reqMs = some q) (hq' : x.reqEuse = none)
    (h1 : m.cls = 0 ∨ m.cls = q.gsup.cls) (h2 : m.smRpMr = none ∨ m.smRpMr = q.gsup.smRpMr) :
    ∃ M, (step cfg s (.rx c (some m) e)).log = .concl s.nextReq .dropped :: .concl q.nr .session :: (toMs (received s c k m) q M
        ++ (received s c k m).log)
      ∧ M.typ = m.typ ∧ M.imsi = m.imsi ∧ M.sessId = m.sessId ∧ M.sessState = .end_ ∧ M.ssInfo = m.ssInfo
      ∧ (m.dst = [] → M.dst = q.gsup.src)
      ∧ (∀ y, y ∈ (step cfg s (.rx c (some m) e)).sess ↔ y ∈ s.sess ∧ ¬ (y.imsi = m.imsi ∧ y.id = m.sessId))
      ∧ (step cfg s (.rx c (some m) e)).ub = false := by
  have hf : ssFind (received s c k m) m.imsi m.sessId = some x := by
    cases hc : ssFind (received s c k m) m.imsi m.sessId with
    | none =>
      have := List.find?_eq_none.1 hc x hx
      simp [hxi, hxd] at this
    | some y =>
      obtain ⟨h1, h2, h3⟩ := ssFind_some hc
      rw [c34_unique hr h1 hx (h2.trans hxi.symm) (h3.trans hxd.symm)]
  have hie : ¬ m.ssInfo.isEmpty = true := by simpa using hi
  obtain ⟨-, hqi, hqd⟩ := reach_sessReq hr x hx q (by simp [Sess.reqs, hq])
  have hqi : q.gsup.imsi = m.imsi := hqi.trans hxi
  have hqd : q.gsup.sessId = m.sessId := hqd.trans hxd
  have hfr : (respond cfg (received s c k m) q m false false).2
      = { received s c k m with log := (respond cfg (received s c k m) q m false false).2.log } := respond_frame ..
  have hs2 : step cfg s (.rx c (some m) e)
      = reqFree (ssFree (respond cfg (received s c k m) q m false false).2 x) (mkReq k s.nextReq m) .dropped := by
    rw [step_ss hr hu h hm e hloc]
    unfold rxProcSs
    dsimp only
    rw [mkReq_gsup, if_neg (fun hc => hie hc.1), if_neg hie, hp, hc]
    dsimp only
    rw [hf, hms]
    dsimp only
    rw [if_neg hie]
    unfold handleSsAny
    rw [if_pos ho]
    have hf2 : ssFind (respond cfg (received s c k m) q m false false).2 m.imsi m.sessId = some x := by
      rw [hfr]; exact hf
    unfold handleUssd
    cases hxu' : x.u with
    | null => exact absurd hxu' hxu
    | euse n =>
      dsimp only; rw [if_pos rfl]; unfold ssSendToMs; rw [hq]; dsimp only
      rw [hf2, if_neg (by simp)]
    | iuse i =>
      dsimp only; rw [if_pos rfl]; unfold ssSendToMs; rw [hq]; dsimp only
      rw [hf2, if_neg (by simp)]
  have htyp : m.typ ≠ 0 ∧ m.typ ≠ ROUTING_ERROR := by
    rcases hm with h | h <;> rw [h] <;> decide
  have hl : (respond cfg (received s c k m) q m false false).2.log
      = toMs (received s c k m) q (makeResponse m q.gsup false false).2 ++ (received s c k m).log := by
    rw [c22_response_sent]
    have hrc : (makeResponse m q.gsup false false).1 = 0 := by
      show responseRc (fillResponse m q.gsup false false) q.gsup = 0
      have e1 : (fillResponse m q.gsup false false).imsi = q.gsup.imsi := by
        simp only [fillResponse]; split
        · rfl
        · exact hqi.symm
      have e2 : (fillResponse m q.gsup false false).cls = q.gsup.cls := by
        simp only [fillResponse]; split
        · rfl
        · exact h1.resolve_left (by assumption)
      have e3 : (fillResponse m q.gsup false false).smRpMr = q.gsup.smRpMr := by
        simp only [fillResponse]
        rcases h2 with h2 | h2
        · rw [h2]; rfl
        · rw [h2]; split <;> rfl
      have e4 : (fillResponse m q.gsup false false).sessId = q.gsup.sessId := by
        simp only [fillResponse]; split
        · rfl
        · exact hqd.symm
      simp [responseRc, e1, e2, e3, e4]
    have hrt : q.routing (makeResponse m q.gsup false false).2 = q.source := by
      have : (makeResponse m q.gsup false false).2.typ = m.typ := by
        simp [makeResponse, fillResponse, htyp.1]
      unfold Req.routing
      split
      · rw [if_neg (fun h => by rw [this] at h; exact htyp.2 h.1)]
      · rfl
    rw [hrc, henc, hrt]
    unfold toMs
    cases routeFind (received s c k m).routes q.source.name <;> simp
  have hreqs : x.reqs = [q] := by simp [Sess.reqs, hq, hq']
  refine ⟨(makeResponse m q.gsup false false).2, ?_, ?_, ?_, ?_, ?_, rfl, ?_, ?_, ?_⟩
  · rw [hs2]
    show .concl _ _ :: (ssFree _ x).log = _
    rw [mkReq_nr, ssFree_log, hreqs, hl]
    rfl
  · simp [makeResponse, fillResponse, htyp.1]
  · simp only [makeResponse, fillResponse]; split
    · exact hqi
    · rfl
  · simp only [makeResponse, fillResponse]; split
    · exact hqd
    · rfl
  · simp [makeResponse, fillResponse, hc]
  · intro hd
    simp only [makeResponse, fillResponse]
    rw [hd]; rfl
  · intro y
    rw [hs2]
    show y ∈ (ssFree _ x).sess ↔ _
    rw [ssFree_sess, List.mem_filter, hfr]
    show y ∈ s.sess ∧ _ ↔ _
    rw [hxi, hxd]
    simp only [Bool.not_eq_true', Bool.and_eq_false_iff, beq_eq_false_iff_ne, ne_eq]
    refine and_congr_right (fun _ => ⟨fun h a => h.elim (· a.1) (· a.2), fun h => ?_⟩)
    exact Decidable.not_and_iff_not_or_not.1 h
  · rw [hs2]
    show (ssFree _ x).ub = false
    rw [ssFree_ub, hfr]
    exact hu

theorem mkReq_reply (k : Conn) (nr : Nat) (m : Msg) (info : Bytes) :
    mkReq k nr (reply m info) = { nr := nr, conn := k.id, gsup := reply m info, source := k.name } :=
  if_pos (show List.isEmpty (reply m info).src = true from rfl)

theorem received_reply (s : Sys) (c : ConnId) (k : Conn) (m : Msg) (info : Bytes) : (received s c k (reply m info)).routes = s.routes := by
  show routesFor s c (mkReq k s.nextReq (reply m info)) = s.routes
  unfold routesFor
  rw [mkReq_reply]
  rfl

/-- The HLR was not restarted between `s` and `t`. -/
def NoRestart (s t : Sys) : Prop := ∀ l, t.log = l ++ s.log → .restart ∉ l

/-- A session outlasts whatever does not belong to it. -/
theorem sess_stays {s : Sys} (hr : Reach s) {x : Sess} (hx : x ∈ s.sess) (e2 : List (Cfg × Ev))
    (hq : ∀ p ∈ e2, ¬ EvFor (x.imsi, x.id) p.2) (hn : NoRestart s (run s e2)) : x ∈ (run s e2).sess := by
  induction e2 generalizing s with
  | nil => exact hx
  | cons p l ih =>
    obtain ⟨l1, h1⟩ := run_log (step p.1 s p.2) l
    obtain ⟨l2, h2, -⟩ := step_kfr p.1 s p.2
    have hall : (run s (p :: l)).log = (l1 ++ l2) ++ s.log := by
      rw [List.append_assoc, ← h2]; exact h1
    have hno := hn _ hall
    refine ih (hr.step p.1 p.2) ?_ (fun p' hp => hq p' (List.mem_cons_of_mem _ hp)) ?_
    · rcases c34_isolated (cfg := p.1) hr p.2 (hq p (List.mem_cons_self ..)) with ⟨lg, e, hm⟩ | h
      · rw [h2] at e
        rw [List.append_cancel_right e] at hno
        exact absurd (List.mem_append_right _ hm) hno
      · exact (h x rfl).2 hx
    · intro l' hl'
      have : l' = l1 := List.append_cancel_right (hl'.symm.trans h1)
      rw [this]
      exact fun hm => hno (List.mem_append_left _ hm)

/-- A subscriber's USSD request (`m`, from the node on connection `c`) for which the HLR is told to
ask the application (`n`, which is connected as `ce`): the HLR sends it to the application, the
application answers, and when the answer comes back, whatever has happened in the HLR in between
that does not belong to the session, the subscriber's node gets, as a response to its request,
what the subscriber has dialled, in quotes, with the state END; the request is concluded, and
the session is over. -/
theorem c75_answered {cfg : Cfg} {s : Sys} (hreach : Reach s) (hu : s.ub = false) {c : ConnId} {k : Conn} {m : Msg}
    (h : Accepted cfg s c k m) (hr : Ready s c k) (e : Env) (hloc : Local e m s) (henc : ∀ m, cfg.enc m = true)
    (hm : IsSs m.typ) {r : SsReq} (hi : m.ssInfo ≠ []) (hp : cfg.parseSs m.ssInfo = some r)
    (ho : opIsUssd r.opcode = true) (hms : nameIsEuse (mkReq k s.nextReq m).source = false)
    (hb : m.sessState = .begin) (hno : ∀ y ∈ s.sess, ¬ (y.imsi = m.imsi ∧ y.id = m.sessId))
    {n : Ent} (ht : RoutedTo cfg r (.external n)) (hcf : n ∈ cfg.euses) (hn : n.name.length ≤ 122)
    {ce : ConnId} (hce : routeFind (received s c k m).routes (b "EUSE-" ++ n.name ++ [0]) = some ce)
    -- the application
    {L : Lib} (hLenc : ∀ x, L.enc x = true) {t : Bytes} (hL : L.parse m.ssInfo = some (r.invokeId, t))
    -- in between
    {e2 : List (Cfg × Ev)} {s2 : Sys} (hs2 : s2 = run (step cfg s (.rx c (some m) e)) e2) (hu2 : s2.ub = false)
    (hq : ∀ p ∈ e2, ¬ EvFor (m.imsi, m.sessId) p.2) (hnr : NoRestart (step cfg s (.rx c (some m) e)) s2)
    (hconn : c ∈ s2.conns.map (·.id))
    -- the answer comes in
    {cfg2 : Cfg} {ke : Conn} (hke : s2.conn? ce = some ke) (hname : ke.name.name = b "EUSE-" ++ n.name ++ [0])
    (henc2 : ∀ m, cfg2.enc m = true) (hne : L.text r.invokeId (answer t) ≠ []) {r2 : SsReq}
    (hp2 : cfg2.parseSs (L.text r.invokeId (answer t)) = some r2) (ho2 : opIsUssd r2.opcode = true) {env2 : Env} :
    (step cfg s (.rx c (some m) e)).log = .tx ce m none :: .rx s.nextReq c (some m) :: s.log
    ∧ ∃ A, (readCb L (some m)).sent = [.msg A]
      ∧ (Local env2 A s2 →
        ∃ M, (step cfg2 s2 (.rx ce (some A) env2)).log = .concl s2.nextReq .dropped :: .concl s.nextReq .session
            :: .tx c M (some s.nextReq) :: .rx s2.nextReq ce (some A) :: s2.log
          ∧ M.typ = PROC_SS + 2 ∧ M.imsi = m.imsi ∧ M.sessId = m.sessId ∧ M.sessState = .end_ ∧ M.dst = m.src
          ∧ M.ssInfo = L.text r.invokeId (answer t)
          ∧ (∀ y, y ∈ (step cfg2 s2 (.rx ce (some A) env2)).sess ↔ y ∈ s2.sess ∧ ¬ (y.imsi = m.imsi ∧ y.id = m.sessId))
          ∧ (step cfg2 s2 (.rx ce (some A) env2)).ub = false) := by
  have hs1 := (c35_external hreach hu h e hloc henc hm hi hp ho hms hb hno ht hcf hn).1 ce hce
  have hreach1 := hreach.step cfg (.rx c (some m) e)
  refine ⟨by rw [hs1], reply m (L.text r.invokeId (answer t)), (c75_contents L hLenc hm).1 _ _ hi hL hb, fun hloc2 => ?_⟩
  obtain ⟨P, hi', hP⟩ := reach_done hreach
  have hP := hP hu
  subst hP
  have hok : IsNew s c m (mkReq k s.nextReq m) := ⟨k, h.conn, .inr ⟨by simp [ipaSet_ok (n := k.name) h.src], rfl⟩⟩
  obtain ⟨hqc, -, -, hmem, hknown, -⟩ := known_new hi' (hr.proper h.toArrives e) hok
  have hroute : routeFind (routesFor s c (mkReq k s.nextReq m)) (mkReq k s.nextReq m).source.name = some c := by
    have := hknown.src hmem
    rw [hqc] at this
    exact this
  have hr1 : routeFind (step cfg s (.rx c (some m) e)).routes (mkReq k s.nextReq m).source.name = some c := by
    rw [hs1]; exact hroute
  have hin : sessFor cfg (mkReq k s.nextReq m) (.external n) ∈ (step cfg s (.rx c (some m) e)).sess := by
    rw [hs1]; simp
  have hg := mkReq_gsup k s.nextReq m
  have hx2 : sessFor cfg (mkReq k s.nextReq m) (.external n) ∈ s2.sess := by
    rw [hs2]
    refine sess_stays hreach1 hin e2 ?_ (hs2 ▸ hnr)
    show ∀ p ∈ e2, ¬ EvFor ((mkReq k s.nextReq m).gsup.imsi, (mkReq k s.nextReq m).gsup.sessId) p.2
    rw [hg]; exact hq
  have hreach2 : Reach s2 := by
    obtain ⟨d, evs, he⟩ := hreach1
    exact ⟨d, evs ++ e2, by rw [run_append, ← he]; exact hs2⟩
  have hr2 : routeFind s2.routes (mkReq k s.nextReq m).source.name = some c := by
    rcases run_stays e2 (reach_done hreach1) hr1 with h | h
    · rw [hs2]; exact h
    · exact absurd (hs2 ▸ hconn) h
  have hacc : Accepted cfg2 s2 ce ke (reply m (L.text r.invokeId (answer t))) :=
    { conn := hke, src := by simp [reply], imsi := h.imsi, free := .inl rfl, mine := .inl rfl }
  have heu : nameIsEuse (mkReq ke s2.nextReq (reply m (L.text r.invokeId (answer t)))).source = true := by
    rw [mkReq_reply]
    have hl : (ke.name.val.take ke.name.len).length = (b "EUSE-" ++ n.name ++ [0]).length := congrArg List.length hname
    rw [List.length_take, List.length_append, List.length_append, show (b "EUSE-").length = 5 by decide] at hl
    have hlen : 5 < ke.name.len := by
      have : [(0 : UInt8)].length = 1 := rfl
      omega
    have h5 : ke.name.val.take 5 = eusePfx := by
      have : (ke.name.val.take ke.name.len).take 5 = (b "EUSE-" ++ n.name ++ [0]).take 5 := congrArg (List.take 5) hname
      rw [List.take_take, show min 5 ke.name.len = 5 by omega, List.append_assoc, List.take_append,
        show (b "EUSE-").length = 5 by decide] at this
      rw [this]
      simp [show (b "EUSE-").take 5 = eusePfx by decide]
    unfold nameIsEuse
    simp [hlen, h5]
  obtain ⟨M, e1, e2', e3, e4, e5, e6, e7, e8, e9⟩ := end_from_external hreach2 hu2 hacc env2 hloc2 henc2 (.inr rfl) hne hp2 ho2 heu rfl hx2
    (by show (mkReq k s.nextReq m).gsup.imsi = _; rw [hg]; rfl) (by show (mkReq k s.nextReq m).gsup.sessId = _; rw [hg]; rfl)
    (by simp [sessFor]) (q := mkReq k s.nextReq m) rfl rfl (.inl rfl) (.inl rfl)
  refine ⟨M, ?_, e2', e3, e4, e5, ?_, e6, e8, e9⟩
  · rw [e1, mkReq_nr]
    unfold toMs
    rw [received_reply, hr2, mkReq_nr]
    rfl
  · rw [e7 rfl, hg]

/-! ### No endless exchange -/

/-- Since the state `s` nothing was sent to `c`. -/
def Silent (c : ConnId) (s t : Sys) : Prop :=
  t.routes = s.routes ∧ ∃ l, t.log = l ++ s.log ∧ ∀ M re, .tx c M re ∉ l

theorem Silent.refl (c : ConnId) (s : Sys) : Silent c s s := ⟨rfl, [], rfl, fun _ _ h => by cases h⟩

theorem Silent.of {c : ConnId} {s t u : Sys} (h : Silent c s t) (hr : u.routes = t.routes) {l : List Sys.Out}
    (hl : u.log = l ++ t.log) (hn : ∀ M re, .tx c M re ∉ l) : Silent c s u := by
  obtain ⟨h1, l1, h2, h3⟩ := h
  refine ⟨hr.trans h1, l ++ l1, by rw [hl, h2, List.append_assoc], fun M re hm => ?_⟩
  rcases List.mem_append.1 hm with hm | hm
  · exact hn M re hm
  · exact h3 M re hm

theorem Silent.reqFree {c : ConnId} {s t : Sys} (h : Silent c s t) (q : Req) (how : How) : Silent c s (reqFree t q how) :=
  h.of (u := Sys.reqFree t q how) (l := [.concl q.nr how]) rfl rfl (by intro M re hm; simp at hm)

theorem Silent.ssFree {c : ConnId} {s t : Sys} (h : Silent c s t) (x : Sess) : Silent c s (ssFree t x) := by
  refine h.of (u := Sys.ssFree t x) (by rw [ssFree_eq]; cases x.reqMs <;> cases x.reqEuse <;> rfl) (ssFree_log t x) ?_
  intro M re hm
  simp at hm

theorem Silent.respond {c : ConnId} {s t : Sys} (h : Silent c s t) (cfg : Cfg) (q : Req) (m : Msg)
    (hq : ∀ M, routeFind s.routes (q.routing M).name ≠ some c) : Silent c s (respond cfg t q m false false).2 := by
  refine h.of (u := (Sys.respond cfg t q m false false).2) (by rw [respond_frame]) (c22_response_sent cfg t q m false false) ?_
  intro M re hm
  have hq := hq (makeResponse m q.gsup false false).2
  rw [← h.1] at hq
  revert hm
  cases hf : routeFind t.routes (q.routing (makeResponse m q.gsup false false).2).name with
  | none => simp
  | some c' =>
    rw [hf] at hq
    have hcc : c ≠ c' := fun h => hq (by rw [h])
    intro hm
    rw [if_neg (by decide)] at hm
    dsimp only [List.nil_append] at hm
    split at hm
    · simp [hcc] at hm
    · cases hm

theorem Silent.sendToMs {c : ConnId} {s t : Sys} (h : Silent c s t) (cfg : Cfg) (e : Env) {x : Sess} (m : Msg) {q : Req} (hx : x.reqMs = some q)
    (hq : ∀ M, routeFind s.routes (q.routing M).name ≠ some c) {k : Sess → Sys → Sys}
    (hk : ∀ x t, Silent c s t → Silent c s (k x t)) : Silent c s (ssSendToMs cfg e t x m k) := by
  unfold ssSendToMs
  rw [hx]
  exact hk _ _ (h.respond cfg q m hq)

theorem Silent.txErr {c : ConnId} {s t : Sys} (h : Silent c s t) (cfg : Cfg) (e : Env) {x : Sess} (inv code : Nat) {q : Req} (hx : x.reqMs = some q)
    (hq : ∀ M, routeFind s.routes (q.routing M).name ≠ some c) {k : Sess → Sys → Sys}
    (hk : ∀ x t, Silent c s t → Silent c s (k x t)) : Silent c s (ssTxErr cfg e t x inv code k) := by
  unfold ssTxErr ssTxToMs
  exact Silent.sendToMs (t := ssSet t { x with state := .end_ }) (x := { x with state := .end_ }) ⟨h.1, h.2⟩ cfg e _ hx hq hk

/-- Whatever the application answers, the HLR says nothing to it in return, so the two never go
on talking to each other; provided that the other side of the session is another node. -/
theorem c75_no_loop {cfg : Cfg} {s : Sys} (hreach : Reach s) (hu : s.ub = false) {c : ConnId} {k : Conn}
    (hk : nameIsEuse k.name = true) {m A : Msg} {L : Lib} (hA : .msg A ∈ (readCb L (some m)).sent)
    (h : Accepted cfg s c k A) (e : Env) (hloc : Local e A s)
    (hother : ∀ x ∈ s.sess, x.imsi = A.imsi → x.id = A.sessId → ∃ q, x.reqMs = some q ∧ ∀ M, routeFind s.routes (q.routing M).name ≠ some c) :
    ∃ l, (step cfg s (.rx c (some A) e)).log = l ++ .rx s.nextReq c (some A) :: s.log ∧ ∀ M re, .tx c M re ∉ l := by
  obtain ⟨info, rfl⟩ : ∃ info, A = reply m info := by
    have key : ∀ info, .msg A ∈ txSs L m.imsi m.sessId (PROC_SS + 2) true (some info) → A = reply m info := by
      intro info hA
      unfold txSs at hA
      rw [if_pos (by decide)] at hA
      change Sent.msg A ∈ (if L.enc (reply m info) = true then [Sent.msg (reply m info)] else [Sent.garbled]) at hA
      by_cases hl : L.enc (reply m info) = true
      · rw [if_pos hl] at hA
        simpa using hA
      · rw [if_neg hl] at hA
        simp at hA
    unfold readCb at hA
    dsimp only at hA
    split at hA
    · unfold rxProcSsReq txReject txResp at hA
      split at hA
      · exact ⟨_, key _ hA⟩
      · split at hA
        · exact ⟨_, key _ hA⟩
        · exact ⟨_, key _ hA⟩
    · simp at hA
  have hsrc : (mkReq k s.nextReq (reply m info)).source = k.name := by rw [mkReq_reply]
  have hroutes := received_reply s c k m info
  rw [step_ss hreach hu h (.inr rfl) e hloc]
  suffices hsil : Silent c (received s c k (reply m info)) (rxProcSs cfg e (mkReq k s.nextReq (reply m info)) (received s c k (reply m info))) by
    obtain ⟨-, l, h1, h2⟩ := hsil
    exact ⟨l, h1, h2⟩
  have h0 := Silent.refl c (received s c k (reply m info))
  have herr : ∀ ca, Silent c (received s c k (reply m info)) (respondErr cfg (received s c k (reply m info)) (mkReq k s.nextReq (reply m info)) ca) := by
    intro ca
    unfold respondErr
    rw [mkReq_gsup, if_pos (show (!isRequest (reply m info).typ) = true from (by decide : (!isRequest (PROC_SS + 2)) = true))]
    exact h0.reqFree _ _
  unfold rxProcSs
  dsimp only
  rw [mkReq_gsup, hsrc, hk]
  split
  · exact herr _
  · split
    · exact herr _
    · rename_i r hr
      rw [show (reply m info).sessState = .end_ from rfl]
      dsimp only
      split
      · exact herr _
      · rename_i x hx
        obtain ⟨h1, h2, h3⟩ := ssFind_some hx
        obtain ⟨q, hq, hqr⟩ := hother x h1 h2 h3
        rw [← hroutes] at hqr
        split
        · exact (h0.ssFree x).reqFree _ _
        · have hcont : ∀ (x : Sess) (t : Sys), Silent c (received s c k (reply m info)) t →
              Silent c (received s c k (reply m info)) (if (ssFind t (reply m info).imsi (reply m info).sessId).isNone
                then { t with ub := true } else reqFree (ssFree t x) (mkReq k s.nextReq (reply m info)) .dropped) := by
            intro x t ht
            split
            · exact ht
            · exact (ht.ssFree x).reqFree _ _
          unfold handleSsAny
          split
          · unfold handleUssd
            split
            · exact h0.txErr cfg e _ _ hq hqr hcont
            · rw [if_pos rfl]; exact h0.sendToMs cfg e _ hq hqr hcont
            · rw [if_pos rfl]; exact h0.sendToMs cfg e _ hq hqr hcont
          · exact h0.txErr cfg e _ _ hq hqr hcont

/-! ### The program's name -/

/-- Whatever its arguments, the program connects as "EUSE-foobar", or prints its usage. -/
theorem c75_name (args : List Bytes) : start args = .usage ∨ ∃ host port, start args = .client (b "EUSE-foobar") host port ∧ port < 2 ^ 16 := by
  unfold start
  split
  · exact .inr ⟨_, _, rfl, by decide⟩
  · split
    · exact .inl rfl
    · split
      · exact .inr ⟨_, _, rfl, by decide⟩
      · exact .inr ⟨_, _, rfl, Nat.mod_lt _ (by decide)⟩

/-! ## Cases, and what is not true -/

def eDemo : Ent := ⟨1, b "foobar"⟩

/-- A library in which a text is sent as it is, and a rejection is the byte 0xa4 (its tag) and the code. -/
def exLib : Lib where
  parse := fun i => if i.head? = some 0xa4 then some (0, []) else some (1, i)
  reject := fun _ _ c => [0xa4, UInt8.ofNat c]
  text := fun _ t => t
  enc := fun _ => true

/-- All codes that begin with "*#" go to the application. -/
def demoCfg : Cfg where
  crypto := Auc.Props.exCrypto
  myName := b "HLR-1"
  parseSs := fun i => if i.head? = some 0xa4 then some { opcode := 0 } else some { opcode := 0x3b, invokeId := 1, code := i }
  ssError := fun _ c => [0xa3, UInt8.ofNat c]
  ssText := fun _ t => t
  euses := [eDemo]
  ussdRoutes := [⟨b "*#", .inl eDemo⟩]

/-- Two MSCs and the application are connected. -/
def exDemo : List Ev := exTwo ++ [.connect, .ccm 3 (some (b "EUSE-foobar" ++ [0]))]

def dial : Msg := ssMsg .begin 5 (b "*#77#")

/-- The hypotheses of `c75_answered` are met: the subscriber dials, the application answers;
in between another subscriber's node comes and goes. -/
example (s : Sys) (hs : s = runWith demoCfg (init {}) exDemo) :
    (step demoCfg s (.rx 1 (some dial) {})).log = .tx 3 dial none :: .rx s.nextReq 1 (some dial) :: s.log
    ∧ ∃ A, (readCb exLib (some dial)).sent = [.msg A] ∧ A.ssInfo = b "You sent \"*#77#\"" := by
  obtain ⟨k, hk⟩ := Option.isSome_iff_exists.1 (show (s.conn? 1).isSome = true by rw [hs]; decide +kernel)
  obtain ⟨ke, hke⟩ := Option.isSome_iff_exists.1 (show ((step demoCfg s (.rx 1 (some dial) {})).conn? 3).isSome = true by rw [hs]; decide +kernel)
  have hkn : k.name.name = b "MSC-1" ++ [0] := by
    have : (s.conn? 1).map (·.name.name) = some (b "MSC-1" ++ [0]) := by rw [hs]; decide +kernel
    rw [hk] at this
    exact Option.some.inj this
  have hken : ke.name.name = b "EUSE-foobar" ++ [0] := by
    have : ((step demoCfg s (.rx 1 (some dial) {})).conn? 3).map (·.name.name) = some (b "EUSE-foobar" ++ [0]) := by rw [hs]; decide +kernel
    rw [hke] at this
    exact Option.some.inj this
  have hmk : (mkReq k s.nextReq dial).source = k.name := by
    unfold mkReq; rw [if_pos (by rfl)]
  have := c75_answered (cfg := demoCfg) (s := s) ⟨{}, exDemo.map fun ev => (demoCfg, ev), hs⟩ (by rw [hs]; decide +kernel)
    (c := 1) (k := k) (m := dial) { conn := hk, src := by decide, imsi := Db.isNDigits_spec.1 (by decide +kernel), free := .inl rfl, mine := .inl rfl }
    ⟨by rw [hkn]; decide, by rw [hkn]; decide, by rw [hkn, hs]; decide +kernel⟩ {} (.inl rfl) (fun _ => rfl) (.inl rfl)
    (r := { opcode := 0x3b, invokeId := 1, code := b "*#77#" }) (by decide) (by decide +kernel) (by decide)
    (by
      rw [hmk]
      have : (s.conn? 1).map (fun k => nameIsEuse k.name) = some false := by rw [hs]; decide +kernel
      rw [hk] at this
      exact Option.some.inj this) rfl (by rw [show s.sess = [] by rw [hs]; decide +kernel]; simp)
    (n := eDemo) (.ext (pre := []) (post := []) (rt := ⟨b "*#", .inl eDemo⟩) rfl ⟨rfl, b "77#", by decide +kernel⟩ (by simp) rfl)
    (by decide +kernel) (by decide) (ce := 3)
    (by
      show routeFind (routesFor s 1 (mkReq k s.nextReq dial)) _ = _
      unfold routesFor
      rw [show (mkReq k s.nextReq dial).viaProxy.isEmpty = true by unfold mkReq; rw [if_pos (by rfl)]; rfl, if_pos rfl, hs]
      decide +kernel)
    (L := exLib) (fun _ => rfl) (t := b "*#77#") (by decide +kernel) (e2 := []) rfl (by rw [hs]; decide +kernel) (by simp)
    (fun l hl => by
      have : l = [] := List.append_cancel_right (as := l) (bs := (step demoCfg s (.rx 1 (some dial) {})).log) (cs := []) hl.symm
      rw [this]; simp)
    (by
      have : ((step demoCfg s (.rx 1 (some dial) {})).conns.map (·.id)).contains 1 = true := by rw [hs]; decide +kernel
      exact (List.contains_iff_mem).1 this)
    (cfg2 := demoCfg) hke hken (fun _ => rfl) (by decide +kernel) (r2 := { opcode := 0x3b, invokeId := 1, code := answer (b "*#77#") })
    (by decide +kernel) (by decide) (env2 := {})
  refine ⟨this.1, ?_⟩
  exact ⟨_, rfl, by decide +kernel⟩

/-- End to end. -/
example :
    let s1 := runWith demoCfg (init {}) (exDemo ++ [.rx 1 (some dial) {}])
    let s2 := runWith demoCfg s1 [.connect, .rx 2 (some (ssMsg .begin 6 (b "*#1#"))) {}, .rx 3 (some (reply dial (b "You sent \"*#77#\""))) {}]
    (ussdSent s2).take 3 = [(1, .end_, b "You sent \"*#77#\""), (3, .begin, b "*#1#"), (3, .begin, b "*#77#")]
    ∧ s2.sess.map Sess.key = [(imsi1, 6)] ∧ s2.ub = false := by
  decide +kernel

example : (readCb exLib (some dial)).sent = [.msg (reply dial (b "You sent \"*#77#\""))] := by decide +kernel
example : start [] = .client (b "EUSE-foobar") (b "127.0.0.1") 4222 := by decide +kernel
example : start [b "10.0.0.1", b "70000"] = .client (b "EUSE-foobar") (b "10.0.0.1") 4464 := by decide +kernel
example : start [b "-h"] = .usage := by decide +kernel

/-- Violated: the application has been restarted after the session began and gets the
subscriber's next message.  It rejects it, but the subscriber does not get the rejection
(`[0xa4, 0]`): the HLR takes it for the request of a supplementary service of its own and sends the error
"facility not supported" instead. -/
theorem c75_reject_violated :
    let s := runWith demoCfg (init {}) (exDemo ++ [.rx 1 (some dial) {}, .close 3, .connect, .ccm 4 (some (b "EUSE-foobar" ++ [0])),
      .rx 1 (some (ssMsg .continue_ 5 (b "2"))) {}])
    (ussdSent s).head? = some (4, .continue_, b "2")
    ∧ (readCb exLib (some (ssMsg .continue_ 5 (b "2")))).sent = [.msg (reply dial [0xa4, 0])]
    ∧ (ussdSent (step demoCfg s (.rx 4 (some (reply dial [0xa4, 0])) {}))).head? = some (1, .end_, [0xa3, 0x15])
    ∧ (step demoCfg s (.rx 4 (some (reply dial [0xa4, 0])) {})).sess = [] := by
  decide +kernel

/-- Violated: a message that cannot be decoded is not freed, and a message that cannot be
encoded is sent nevertheless. -/
theorem c75_leak_violated (L : Lib) : (readCb L none).freed = false
    ∧ ∀ m, IsSs m.typ → (∀ x, L.enc x = false) → (readCb L (some m)).sent = [.garbled] := by
  refine ⟨rfl, fun m hm henc => ?_⟩
  have key : ∀ info, txSs L m.imsi m.sessId (PROC_SS + 2) true info = [.garbled] := by
    intro info
    unfold txSs
    rw [if_pos (by decide)]
    dsimp only
    rw [henc]
    rfl
  have h1 : (readCb L (some m)).sent = rxProcSsReq L m := congrArg Out.sent (if_pos hm)
  rw [h1]
  unfold rxProcSsReq txReject txResp
  split
  · exact key _
  · split <;> exact key _

end Verif.Euse.Props
