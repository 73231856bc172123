import Verif.Live.Props
import Verif.Prov.SafetyProps
import Verif.Config.RouteProps
import Verif.Sys.Props6
/-!
# C70, continued: what comes is treated by the configuration in force; when that is safe

`L` stands for the HLR after some history, `step3 base e L (.hlr (.sys (.rx c (some m) env)) boot)` for the HLR after it has
handled the message `m` of connection `c` as well.
-/
namespace Verif.Live.Props
open Verif Verif.Db Verif.Gsup Verif.Sys Verif.Sys.Props Verif.Prov.Running Verif.Config.Spec Verif.Live Verif.Live.Spec

/-! ## What comes is treated by the configuration in force -/

/-- The HLR after some history. -/
def Reached (base : Cfg) (e : Config.Env) (L : Live) : Prop :=
  ∃ h0 d l, Unique d ∧ L = run3 base e ⟨h0, init d⟩ l ∧ L.sys.ub = false

theorem Reached.reach {base : Cfg} {e : Config.Env} {L : Live} (h : Reached base e L) : Reach L.sys := by
  obtain ⟨h0, d, l, hU, rfl, hu⟩ := h
  exact run3_reach hU l hu

theorem Reached.unique {base : Cfg} {e : Config.Env} {L : Live} (h : Reached base e L) : Unique L.sys.db := by
  obtain ⟨h0, d, l, hU, rfl, hu⟩ := h
  exact run3_unique (s := ⟨h0, init d⟩) hU l

theorem Reached.ub {base : Cfg} {e : Config.Env} {L : Live} (h : Reached base e L) : L.sys.ub = false := by
  obtain ⟨h0, d, l, hU, rfl, hu⟩ := h
  exact hu

/-- C70: a new USSD request is given to whom the routes and the default then configured say: to the EUSE
with that name, to the HLR's own service, or to nobody.
Missing: configurations in which an EUSE was removed that a route led to (C64); names of EUSEs of more than
122 bytes. -/
theorem c70_ussd_partial {base : Cfg} {e : Config.Env} {L : Live} (hL : Reached base e L) (ht : Tidy e L.hist)
    {c : ConnId} {k : Conn} {m : Msg} (h : Accepted (L.cfg base e) L.sys c k m) (env : Env) (boot : List Input)
    (hloc : Local env m L.sys) (henc : ∀ m, base.enc m = true) (hm : IsSs m.typ) {r : SsReq} (hi : m.ssInfo ≠ [])
    (hp : base.parseSs m.ssInfo = some r) (ho : opIsUssd r.opcode = true)
    (hms : nameIsEuse (mkReq k L.sys.nextReq m).source = false) (hb : m.sessState = .begin)
    (hno : ∀ y ∈ L.sys.sess, ¬ (y.imsi = m.imsi ∧ y.id = m.sessId)) :
    let L' := step3 base e L (.hlr (.sys (.rx c (some m) env)) boot)
    let q := mkReq k L.sys.nextReq m
    let s1 := received L.sys c k m
    (∀ n, target (ussd e L.hist) r = some (.inl n) → n.length ≤ 122 →
      (∀ c', routeFind s1.routes (b "EUSE-" ++ n ++ [0]) = some c' → L'.sys.log = .tx c' m none :: s1.log)
      ∧ (routeFind s1.routes (b "EUSE-" ++ n ++ [0]) = none →
        L'.sys.log = toMs s1 q (msResult q .end_ (base.ssError r.invokeId 0x22)) ++ s1.log))
    ∧ (target (ussd e L.hist) r = some (.inr .testIdle) → L'.sys.log = toMs s1 q (msResult q .continue_
        (base.ssText r.invokeId (b "Keeping your session idle, it will expire at most in "
          ++ udec (lastOf guardOf 30 e L.hist) ++ b " seconds."))) ++ s1.log)
    ∧ (target (ussd e L.hist) r = some (.inr .ownImsi) → L'.sys.log = .concl L.sys.nextReq .session ::
        (toMs s1 q (msResult q .end_ (base.ssText r.invokeId (b "Your IMSI is " ++ m.imsi))) ++ s1.log))
    ∧ (target (ussd e L.hist) r = some (.inr .ownMsisdn) → firstFate env.sc = .ok → ∀ row ∈ L.sys.db.subs, row.imsi = m.imsi →
        L'.sys.log = .concl L.sys.nextReq .session :: (toMs s1 q (msResult q .end_ (base.ssText r.invokeId
          (if (HlrSubscr.ofRow row).msisdn = [] then b "You have no MSISDN!"
           else b "Your extension is " ++ (HlrSubscr.ofRow row).msisdn))) ++ s1.log))
    ∧ (target (ussd e L.hist) r = none → L'.sys.log = toMs s1 q (msResult q .end_ (base.ssError r.invokeId 0x12)) ++ s1.log) := by
  intro L' q s1
  have hrel := (Config.urel_config e L.hist {} {} ht.1 (Config.inv_init e) ⟨rfl, rfl, rfl⟩ ht.2).1
  have hp' : (L.cfg base e).parseSs m.ssInfo = some r := hp
  have henc' : ∀ m, (L.cfg base e).enc m = true := henc
  obtain ⟨tg, htg, -⟩ := c35_target_unique (L.cfg base e) r
  obtain ⟨hnm, hmem⟩ := routed_of base hrel htg
  have hnm : named tg = target (ussd e L.hist) r := hnm
  rw [← hnm]
  cases tg with
  | external n =>
    refine ⟨fun n' hn' hl => ?_, fun hc => (by cases hc), fun hc => (by cases hc), fun hc => (by cases hc), fun hc => (by cases hc)⟩
    cases hn'
    obtain ⟨a1, a2⟩ := c35_external hL.reach hL.ub h env hloc henc' hm hi hp' ho hms hb hno htg (hmem n rfl) hl
    exact ⟨fun c' hc' => congrArg Sys.log (a1 c' hc'), fun hc' => congrArg Sys.log (a2 hc')⟩
  | internal i =>
    obtain ⟨a1, a2, a3⟩ := c35_internal hL.reach hL.ub h env hloc henc' hm hi hp' ho hms hb hno htg
    refine ⟨fun n' hn' => (by cases hn'), fun hc => ?_, fun hc => ?_, fun hc hf row hrow he => ?_, fun hc => (by cases hc)⟩
    · cases hc
      rw [← (c70_last e L.hist).2.2.2.2]
      exact congrArg Sys.log (a1 rfl)
    · cases hc; exact congrArg Sys.log (a2 rfl)
    · cases hc; exact congrArg Sys.log ((a3 rfl hL.unique hf).2 row hrow he)
  | nobody =>
    have a1 := c35_nobody hL.reach hL.ub h env hloc henc' hm hi hp' ho hms hb hno htg
    exact ⟨fun n' hn' => (by cases hn'), fun hc => (by cases hc), fun hc => (by cases hc), fun hc => (by cases hc),
      fun _ => congrArg Sys.log a1⟩

/-- C70: a short message is given to the SMSC that the routes and the default then configured say.
Missing: configurations in which an SMSC was removed that a route led to (C64); names of SMSCs of more than
127 bytes. -/
theorem c70_sms_partial {base : Cfg} {e : Config.Env} {L : Live} (hL : Reached base e L)
    (hv : ∀ x ∈ L.hist, x.valid = true) (ho : Smsc.orderly e {} L.hist = true)
    {c : ConnId} {k : Conn} {m : Msg} (h : Accepted (L.cfg base e) L.sys c k m) (env : Env) (boot : List Input)
    (hloc : Local env m L.sys) (henc : ∀ m, base.enc m = true) (ht : m.typ = MO_FORWARD_SM) (h1 : 2 ≤ m.smRpDa.length)
    (h2 : m.smRpDaType = ODA_SMSC_ADDR) (h3 : m.smRpDa.length ≤ base.daMax) (h4 : m.smRpDa.getD 0 0 &&& 0x80 ≠ 0) :
    let L' := step3 base e L (.hlr (.sys (.rx c (some m) env)) boot)
    let q := mkReq k L.sys.nextReq m
    let s1 := received L.sys c k m
    (∀ n, (smsc e L.hist).lookup (base.bcdDec (m.smRpDa.drop 1)) = some n → n.length ≤ 127 →
      (∀ c', routeFind s1.routes (n ++ [0]) = some c' →
        L'.sys.log = .concl L.sys.nextReq .forwarded :: .tx c' { m with src := q.source.name } none :: s1.log)
      ∧ (routeFind s1.routes (n ++ [0]) = none → L'.sys = respondMsgt (L.cfg base e) s1 q ROUTING_ERROR))
    ∧ ((smsc e L.hist).lookup (base.bcdDec (m.smRpDa.drop 1)) = none →
      ∃ M, ErrorAnswer m M ∧ M.smRpCause = some 1 ∧ L'.sys.log = answer s1 q M ++ s1.log) := by
  intro L' q s1
  have hrel := (Config.srel_config e L.hist {} {} hv (Config.inv_init e) ⟨rfl, rfl, rfl⟩ ho).1
  obtain ⟨s2, s3⟩ := smsc_of base hrel (base.bcdDec (m.smRpDa.drop 1))
  have s2 : (findSmscRoute (L.cfg base e) (base.bcdDec (m.smRpDa.drop 1))).map (·.name)
    = (smsc e L.hist).lookup (base.bcdDec (m.smRpDa.drop 1)) := s2
  obtain ⟨a1, a2, a3⟩ := c36_mo_routed hL.reach hL.ub h env hloc henc ht h1 h2 h3 h4
  rw [← s2]
  constructor
  · intro n hn hl
    obtain ⟨x, hx, rfl⟩ := Option.map_eq_some_iff.1 hn
    have hf := (findSmscRoute_spec _ _ _).1 hx
    have hmem : x ∈ (L.cfg base e).smscs := s3 x hx
    exact ⟨fun c' hc' => congrArg Sys.log (a1 x c' hf hmem hl hc'), fun hc' => a2 x hf hmem hl hc'⟩
  · intro hn
    obtain ⟨M, m1, m2, m3⟩ := a3 (by
      rintro ⟨x, hx⟩
      have hx : findSmscRoute (L.cfg base e) (base.bcdDec (m.smRpDa.drop 1)) = some x := (findSmscRoute_spec _ _ _).2 hx
      rw [hx] at hn
      cases hn)
    exact ⟨M, m1, m2, congrArg Sys.log m3⟩

/-- C70: while subscribers are not created on demand, a location update for an unknown IMSI is refused
with the cause given by the last `reject-cause not-found`, without one "PLMN not allowed". -/
theorem c70_refused {base : Cfg} {e : Config.Env} {L : Live} (hL : Reached base e L)
    (hc : lastOf codOf .disabled e L.hist = .disabled) {c : ConnId} {k : Conn} {m : Msg}
    (h : Accepted (L.cfg base e) L.sys c k m) (env : Env) (boot : List Input)
    (hloc : Local env m L.sys) (henc : ∀ m, base.enc m = true) (ht : m.typ = UPDATE_LOCATION)
    (hs : Db.AllOk env.sc) {t : Int} (hnow : env.now = some t) {n : Bytes} (hn : (mkReq k L.sys.nextReq m).source.cstr = some n)
    {via : Option Bytes} (hvia : viaName (mkReq k L.sys.nextReq m).viaProxy = some via)
    (hsrc : (mkReq k L.sys.nextReq m).source.isEmpty = false)
    (hreg : routeFind (routesFor L.sys c (mkReq k L.sys.nextReq m)) (mkReq k L.sys.nextReq m).source.name = some c)
    (hnone : ∀ row ∈ L.sys.db.subs, row.imsi ≠ m.imsi) :
    let L' := step3 base e L (.hlr (.sys (.rx c (some m) env)) boot)
    ∃ M, M.typ = UPDATE_LOCATION + 1 ∧ M.cause = some (lastOf notFoundOf .plmnNotAllowed e L.hist).cause ∧ M.imsi = m.imsi
      ∧ L'.sys.log = .concl L.sys.nextReq .answered :: .tx c M (some L.sys.nextReq) :: .rx L.sys.nextReq c (some m) :: L.sys.log
      ∧ L'.sys.db = L.sys.db := by
  intro L'
  have hcod : (L.cfg base e).hlr.cod = .disabled := (c70_last e L.hist).2.2.2.1.trans hc
  have hcr : (L.cfg base e).hlr.rejectCause = (lastOf notFoundOf .plmnNotAllowed e L.hist).cause :=
    congrArg Config.Rej.cause (c70_last e L.hist).1
  have hg : (mkReq k L.sys.nextReq m).gsup = m := mkReq_gsup _ _ _
  have hd : (exec (Hlr.createOnDemand (L.cfg base e).hlr env.rnd m.imsi) L.sys.db []).2 = L.sys.db := by
    rcases ((Hlr.createOnDemand_post (L.cfg base e).hlr env.rnd m.imsi _ hL.unique).exec L.sys.db [] rfl).or with
      ⟨h, _⟩ | ⟨hd, _⟩ | ⟨hd, _⟩
    · exact h
    · exact absurd hcod hd
    · exact absurd hcod hd
  have ho := ((c27_outcome (L.cfg base e) env (mkReq k L.sys.nextReq m) L.sys.db hL.unique hs hnow hn hvia).2 hsrc).1
  rw [hg, hd] at ho
  have hx := ho hnone
  rw [hcr] at hx
  obtain ⟨M, m1, m2, m3, m4, m5, m6⟩ := c27_refused hL.reach hL.ub h ht env hloc hx hreg henc
  exact ⟨M, m1, m2, m3, m4, m6⟩

/-- C70: when the home HLR of a subscriber cannot be found, every request that waits for the answer (but
for checks of the IMEI, which are granted) is refused with the cause given by the last
`reject-cause no-proxy`, without one "network failure"; the other requests go on waiting. -/
theorem c70_noproxy {base : Cfg} {e : Config.Env} {L : Live} (hL : Reached base e L)
    {imsi : Bytes} {res : Option (Addr × Addr)} (hf : Failed res) (env : Env) (boot : List Input)
    (henc : ∀ m, base.enc m = true) :
    let L' := step3 base e L (.hlr (.sys (.lookup imsi res env)) boot)
    ∃ f : Req → List Out,
      L'.sys.log = (L.sys.pending.filter (·.gsup.imsi == imsi)).reverse.flatMap f ++ L.sys.log
      ∧ L'.sys.pending = L.sys.pending.filter (fun q => !(q.gsup.imsi == imsi))
      ∧ ∀ q, isRequest q.gsup.typ = true → toError q.gsup.typ ≠ ROUTING_ERROR → q.gsup.typ ≠ CHECK_IMEI →
        ∃ M, M.typ = toError q.gsup.typ ∧ M.cause = some (lastOf noProxyOf .netFail e L.hist).cause ∧ M.imsi = q.gsup.imsi
          ∧ f q = .concl q.nr .answered :: (routeFind L.sys.routes q.source.name).toList.map (fun c => .tx c M (some q.nr)) := by
  intro L'
  have hcr : (L.cfg base e).noProxyCause = (lastOf noProxyOf .netFail e L.hist).cause :=
    congrArg Config.Rej.cause (c70_last e L.hist).2.1
  obtain ⟨f, hr, h1, h2⟩ := c38_failed (cfg := L.cfg base e) hL.ub hf (imsi := imsi) env henc
  refine ⟨f, h1, h2, fun q hq hne hi => ?_⟩
  obtain ⟨M, hM, hfq⟩ := (hr q).1 hq hne
  refine ⟨M, (hM.err hi).1, ?_, hM.imsi, hfq⟩
  rw [← hcr]; exact (hM.err hi).2

end Verif.Live.Props
