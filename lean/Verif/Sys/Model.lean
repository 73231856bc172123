import Verif.Sys.Proxy
/-!
# The running HLR: handlers and events

`src/hlr.c` (read_cb and handlers), `src/lu_fsm.c`, `src/hlr_sms.c`, `src/hlr_ussd.c`.
Distributed GSM is in Verif.Sys.Proxy.
-/
namespace Verif.Sys
open Verif Verif.Db Verif.Gsup Verif.Hlr

/-! ## Handlers with one database program and one response (hlr.c) -/

/-- rx_send_auth_info (hlr.c 293-347). -/
def rxSaiReq (cfg : Cfg) (e : Env) (q : Req) (s : Sys) : Sys :=
  withDb s e.sc (rxSai cfg.hlr cfg.crypto e.rands e.rnd
      { imsi := q.gsup.imsi, source := q.source.name, num := q.gsup.numVectors,
        rand := q.gsup.rand, auts := q.gsup.auts, sgs := q.gsup.ratSgs })
    fun r s => match r with
      | .result v =>
        (respond cfg s q { typ := SEND_AUTH_INFO + 2, vecs := v } false true).2
      | .error c => respondErr cfg s q c
      | .ub => { s with ub := true }

/-- rx_purge_ms_req (hlr.c 372-392). -/
def rxPurgeReq (cfg : Cfg) (e : Env) (q : Req) (s : Sys) : Sys :=
  withDb s e.sc (rxPurge q.gsup.imsi q.gsup.isCs) fun r s => match r with
    | .result => respondMsgt cfg s q (PURGE_MS + 2)
    | .error c => respondErr cfg s q c

/-- rx_check_imei_req (hlr.c 394-449). -/
def rxCheckImeiReq (cfg : Cfg) (e : Env) (q : Req) (s : Sys) : Sys :=
  withDb s e.sc (rxCheckImei cfg.hlr e.rnd q.gsup.imsi (q.gsup.imeiEnc.bind cfg.imeiDec))
    fun r s => match r with
      | .ack => (respond cfg s q { typ := CHECK_IMEI + 2, imeiAck := true } false true).2
      | .error c => respondErr cfg s q c

/-! ## lu_fsm.c -/

inductive LuRes where
  | fail (c : Cause)
  | wait (sub : HlrSubscr)
  | ub
deriving DecidableEq, Repr

/-- The database part of lu_start (lu_fsm.c 136-196) after subscr_create_on_demand
(hlr.c 366).  db_subscr_lu binds the C strings in the name buffers (db_hlr.c 846-858). -/
def luStartDb (cfg : Cfg) (e : Env) (q : Req) : DbM LuRes := do
  let _ ← createOnDemand cfg.hlr e.rnd q.gsup.imsi
  if q.source.isEmpty then pure (.fail .netFail)
  else do
    match ← getByImsi q.gsup.imsi with
    | (_, none) => pure (.fail cfg.hlr.rejectCause)
    | (_, some row) =>
      let sub := HlrSubscr.ofRow row
      let isPs := !q.gsup.isCs
      if !isPs && !sub.namCs then pure (.fail .plmnNotAllowed)
      else if isPs && !sub.namPs then pure (.fail .gprsNotAllowed)
      else match q.source.cstr, q.viaProxy with
        | none, _ => pure .ub
        | some n, .empty => do
          let rc ← subscrLu sub.id n isPs none e.now
          if rc ≠ 0 then pure (.fail .netFail) else pure (.wait sub)
        | some n, .ipa p =>
          if p.isEmpty then do
            let rc ← subscrLu sub.id n isPs none e.now
            if rc ≠ 0 then pure (.fail .netFail) else pure (.wait sub)
          else match p.cstr with
            | none => pure .ub
            | some pn => do
              let rc ← subscrLu sub.id n isPs (some pn) e.now
              if rc ≠ 0 then pure (.fail .netFail) else pure (.wait sub)

/-- osmo_gsup_create_insert_subscriber_data_msg (gsup_server.c 453-493). -/
def isdMsg (cfg : Cfg) (imsi msisdn : Bytes) (isPs : Bool) : Option Msg :=
  (cfg.bcdEnc msisdn).map fun m =>
    { typ := INSERT_DATA, imsi := strlcpy 16 imsi, msisdn := m,
      cnDomain := if isPs then 1 else 2, pdp := if isPs then cfg.pdpInfos else 0 }

/-- lu_fsm_wait_insert_data_result_onenter (lu_fsm.c 238-255). -/
def luOnenter (cfg : Cfg) (s : Sys) (lu : Lu) : Sys :=
  match isdMsg cfg lu.subscr.imsi lu.subscr.msisdn lu.isPs with
  | none => respondErr cfg s lu.req .netFail
  | some m =>
    let r := respond cfg s lu.req m false false
    if r.1 ≠ 0 then respondErr cfg r.2 lu.req .netFail
    else { r.2 with lus := lu :: r.2.lus }

/-- rx_upd_loc_req (hlr.c 350-370) and lu_start (lu_fsm.c 107-201). -/
def rxUpdLocReq (cfg : Cfg) (e : Env) (k : Conn) (q : Req) (s : Sys) : Sys :=
  let s1 := setConn s (if q.gsup.isCs then { k with supportsCs := true }
                       else { k with supportsPs := true })
  withDb s1 e.sc (luStartDb cfg e q) fun r s => match r with
    | .fail c => respondErr cfg s q c
    | .wait sub => luOnenter cfg s { req := q, isPs := !q.gsup.isCs, subscr := sub }
    | .ub => { s with ub := true }

/-- lu_rx_gsup (lu_fsm.c 203-220) and lu_fsm_wait_insert_data_result (lu_fsm.c 257-285)
for messages other than Update Location Request: the first procedure of the IMSI. -/
def luRxGsup (cfg : Cfg) (q : Req) (s : Sys) : Sys :=
  match s.lus.find? (fun lu => lu.subscr.imsi == q.gsup.imsi) with
  | none => respondErr cfg s q .msgtIncompPState
  | some lu =>
    if q.gsup.typ = INSERT_DATA + 2 then
      let s1 := reqFree s q .dropped
      let s2 := respondMsgt cfg s1 lu.req (UPDATE_LOCATION + 2)
      { s2 with lus := s2.lus.erase lu }
    else if q.gsup.typ = INSERT_DATA + 1 then
      let s1 := respondErr cfg s lu.req .netFail
      let s2 := { s1 with lus := s1.lus.erase lu }
      reqFree s2 q .dropped
    else respondErr cfg s q .msgtIncompPState

/-- lu_fsm_timer_cb (lu_fsm.c 222-227) for the procedure of request `nr`. -/
def luTimeout (cfg : Cfg) (nr : Nat) (s : Sys) : Sys :=
  match s.lus.find? (fun lu => lu.req.nr == nr) with
  | none => s
  | some lu =>
    let s1 := respondErr cfg s lu.req .netFail
    { s1 with lus := s1.lus.erase lu }

/-! ## hlr_sms.c -/

/-- find_smsc_route (hlr_sms.c 111-119). -/
def findSmscRoute (cfg : Cfg) (addr : Bytes) : Option Ent :=
  match cfg.smscRoutes.find? (·.1 == addr) with
  | some rt => some rt.2
  | none => cfg.smscDefault

/-- GSM411_RP_CAUSE_SEMANT_INC_MSG, GSM411_RP_CAUSE_MO_NUM_UNASSIGNED (libosmocore),
GSM0480 error codes. -/
abbrev RP_SEMANT_INC_MSG : Nat := 95
abbrev RP_MO_NUM_UNASSIGNED : Nat := 1
/-- GMM_CAUSE_IMPL_DETACHED (libosmocore). -/
abbrev IMPL_DETACHED : Cause := .other 10
/-- OSMO_GSUP_SMS_SM_RP_ODA_SMSC_ADDR (libosmocore). -/
abbrev ODA_SMSC_ADDR : Nat := 3

/-- A C string as IPA name, with its NUL: `osmo_cni_peer_id_set(.., name, strlen + 1)`.
The C code ignores the failure for names of more than 127 characters and goes on with an
uninitialised name; such names are not modelled. -/
def nameOf (n : Bytes) : IpaName := (ipaSet {} (n ++ [0])).2

/-- forward_mo_sms (hlr_sms.c 131-192).  If the SMSC has been freed its name is read from freed
memory (lines 189-190). -/
def forwardMoSms (cfg : Cfg) (q : Req) (s : Sys) : Sys :=
  let da := q.gsup.smRpDa
  if da.isEmpty then respondErr cfg s q .invMandInfo
  else if q.gsup.smRpDaType ≠ ODA_SMSC_ADDR then respondErr cfg s q .invMandInfo
  else if da.length < 2 ∨ da.length > cfg.daMax ∨ da.getD 0 0 &&& 0x80 = 0 then
    (respond cfg s q { smRpCause := some RP_SEMANT_INC_MSG } true true).2
  else match findSmscRoute cfg (cfg.bcdDec (da.drop 1)) with
    | none => (respond cfg s q { smRpCause := some RP_MO_NUM_UNASSIGNED } true true).2
    | some smsc => if smsc ∈ cfg.smscs then forwardToLocalPeer cfg s (nameOf smsc.name) q else { s with ub := true }

/-- forward_mt_sms (hlr_sms.c 198-220). -/
def forwardMtSms (cfg : Cfg) (e : Env) (q : Req) (s : Sys) : Sys :=
  withDb s e.sc (getByImsi q.gsup.imsi) fun r s => match r with
    | (_, none) => respondErr cfg s q .imsiUnknown
    | (_, some row) =>
      if (HlrSubscr.ofRow row).vlrNumber.isEmpty then respondErr cfg s q IMPL_DETACHED
      else forwardToLocalPeer cfg s (nameOf (HlrSubscr.ofRow row).vlrNumber) q

/-- forward_req_copy_to_smsc (hlr_sms.c 246-263). -/
def copyToSmsc (cfg : Cfg) (q : Req) (s : Sys) (smsc : Ent) : Sys :=
  (encSendToIpa cfg s (nameOf smsc.name) { q.gsup with src := cfg.myName ++ [0] }).2

/-- rx_ready_for_sm_req (hlr_sms.c 265-276). -/
def rxReadyForSm (cfg : Cfg) (q : Req) (s : Sys) : Sys :=
  respondMsgt cfg (cfg.smscs.foldl (copyToSmsc cfg q) s) q (READY_FOR_SM + 2)

/-! ## hlr_ussd.c -/

/-- ss_session_find (hlr_ussd.c 214-222). -/
def ssFind (s : Sys) (imsi : Bytes) (id : Nat) : Option Sess :=
  s.sess.find? (fun x => x.imsi == imsi && x.id == id)

/-- The session object after a change of its fields (it is the only one with its IMSI and
id, see `ssFind`). -/
def ssSet (s : Sys) (x : Sess) : Sys :=
  { s with sess := s.sess.map (fun y => if y.imsi == x.imsi && y.id == x.id then x else y) }

/-- osmo_gsup_req_free for an optional request. -/
def freeOpt (s : Sys) : Option Req → Sys
  | none => s
  | some q => reqFree s q .session

/-- ss_session_free (hlr_ussd.c 224-233). -/
def ssFree (s : Sys) (x : Sess) : Sys :=
  let s1 := freeOpt (freeOpt s x.reqMs) x.reqEuse
  { s1 with sess := s1.sess.filter (fun y => !(y.imsi == x.imsi && y.id == x.id)) }

/-- ussd_route_lookup_for_req (hlr_ussd.c 125-171): the first route whose prefix starts
the code. -/
def ussdLookup (cfg : Cfg) (r : SsReq) : Option UssdRoute :=
  if r.cgroup0 then cfg.ussdRoutes.find? (fun rt => rt.pfx.isPrefixOf r.code) else none

/-- ss_op_is_ussd (hlr_ussd.c 459-470): GSM0480_OP_CODE_PROCESS_USS_DATA, _REQ,
_USS_REQUEST, _USS_NOTIFY (libosmocore). -/
def opIsUssd (op : Nat) : Bool := op == 0x13 || op == 0x3b || op == 0x3c || op == 0x3d

/-- "EUSE-" -/
def eusePfx : Bytes := [69, 85, 83, 69, 45]

/-- peer_name_is_euse (hlr_ussd.c 473-480). -/
def nameIsEuse (n : IpaName) : Bool := decide (n.len > 5) && n.val.take 5 == eusePfx

/-- euse_by_name (hlr_ussd.c 482-491) and euse_find (hlr_ussd.c 43-52). -/
def euseByName (cfg : Cfg) (n : IpaName) : Option Ent :=
  if nameIsEuse n then cfg.euses.find? (·.name == Verif.cstr (n.val.drop 5)) else none

/-- Send `m` to the name `n` looked up once per session (hlr_ussd.c 299-309). -/
def sendToVlr (s : Sys) (n : IpaName) (m : Msg) : Sys :=
  if n.len ≤ 1 then s else (sendToIpa s n m).2

/-- ss_gsup_send_to_ms (hlr_ussd.c 270-310): the session and the message. -/
def ssSendToMs (cfg : Cfg) (e : Env) (s : Sys) (x : Sess) (m : Msg) (k : Sess → Sys → Sys) : Sys :=
  match x.reqMs with
  | some q => k x (respond cfg s q m false false).2
  | none =>
    if !cfg.enc m then k x s
    else if x.vlr.len = 0 then
      withDb s e.sc (getByImsi x.imsi) fun r s => match r with
        | (_, none) => k x s
        | (_, some row) =>
          let n := (ipaSetStr x.vlr (HlrSubscr.ofRow row).vlrNumber).2
          let x' := { x with vlr := n }
          k x' (sendToVlr (ssSet s x') n m)
    else k x (sendToVlr s x.vlr m)

/-- ss_tx_to_ms (hlr_ussd.c 312-336) with message type PROC_SS_RESULT. -/
def ssTxToMs (cfg : Cfg) (e : Env) (s : Sys) (x : Sess) (info : Bytes) (k : Sess → Sys → Sys) : Sys :=
  ssSendToMs cfg e s x
    { typ := PROC_SS + 2, imsi := x.imsi, sessId := x.id, sessState := x.state, ssInfo := info } k

/-- ss_tx_to_ms_error (hlr_ussd.c 351-358): the session state becomes END, the session
itself stays. -/
def ssTxErr (cfg : Cfg) (e : Env) (s : Sys) (x : Sess) (inv code : Nat) (k : Sess → Sys → Sys) : Sys :=
  let x' := { x with state := .end_ }
  ssTxToMs cfg e (ssSet s x') x' (cfg.ssError inv code) k

/-- GSM0480 error codes (libosmocore). -/
abbrev ERR_UNKNOWN_SUBSCRIBER : Nat := 0x01
abbrev ERR_FACILITY_NOT_SUPPORTED : Nat := 0x15
abbrev ERR_SS_NOT_AVAILABLE : Nat := 0x12
abbrev ERR_SYSTEM_FAILURE : Nat := 0x22

/-- `ncss_guard_timeout > 0` (hlr_ussd.c 258, 671). -/
def Cfg.guardTimer (cfg : Cfg) : Bool := decide (cfg.guard ≠ 0)

/-- Decimal digits (libc `printf("%u")`). -/
def udec (n : Nat) : Bytes := (Nat.toDigits 10 n).map (fun c => c.toNat.toUInt8)

/-- "Your extension is ", "You have no MSISDN!", "Your IMSI is ", and the idle text with the guard time in
seconds (hlr_ussd.c 378-421). -/
def txtExt : Bytes := b "Your extension is "
def txtNoMsisdn : Bytes := b "You have no MSISDN!"
def txtImsi : Bytes := b "Your IMSI is "
def txtIdle (cfg : Cfg) : Bytes :=
  b "Keeping your session idle, it will expire at most in " ++ udec cfg.guard ++ b " seconds."

/-- handle_ussd_own_msisdn, handle_ussd_own_imsi, handle_ussd_test_idle (hlr_ussd.c
374-424).  Where the answer needs a second look at the database (no initial request and
no VLR name) an internal handler cannot be reached, see `Verif.Sys.SessReqOk`. -/
def iuseHandle (cfg : Cfg) (e : Env) (s : Sys) (x : Sess) (r : SsReq) (i : Iuse)
    (k : Sess → Sys → Sys) : Sys :=
  match i with
  | .ownMsisdn =>
    let x' := { x with state := .end_ }
    withDb (ssSet s x') e.sc (getByImsi x.imsi) fun d s => match d with
      | (_, some row) =>
        let m := (HlrSubscr.ofRow row).msisdn
        ssTxToMs cfg {} s x'
          (cfg.ssText r.invokeId (if m.isEmpty then txtNoMsisdn else txtExt ++ m)) k
      | (rc, none) =>
        ssTxErr cfg {} s x' r.invokeId
          (if rc = -ENOENT then ERR_UNKNOWN_SUBSCRIBER else ERR_SYSTEM_FAILURE) k
  | .ownImsi =>
    let x' := { x with state := .end_ }
    ssTxToMs cfg e (ssSet s x') x' (cfg.ssText r.invokeId (txtImsi ++ x.imsi)) k
  | .testIdle =>
    let x' := { x with state := .continue_ }
    ssTxToMs cfg e (ssSet s x') x' (cfg.ssText r.invokeId (txtIdle cfg)) k

/-- handle_ss (hlr_ussd.c 493-509). -/
def handleSs (cfg : Cfg) (e : Env) (s : Sys) (x : Sess) (r : SsReq) (k : Sess → Sys → Sys) : Sys :=
  ssTxErr cfg e s x r.invokeId ERR_FACILITY_NOT_SUPPORTED k

/-- handle_ussd (hlr_ussd.c 512-560).  `u.iuse` and `u.euse` share their memory: in a
session opened by an external node `is_external` stays false, and a message from the
MS side then calls a function pointer read from a `struct hlr_euse` (line 552).  If the EUSE has
been freed its name is read from freed memory (line 539). -/
def handleUssd (cfg : Cfg) (e : Env) (s : Sys) (x : Sess) (euseOrig : Bool) (m : Msg) (r : SsReq)
    (k : Sess → Sys → Sys) : Sys :=
  match x.u with
  | .null => ssTxErr cfg e s x r.invokeId ERR_SS_NOT_AVAILABLE k
  | .euse p =>
    if euseOrig then ssSendToMs cfg e s x m k
    else if x.isExternal ∧ p ∈ cfg.euses then
      match routeFind s.routes (ipaSetStr {} (eusePfx ++ p.name)).2.name with
      | none => ssTxErr cfg e s x r.invokeId ERR_SYSTEM_FAILURE k
      | some c => k x (s.emit (.tx c m none))
    else { s with ub := true }
  | .iuse i =>
    if euseOrig then ssSendToMs cfg e s x m k
    else iuseHandle cfg e s x r i fun x s =>
      if x.state = .end_ then k x (ssFree s x) else k x s

/-- Dispatch of the payload to handle_ussd or handle_ss. -/
def handleSsAny (cfg : Cfg) (e : Env) (s : Sys) (x : Sess) (euseOrig : Bool) (m : Msg) (r : SsReq)
    (k : Sess → Sys → Sys) : Sys :=
  if opIsUssd r.opcode then handleUssd cfg e s x euseOrig m r k else handleSs cfg e s x r k

/-- The session made for a BEGIN message (hlr_ussd.c 606-652, ss_session_alloc 244-263).  Its timer
is scheduled if a guard time is configured at this moment. -/
def ssNew (cfg : Cfg) (q : Req) (r : SsReq) : Sess :=
  let euseOrig := nameIsEuse q.source
  let x : Sess := { imsi := q.gsup.imsi, id := q.gsup.sessId, timer := cfg.guardTimer }
  let x := if euseOrig then { x with reqEuse := some q }
           else { x with reqMs := some q, vlr := q.source }
  if opIsUssd r.opcode then
    if euseOrig then
      match euseByName cfg q.source with
      | some n => { x with u := .euse n }
      | none => x
    else match ussdLookup cfg r with
      | some rt => match rt.to with
        | .inl n => { x with isExternal := true, u := .euse n }
        | .inr i => { x with u := .iuse i }
      | none => match cfg.euseDefault with
        | some n => { x with isExternal := true, u := .euse n }
        | none => x
  else x

/-- A CONTINUE message schedules the timer of its session, for the first time or anew, if a guard time is
configured at this moment; otherwise the timer is left alone (hlr_ussd.c 670-672). -/
def rearm (cfg : Cfg) (x : Sess) : Sess := if cfg.guardTimer then { x with timer := true } else x

/-- rx_proc_ss_req (hlr_ussd.c 565-713). -/
def rxProcSs (cfg : Cfg) (e : Env) (q : Req) (s : Sys) : Sys :=
  let m := q.gsup
  let euseOrig := nameIsEuse q.source
  let fin : Sys → Sys := fun s => reqFree s q .dropped
  if m.ssInfo.isEmpty ∧ m.sessState ≠ .end_ then respondErr cfg s q .invMandInfo
  else match (if m.ssInfo.isEmpty then some {} else cfg.parseSs m.ssInfo) with
  | none => respondErr cfg s q .invMandInfo
  | some r =>
    match m.sessState with
    | .begin =>
      match ssFind s m.imsi m.sessId with
      | some _ => respondErr cfg s q .invMandInfo
      | none =>
        let x := ssNew cfg q r
        handleSsAny cfg e { s with sess := s.sess ++ [x] } x euseOrig m r fun _ s => s
    | .continue_ =>
      match ssFind s m.imsi m.sessId with
      | none => respondErr cfg s q .msgtIncompPState
      | some x => handleSsAny cfg e (ssSet s (rearm cfg x)) (rearm cfg x) euseOrig m r fun _ s => fin s
    | .end_ =>
      match ssFind s m.imsi m.sessId with
      | none => respondErr cfg s q .msgtIncompPState
      | some x =>
        if m.ssInfo.isEmpty then fin (ssFree s x)
        else handleSsAny cfg e s x euseOrig m r fun x s =>
          -- a second ss_session_free() of a session that is already gone
          if (ssFind s m.imsi m.sessId).isNone then { s with ub := true } else fin (ssFree s x)
    | .none => fin s

/-- ss_session_timeout (hlr_ussd.c 235-242), if the session has a timer. -/
def ssTimeout (imsi : Bytes) (id : Nat) (s : Sys) : Sys :=
  match ssFind s imsi id with
  | none => s
  | some x => if x.timer then ssFree s x else s

/-! ## hlr.c: receiving -/

/-- read_cb_forward (hlr.c 461-506). -/
def readCbForward (cfg : Cfg) (q : Req) (s : Sys) : Sys :=
  let err : Sys → Sys := fun s =>
    (respond cfg s q { typ := ROUTING_ERROR, src := q.gsup.dst } true true).2
  if q.gsup.src.isEmpty ∨ q.gsup.dst.isEmpty then err s
  else
    let r := ipaSet {} q.gsup.dst
    if r.1 ≠ 0 then err s
    else
      let t := sendToIpa s r.2 q.gsup
      if t.1 ≠ 0 then err t.2 else reqFree t.2 q .forwarded

/-- The dispatch of read_cb (hlr.c 528-586). -/
def dispatch (cfg : Cfg) (e : Env) (k : Conn) (q : Req) (s : Sys) : Sys :=
  if q.gsup.typ = SEND_AUTH_INFO then rxSaiReq cfg e q s
  else if q.gsup.typ = UPDATE_LOCATION then rxUpdLocReq cfg e k q s
  else if q.gsup.typ = PURGE_MS then rxPurgeReq cfg e q s
  else if q.gsup.typ = DELETE_DATA + 1 then reqFree s q .dropped
  else if q.gsup.typ = DELETE_DATA + 2 then reqFree s q .dropped
  else if q.gsup.typ = PROC_SS ∨ q.gsup.typ = PROC_SS + 2 then rxProcSs cfg e q s
  else if q.gsup.typ = PROC_SS + 1 then reqFree s q .dropped
  else if q.gsup.typ = INSERT_DATA + 1 ∨ q.gsup.typ = INSERT_DATA + 2
      ∨ q.gsup.typ = LOCATION_CANCEL + 1 ∨ q.gsup.typ = LOCATION_CANCEL + 2 then
    luRxGsup cfg q s
  else if q.gsup.typ = CHECK_IMEI then rxCheckImeiReq cfg e q s
  else if q.gsup.typ = MO_FORWARD_SM then forwardMoSms cfg q s
  else if q.gsup.typ = MT_FORWARD_SM then forwardMtSms cfg e q s
  else if q.gsup.typ = READY_FOR_SM then rxReadyForSm cfg q s
  else reqFree s q .dropped

/-- Is the message for another node (hlr.c 514-523)? -/
def forOther (cfg : Cfg) (m : Msg) : Bool :=
  !m.dst.isEmpty && (ipaSet {} m.dst).1 == 0
    && ipaCmp (ipaSet {} m.dst).2 (ipaSetStr {} cfg.myName).2 != 0

/-- read_cb (hlr.c 508-587) after osmo_gsup_conn_rx. -/
def readCb (cfg : Cfg) (e : Env) (k : Conn) (q : Req) (s : Sys) : Sys :=
  if forOther cfg q.gsup then readCbForward cfg q s
  else if e.dgsm then dgsmCheck cfg e q s (dispatch cfg e k q)
  else dispatch cfg e k q s

/-- osmo_gsup_conn_rx (gsup_server.c 115-152) after osmo_gsup_req_new: a proxied source is
entered in the routes. -/
def connRx (cfg : Cfg) (e : Env) (k : Conn) (q : Req) (s : Sys) : Sys :=
  if q.viaProxy.isEmpty then readCb cfg e k q s
  else
    let r := routeAdd s.routes k.id q.source.name
    if r.1 ≠ 0 then respondMsgt cfg { s with routes := r.2 } q ROUTING_ERROR
    else readCb cfg e k q { s with routes := r.2 }

/-- The request made by osmo_gsup_req_new (gsup_req.c 104-167) when the source name IE is
absent or acceptable. -/
def mkReq (k : Conn) (nr : Nat) (m : Msg) : Req :=
  if m.src.isEmpty then { nr := nr, conn := k.id, gsup := m, source := k.name }
  else
    let n := (ipaSet k.name m.src).2
    { nr := nr, conn := k.id, gsup := m, source := n,
      viaProxy := if ipaCmp n k.name ≠ 0 then .ipa k.name else .empty }

/-- A message `m` (`none`: osmo_gsup_decode() fails) arrives on connection `c`:
osmo_gsup_req_new (gsup_req.c 104-167) and read_cb. -/
def rx (cfg : Cfg) (e : Env) (c : ConnId) (mo : Option Msg) (s : Sys) : Sys :=
  match s.conn? c with
  | none => s
  | some k =>
    let nr := s.nextReq
    let s := { s with nextReq := nr + 1, log := .rx nr c mo :: s.log }
    match mo with
    | none => s.emit (.concl nr .dropped)
    | some m =>
      if !m.src.isEmpty ∧ (ipaSet k.name m.src).1 ≠ 0 then
        respondMsgt cfg s { nr := nr, conn := c, gsup := m, source := k.name } ROUTING_ERROR
      else if !imsiValid m.imsi then respondErr cfg s (mkReq k nr m) .invMandInfo
      else connRx cfg e k (mkReq k nr m) s

/-! ## Notifications caused by configuration interfaces (hlr.c) -/

/-- The loop body of osmo_hlr_subscriber_update_notify (hlr.c 86-162).  The result of
osmo_gsup_encode() is not looked at. -/
def notifyConn (cfg : Cfg) (sub : HlrSubscr) (s : Sys) (k : Conn) : Sys :=
  if !(k.supportsPs || k.supportsCs) then s
  else match k.ccm with
  | none => s
  | some peer =>
    let cmp := if k.supportsPs then sub.sgsnNumber else sub.vlrNumber
    if cmp ≠ Verif.cstr peer then s
    else match isdMsg cfg sub.imsi sub.msisdn k.supportsPs with
      | none => s
      | some m => (addrSend s peer m).2

/-- osmo_hlr_subscriber_update_notify (hlr.c 73-163). -/
def updateNotify (cfg : Cfg) (sub : HlrSubscr) (s : Sys) : Sys :=
  s.conns.foldl (notifyConn cfg sub) s

/-- The DELETE DATA requests of hlr_subscr_nam (hlr.c 281-284).  The serving node's name
is passed as a format string; a `%` in it is not modelled. -/
def sendDelData (cfg : Cfg) (s : Sys) (imsi number : Bytes) : Sys :=
  if number.isEmpty then s
  else (encSendToIpa cfg s (ipaSetStr {} number).2 { typ := DELETE_DATA, imsi := imsi }).2

/-- hlr_subscr_nam (hlr.c 256-286): `(rc, state)`; `none` if the process died. -/
def subscrNam (cfg : Cfg) (e : Env) (sub : HlrSubscr) (val isPs : Bool) (s : Sys) :
    Option Int × Sys :=
  if (if isPs then sub.namPs else sub.namCs) = val then (some ENOEXEC, s)
  else
    match exec (Db.subscrNam sub.imsi val isPs) s.db e.sc with
    | (none, d) => (none, Sys.crash { s with db := d })
    | (some rc, d) =>
      let s := { s with db := d }
      if rc ≠ 0 then (some (if rc > 0 then -rc else rc), s)
      else if val then (some 0, s)
      else (some 0, sendDelData cfg (sendDelData cfg s sub.imsi sub.vlrNumber) sub.imsi sub.sgsnNumber)

/-! ## Events -/

inductive Ev where
  | connect
  | ccm (c : ConnId) (sernr : Option Bytes)
  | close (c : ConnId)
  | rx (c : ConnId) (m : Option Msg) (e : Env)
  | luTimeout (nr : Nat)
  | ssTimeout (imsi : Bytes) (id : Nat)
  /-- a VTY or CTRL command changes the database -/
  | db (op : Op) (sc : Script)
  /-- osmo_hlr_subscriber_update_notify for a subscriber as read from the database -/
  | notify (imsi : Bytes) (sc : Script)
  /-- hlr_subscr_nam for a subscriber as read from the database -/
  | nam (imsi : Bytes) (val isPs : Bool) (sc sc' : Script)
  /-- the link to the remote HLR at `a` comes up -/
  | remoteUp (a : Addr)
  /-- the link to the remote HLR at `a` is reported down -/
  | remoteDown (a : Addr)
  /-- the GSUP client of the remote HLR at `a` finds its link dead and reconnects without
  reporting it (gsup_client.c 219, 279-282) -/
  | remoteLost (a : Addr)
  | remoteRx (a : Addr) (m : Msg) (e : Env)
  /-- a result of an mslookup query for a home HLR: `none` if it is not a result, else
  its IPv4 and IPv6 address -/
  | lookup (imsi : Bytes) (res : Option (Addr × Addr)) (e : Env)
  /-- the timer of the proxy (proxy.c 221) -/
  | proxyGc (clock : Int)
  /-- the process is killed -/
  | kill

/-- One event. After undefined behaviour nothing more is modelled. -/
def step (cfg : Cfg) (s : Sys) : Ev → Sys
  | ev => if s.ub then s else match ev with
    | .connect => connect s
    | .ccm c sernr => match s.conn? c with
      | none => s
      | some k => ccmCb s k sernr
    | .close c => match s.conn? c with
      | none => s
      | some _ => close s c
    | .rx c m e => rx cfg e c m s
    | .luTimeout nr => luTimeout cfg nr s
    | .ssTimeout imsi id => ssTimeout imsi id s
    | .db op sc => withDb s sc op.run fun _ s => s
    | .notify imsi sc => withDb s sc (getByImsi imsi) fun r s => match r with
      | (_, some row) => updateNotify cfg (HlrSubscr.ofRow row) s
      | (_, none) => s
    | .nam imsi val isPs sc sc' => withDb s sc (getByImsi imsi) fun r s => match r with
      | (_, some row) => (subscrNam cfg { sc := sc' } (HlrSubscr.ofRow row) val isPs s).2
      | (_, none) => s
    | .remoteUp a => remoteUp cfg a s
    | .remoteDown a => remoteDown a s
    | .remoteLost a => remoteLost a s
    | .remoteRx a m e => remoteRx cfg e a m s
    | .lookup imsi res e => lookupResult cfg e imsi res s
    | .proxyGc clock => proxyCleanup clock s
    | .kill => s.crash

/-- A history: events, each with the configuration in force when it happens. -/
def run (s : Sys) : List (Cfg × Ev) → Sys
  | [] => s
  | x :: l => run (step x.1 s x.2) l

end Verif.Sys
