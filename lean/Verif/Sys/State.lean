import Verif.Gsup.Msg
/-!
# The running HLR: connections, routes, requests, responses

`src/gsup_server.c`, `src/gsup_router.c`, `src/gsup_send.c`, `src/gsupclient/gsup_req.c`
and the state of `src/lu_fsm.c`, `src/hlr_ussd.c`, `src/proxy.c` and `src/remote_hlr.c`.

The state carries a log of everything that happened to requests and connections (newest
entry first); it is not part of the program.
-/
namespace Verif.Sys
open Verif Verif.Db Verif.Gsup Verif.Hlr

abbrev ConnId := Nat

/-- `struct osmo_gsup_conn` (include/osmocom/hlr/gsup_server.h 43-63).  Identities of
connections are never reused. -/
structure Conn where
  id : ConnId
  /-- `peer_name` -/
  name : IpaName := {}
  /-- the IPAC_IDTAG_SERNR element of `ccm` -/
  ccm : Option Bytes := none
  supportsCs : Bool := false
  supportsPs : Bool := false
deriving DecidableEq, Repr

/-- `struct osmo_gsup_req` (include/osmocom/gsupclient/gsup_req.h).  `conn` is the
connection the message came from; the program itself does not keep it. -/
structure Req where
  nr : Nat
  conn : ConnId
  gsup : Msg
  source : IpaName
  viaProxy : PeerId := .empty
deriving DecidableEq, Repr

/-- `struct lu` (lu_fsm.c 42-61) in state LU_ST_WAIT_INSERT_DATA_RESULT, the only one in
which it outlives the function that creates it. -/
structure Lu where
  req : Req
  isPs : Bool
  subscr : HlrSubscr
deriving DecidableEq, Repr

/-- Internal USSD handlers (`hlr_iuses`, hlr_ussd.c 425-438). -/
inductive Iuse where
  | ownMsisdn | ownImsi | testIdle
deriving DecidableEq, Repr

/-- `struct hlr_euse` (hlr_ussd.h 24-36) and `struct hlr_smsc` (hlr_sms.h 5-13): the object's
identity (not in the program) and its name, which never changes.  As a pointer it is valid as
long as the object is in its list. -/
structure Ent where
  id : Nat
  name : Bytes
deriving DecidableEq, Repr

/-- The union `u` of `struct ss_session` (hlr_ussd.c 194-199): which kind of object the
pointer points to. -/
inductive UPtr where
  | null
  | euse (p : Ent)
  | iuse (i : Iuse)
deriving DecidableEq, Repr

/-- `struct ss_session` (hlr_ussd.c 180-212). -/
structure Sess where
  imsi : Bytes
  id : Nat
  state : SessState := .none
  isExternal : Bool := false
  u : UPtr := .null
  vlr : IpaName := {}
  reqMs : Option Req := none
  reqEuse : Option Req := none
  /-- the timer `timeout` is scheduled -/
  timer : Bool := false
deriving DecidableEq, Repr

/-- `struct osmo_sockaddr_str` (libosmocore): a numeric address and a port. -/
structure Addr where
  v6 : Bool := false
  ip : Nat := 0
  port : Nat := 0
deriving DecidableEq, Repr

/-- osmo_sockaddr_str_is_nonzero (libosmocore; assumption): address and port are set. -/
def Addr.nonzero (a : Addr) : Bool := a.ip != 0 && a.port != 0

/-- `struct proxy_subscr_domain_state` (include/osmocom/hlr/proxy.h 49-61). -/
structure ProxyDom where
  vlr : IpaName := {}
  lastLu : Int := 0
  /-- `vlr_name_preliminary` -/
  prelim : IpaName := {}
  /-- `vlr_via_proxy` -/
  via : IpaName := {}
deriving DecidableEq, Repr

/-- `struct proxy_subscr` (proxy.h 63-68). -/
structure ProxySub where
  imsi : Bytes
  msisdn : Bytes := []
  addr : Addr := {}
  cs : ProxyDom := {}
  ps : ProxyDom := {}
deriving DecidableEq, Repr

/-- `struct proxy_subscr_listentry` (proxy.c 55-59). -/
structure ProxyEntry where
  lastUpdate : Int := 0
  data : ProxySub
deriving DecidableEq, Repr

/-- `struct remote_hlr` (include/osmocom/hlr/remote_hlr.h): `up` is `is_connected` of its
GSUP client, `cbs` the number of pending "up" callbacks; all of them are
`proxy_remote_hlr_connect_result_cb`. -/
structure Remote where
  addr : Addr
  up : Bool := false
  cbs : Nat := 0
deriving DecidableEq, Repr

/-- How a request ended: a final response was made, it was passed on to another node, it
was dropped without an answer, or it ended together with its USSD session. -/
inductive How where
  | answered | forwarded | dropped | session
deriving DecidableEq, Repr

/-- What happened. -/
inductive Out where
  /-- request `nr` was received on connection `c` -/
  | rx (nr : Nat) (c : ConnId) (m : Option Msg)
  /-- a message was handed to connection `c`; `re` is the request it responds to -/
  | tx (c : ConnId) (m : Msg) (re : Option Nat)
  /-- request `nr` was concluded and its memory freed -/
  | concl (nr : Nat) (how : How)
  | connected (c : ConnId)
  | closed (c : ConnId)
  /-- the process died and was started again on the same database -/
  | restart
  /-- a message was sent to the remote HLR at `a`; `re` is the request that it is -/
  | remote (a : Addr) (m : Msg) (re : Option Nat)
  /-- a message was received from the remote HLR at `a` -/
  | remoteRx (a : Addr) (m : Msg)
deriving DecidableEq, Repr

/-- The whole process. -/
structure Sys where
  db : Db := {}
  conns : List Conn := []
  routes : List (Bytes × ConnId) := []
  /-- `g_all_lu`, newest first -/
  lus : List Lu := []
  /-- `hlr->ss_sessions` -/
  sess : List Sess := []
  /-- `proxy->subscr_list` -/
  proxy : List ProxyEntry := []
  /-- `proxy->pending_gsup_reqs`; the time of reception is never looked at -/
  pending : List Req := []
  /-- `remote_hlrs` (remote_hlr.c 32) -/
  remotes : List Remote := []
  nextReq : Nat := 1
  nextConn : ConnId := 1
  log : List Out := []
  /-- undefined behaviour has happened; nothing is said about what follows -/
  ub : Bool := false
deriving DecidableEq, Repr

/-- The outcome of `gsm0480_parse_facility_ie()` (libosmocore): operation code, invoke id,
whether the coding group of the USSD text is 0, and the decoded text (C string). -/
structure SsReq where
  opcode : Nat := 0
  invokeId : Nat := 0
  cgroup0 : Bool := true
  code : Bytes := []
deriving DecidableEq, Repr

/-- `struct hlr_ussd_route` (include/osmocom/hlr/hlr_ussd.h). -/
structure UssdRoute where
  pfx : Bytes
  /-- `is_external` with the EUSE, or an internal handler -/
  to : Ent ⊕ Iuse
deriving DecidableEq, Repr

/-- `struct hlr` (include/osmocom/hlr/hlr.h 43-122) and the functions of libosmocore the
handlers use.  Every event of a run has its own (`run`): the configuration may change in between. -/
structure Cfg where
  hlr : Hlr.Cfg := {}
  crypto : Auc.Crypto
  /-- `gsup_unit_name.serno` -/
  myName : Bytes := []
  /-- does `osmo_gsup_encode()` succeed -/
  enc : Msg → Bool := fun _ => true
  /-- `gsm0480_parse_facility_ie()` -/
  parseSs : Bytes → Option SsReq := fun _ => none
  /-- `gsm0480_gen_return_error()`, `gsm0480_gen_ussd_resp_7bit()` -/
  ssError : Nat → Nat → Bytes := fun _ _ => []
  ssText : Nat → Bytes → Bytes := fun _ _ => []
  /-- `gsm48_decode_bcd_number2()` on an IMEI IE with a buffer of 15 bytes -/
  imeiDec : Bytes → Option Bytes := fun _ => none
  /-- `gsm48_decode_bcd_number2()` on the digits of an SMSC address -/
  bcdDec : Bytes → Bytes := fun x => x
  /-- `gsm48_encode_bcd_number()` of an MSISDN into OSMO_GSUP_MAX_CALLED_PARTY_BCD_LEN
  bytes; `none` if the result is < 1 -/
  bcdEnc : Bytes → Option Bytes := fun x => some x
  /-- `ps.pdp_profile.num_pdp_infos` if enabled, else the wildcard APN counts as 1 -/
  pdpInfos : Nat := 1
  /-- `ncss_guard_timeout`, seconds -/
  guard : Nat := 30
  euses : List Ent := []
  ussdRoutes : List UssdRoute := []
  euseDefault : Option Ent := none
  smscs : List Ent := []
  smscRoutes : List (Bytes × Ent) := []
  smscDefault : Option Ent := none
  /-- GSM411_SMSC_ADDR_MAX_OCTETS (libosmocore) -/
  daMax : Nat := 11
  /-- `no_proxy_reject_cause` -/
  noProxyCause : Cause := .netFail
  /-- `gsm48_decode_bcd_number2()` on an encoded MSISDN with a buffer of 16 bytes -/
  msisdnDec : Bytes → Option Bytes := fun x => some x

/-- What the outside world contributes to one event: the fates of the database
statements, random data, the clock, and the state of the distributed GSM client (which the
configuration interface may change between events). -/
structure Env where
  sc : Script := []
  rands : Nat → Option Bytes := fun _ => none
  rnd : Nat → Option (Nat → UInt8) := fun _ => none
  now : Option Int := some 0
  /-- fates of the statements of the check whether the subscriber exists (dgsm.c 95) -/
  sc0 : Script := []
  /-- osmo_mslookup_client_active() -/
  lookup : Bool := false
  /-- `mslookup.client.gsup_gateway_proxy` -/
  gateway : Addr := {}
  /-- the time as timestamp_update() stores it (see Verif.Mslookup.Timestamp) -/
  clock : Int := 0
  /-- does osmo_gsup_client_create3() succeed -/
  connectOk : Bool := true

def Sys.emit (s : Sys) (o : Out) : Sys := { s with log := o :: s.log }

/-- The process dies (a `OSMO_ASSERT`, a signal, power loss) and starts again: only the
database survives. -/
def Sys.crash (s : Sys) : Sys :=
  { db := s.db, nextReq := s.nextReq, nextConn := s.nextConn, log := .restart :: s.log }

/-- Run a database program; if the process dies on the way it is restarted. -/
def withDb (s : Sys) (sc : Script) (m : DbM α) (k : α → Sys → Sys) : Sys :=
  match (exec m s.db sc).1 with
  | none => Sys.crash { s with db := (exec m s.db sc).2 }
  | some a => k a { s with db := (exec m s.db sc).2 }

/-! ## gsup_router.c -/

/-- gsup_route_find (gsup_router.c 37-48): address length and bytes must be equal. -/
def routeFind (rs : List (Bytes × ConnId)) (addr : Bytes) : Option ConnId :=
  (rs.find? (·.1 == addr)).map (·.2)

/-- gsup_route_add (gsup_router.c 72-97); memory is never exhausted. -/
def routeAdd (rs : List (Bytes × ConnId)) (c : ConnId) (addr : Bytes) :
    Int × List (Bytes × ConnId) :=
  match routeFind rs addr with
  | some c' => (if c' = c then 0 else -EEXIST, rs)
  | none => (0, rs ++ [(addr, c)])

/-- gsup_route_del_conn (gsup_router.c 105-121). -/
def routeDelConn (rs : List (Bytes × ConnId)) (c : ConnId) : List (Bytes × ConnId) :=
  rs.filter (·.2 != c)

/-! ## gsup_send.c -/

/-- osmo_gsup_addr_send (gsup_send.c 37-52) and osmo_gsup_conn_send (gsup_server.c 57-67). -/
def addrSend (s : Sys) (addr : Bytes) (m : Msg) : Int × Sys :=
  match routeFind s.routes addr with
  | none => (-ENODEV, s)
  | some c => (0, s.emit (.tx c m none))

/-- osmo_gsup_send_to_ipa_name (gsup_send.c 59-74).  For an empty name the C code looks
at the byte before the buffer; that is the most significant byte of `len`, which is 0,
so the empty name is looked up. -/
def sendToIpa (s : Sys) (n : IpaName) (m : Msg) : Int × Sys :=
  if n.len = 0 then addrSend s [] m
  else if n.val.getD (n.len - 1) 0 ≠ 0 then
    if n.len ≥ 128 then (-EINVAL, s) else addrSend s (n.name ++ [0]) m
  else addrSend s n.name m

/-- osmo_gsup_enc_send_to_ipa_name (gsup_send.c 76-91). -/
def encSendToIpa (cfg : Cfg) (s : Sys) (n : IpaName) (m : Msg) : Int × Sys :=
  if cfg.enc m then sendToIpa s n m else (-EINVAL, s)

/-! ## Responses -/

/-- The name a response is sent to (gsup_server.c 77-86). -/
def Req.routing (q : Req) (m : Msg) : IpaName :=
  match q.viaProxy with
  | .ipa n => if m.typ = ROUTING_ERROR ∧ !n.isEmpty then n else q.source
  | .empty => q.source

/-- gsup_server_send_req_response (gsup_server.c 69-113). -/
def sendReqResponse (cfg : Cfg) (s : Sys) (q : Req) (m : Msg) : Sys :=
  match routeFind s.routes (q.routing m).name with
  | none => s
  | some c => if cfg.enc m then s.emit (.tx c m (some q.nr)) else s

/-- _osmo_gsup_req_respond (gsup_req.c 200-228). -/
def respond (cfg : Cfg) (s : Sys) (q : Req) (reply : Msg) (error final : Bool) : Int × Sys :=
  let r := makeResponse reply q.gsup error final
  let s1 := if r.1 ≠ 0 then s else sendReqResponse cfg s q r.2
  let s2 := if final then s1.emit (.concl q.nr .answered) else s1
  (if r.1 ≠ 0 then -EINVAL else 0, s2)

/-- osmo_gsup_req_free (gsup_req.c 171-179). -/
def reqFree (s : Sys) (q : Req) (how : How) : Sys := s.emit (.concl q.nr how)

/-- _osmo_gsup_req_respond_msgt (gsup_req.c 242-250) with `final_response`. -/
def respondMsgt (cfg : Cfg) (s : Sys) (q : Req) (t : Nat) : Sys :=
  (respond cfg s q { typ := t } (t % 4 == 1) true).2

/-- _osmo_gsup_req_respond_err (gsup_req.c 263-277): only requests are answered. -/
def respondErr (cfg : Cfg) (s : Sys) (q : Req) (c : Cause) : Sys :=
  if !isRequest q.gsup.typ then reqFree s q .dropped
  else (respond cfg s q { cause := some c } true true).2

/-- osmo_gsup_forward_to_local_peer (gsup_server.c 495-529), for an IPA name (no other
kind of name can be made). -/
def forwardToLocalPeer (cfg : Cfg) (s : Sys) (n : IpaName) (q : Req) : Sys :=
  let r := encSendToIpa cfg s n { q.gsup with src := q.source.name }
  if r.1 ≠ 0 then respondMsgt cfg r.2 q ROUTING_ERROR else reqFree r.2 q .forwarded

/-! ## Connections -/

/-- osmo_gsup_server_accept_cb (gsup_server.c 334-371). -/
def connect (s : Sys) : Sys :=
  { s with conns := s.conns ++ [{ id := s.nextConn }], nextConn := s.nextConn + 1,
           log := .connected s.nextConn :: s.log }

/-- osmo_gsup_conn_free (gsup_server.c 302-307), from osmo_gsup_server_closed_cb. -/
def close (s : Sys) (c : ConnId) : Sys :=
  { s with conns := s.conns.filter (·.id != c), routes := routeDelConn s.routes c,
           log := .closed c :: s.log }

def Sys.conn? (s : Sys) (c : ConnId) : Option Conn := s.conns.find? (·.id == c)

def setConn (s : Sys) (k : Conn) : Sys :=
  { s with conns := s.conns.map (fun x => if x.id == k.id then k else x) }

/-- osmo_gsup_server_ccm_cb (gsup_server.c 273-300): `sernr` is the serial number element
of the identity response.  Without one, libosmo-abis closes the connection (caller
`osmo_gsup_server_read_cb`, gsup_server.c 182-188). -/
def ccmCb (s : Sys) (k : Conn) (sernr : Option Bytes) : Sys :=
  match sernr with
  | none => close s k.id
  | some [] => close s k.id
  | some (x :: l) =>
    let n := (ipaSet k.name (x :: l)).2
    let s1 := setConn s { k with name := n, ccm := some (x :: l) }
    { s1 with routes := (routeAdd s1.routes k.id n.name).2 }

end Verif.Sys
