import Verif.Mslookup.Config
import Verif.Mslookup.MdnsConfig
import Verif.Mslookup.Mdns
/-!
# The configuration of the HLR: `src/hlr_vty.c`, `src/dgsm_vty.c` and the objects they work on

The configuration in memory, the commands, the text that `write file` and `show running-config`
produce, and how that text is read at the next start.  Objects that commands free have an identity,
so that pointers to freed objects can be told from valid ones.
-/
namespace Verif.Config
open Verif Verif.Sys Verif.Mslookup Verif.Mslookup.Mdns

/-- The causes that can be configured: `gsm48_gmm_cause_vty_names` (hlr_vty.c 50-61). -/
inductive Rej where
  | imsiUnknown | illegalMs | plmnNotAllowed | laNotAllowed | roamingNotAllowed | noSuitableCell
  | netFail | congestion | authUnacceptable | protoErrorUnspec
deriving DecidableEq, Repr

/-- The names in that table. -/
def Rej.text : Rej → Bytes
  | .imsiUnknown => b "imsi-unknown"
  | .illegalMs => b "illegal-ms"
  | .plmnNotAllowed => b "plmn-not-allowed"
  | .laNotAllowed => b "la-not-allowed"
  | .roamingNotAllowed => b "roaming-not-allowed"
  | .noSuitableCell => b "no-suitable-cell-in-la"
  | .netFail => b "net-fail"
  | .congestion => b "congestion"
  | .authUnacceptable => b "auth-unacceptable"
  | .protoErrorUnspec => b "proto-error-unspec"

def Rej.all : List Rej := [.imsiUnknown, .illegalMs, .plmnNotAllowed, .laNotAllowed, .roamingNotAllowed,
  .noSuitableCell, .netFail, .congestion, .authUnacceptable, .protoErrorUnspec]

/-- get_string_value() on the table (hlr_vty.c 782); only names of the table reach it, since they
are the choices in the command's pattern (hlr_vty.c 885-889). -/
def Rej.of (w : Bytes) : Option Rej := Rej.all.find? (fun r => r.text == w)

/-- The causes as the handlers send them (3GPP TS 24.008 10.5.5.14, `enum gsm48_gmm_cause`). -/
def Rej.cause : Rej → Hlr.Cause
  | .imsiUnknown => .imsiUnknown
  | .illegalMs => .other 3
  | .plmnNotAllowed => .plmnNotAllowed
  | .laNotAllowed => .other 12
  | .roamingNotAllowed => .other 13
  | .noSuitableCell => .other 15
  | .netFail => .netFail
  | .congestion => .other 22
  | .authUnacceptable => .other 23
  | .protoErrorUnspec => .other 111

/-- `struct hlr_euse` (hlr_ussd.h 24-36) and `struct hlr_smsc` (hlr_sms.h 5-13): the object's
identity and its name. -/
structure Ent where
  id : Nat
  name : Bytes
deriving DecidableEq, Repr

/-- `u` and `is_external` of `struct hlr_ussd_route` (hlr_ussd.h 12-22). -/
inductive Tgt where
  | int (i : Iuse)
  | ext (id : Nat)
deriving DecidableEq, Repr

/-- `struct hlr_ussd_route` (hlr_ussd.h 12-22). -/
structure URoute where
  pfx : Bytes
  tgt : Tgt
deriving DecidableEq, Repr

/-- `struct hlr_smsc_route` (hlr_sms.h 19-23). -/
structure SRoute where
  num : Bytes
  smsc : Nat
deriving DecidableEq, Repr

/-- `struct osmo_gsup_pdp_info` (libosmocore): the context id, 0 if the slot is free
(hlr_vty.c 156), `have_info`, and the encoded APN if there is one. -/
structure Pdp where
  ctx : Nat := 0
  info : Bool := false
  apn : Option Bytes := none
deriving DecidableEq, Repr

/-- `mslookup` of `struct hlr` (hlr.h 92-131), without what is running: server and client settings,
the services, the gateway and the client's timeout. -/
structure Msl where
  srv : MdnsConfig.Half := MdnsConfig.init.srv
  cli : MdnsConfig.Half := MdnsConfig.init.cli
  services : Services := []
  gateway : Addr := {}
  /-- OSMO_DGSM_DEFAULT_RESULT_TIMEOUT_MS (dgsm.h 28) -/
  timeout : Nat := 2000
deriving DecidableEq, Repr

/-- `struct hlr` (include/osmocom/hlr/hlr.h 43-132) as far as it is configuration; the initial values
are those of main() (hlr.c 771-785) and dgsm_init() (dgsm.c 167-182). -/
structure St where
  rej : Rej := .plmnNotAllowed
  noProxy : Rej := .netFail
  storeImei : Bool := false
  /-- `db_file_path` -/
  db : Bytes := b "hlr.db"
  /-- `subscr_create_on_demand` -/
  cod : Hlr.CodMode := .disabled
  codCs : Bool := false
  codPs : Bool := false
  /-- `gsup_bind_addr` -/
  bind : Option Bytes := none
  /-- `gsup_unit_name.serno` -/
  ipa : Bytes := b "unnamed-HLR"
  euses : List Ent := []
  routes : List URoute := []
  euseDefault : Option Nat := none
  /-- `ncss_guard_timeout` -/
  guard : Nat := 30
  smscs : List Ent := []
  smscRoutes : List SRoute := []
  smscDefault : Option Nat := none
  /-- `ps.pdp_profile.enabled` -/
  pdpOn : Bool := false
  /-- `ps.pdp_profile.pdp_infos`, OSMO_GSUP_MAX_NUM_PDP_INFO = 10 slots (libosmocore) -/
  slots : List Pdp := List.replicate 10 {}
  /-- `ps.pdp_profile.num_pdp_infos` -/
  num : Nat := 0
  msl : Msl := {}
  /-- the identity of the next object -/
  nextId : Nat := 0
deriving DecidableEq, Repr

/-! ## PDP profiles -/

/-- get_pdp_profile (hlr_vty.c 157-166): the first slot with this context id. -/
def getPdp (c : Nat) (l : List Pdp) : Option Nat := l.findIdx? (fun p => p.ctx == c)

/-- create_pdp_profile (hlr_vty.c 168-180): the slot and the new state. -/
def createPdp (c : Nat) (s : St) : Option (Nat × St) :=
  (getPdp 0 s.slots).map fun i => (i, { s with slots := s.slots.set i { ctx := c, info := true }, num := s.num + 1 })

/-- destroy_pdp_profile (hlr_vty.c 182-190); `num_pdp_infos` is a `size_t`. -/
def destroyPdp (i : Nat) (s : St) : St :=
  { s with slots := s.slots.set i {}, num := if s.num = 0 then 2 ^ 64 - 1 else s.num - 1 }

/-- APN_MAXLEN (libosmocore gsm/apn.h). -/
abbrev APN_MAXLEN : Nat := 100

/-- One label after the other, each after its length: the text up to the next full stop is collected
in `acc`. -/
def apnEncGo (acc : Bytes) : Bytes → Bytes
  | [] => acc.length.toUInt8 :: acc
  | c :: s => if c = 46 then acc.length.toUInt8 :: (acc ++ apnEncGo [] s) else apnEncGo (acc ++ [c]) s

/-- osmo_apn_from_str() (libosmocore gsm/apn.c; assumption) with a buffer of strlen() + 1 bytes, with
which it cannot fail (hlr_vty.c 248-255). -/
def apnEnc (s : Bytes) : Bytes := apnEncGo [] s

/-- osmo_apn_to_str() (libosmocore gsm/apn.c; assumption): it stops at an empty label, and writes a
full stop after each label that is not the last.  `none`: a label reaches beyond the end. -/
def apnDec : Nat → Bytes → Option Bytes
  | _, [] => some []
  | 0, _ => none
  | f + 1, l :: s =>
    if l = 0 then some []
    else if s.length < l.toNat then none
    else (apnDec f (s.drop l.toNat)).map fun t =>
      s.take l.toNat ++ (if s.length > l.toNat then 46 :: t else t)

/-- The text of an encoded APN.  If osmo_apn_to_str() fails, the text in the caller's buffer is what
was there before (hlr_vty.c 354, 371); not reachable. -/
def apnText (a : Bytes) : Bytes := (apnDec a.length a).getD []

/-! ## USSD and SMS routing -/

/-- euse_find (hlr_ussd.c 43-52), smsc_find (hlr_sms.c 43-52). -/
def entFind (l : List Ent) (n : Bytes) : Option Ent := l.find? (fun x => x.name == n)

/-- The object a pointer points to, `none` if it has been freed. -/
def deref (l : List Ent) (id : Nat) : Option Ent := l.find? (fun x => x.id == id)

/-- ussd_route_find_prefix (hlr_ussd.c 76-85). -/
def routeFind (l : List URoute) (p : Bytes) : Option URoute := l.find? (fun r => r.pfx == p)

/-- ussd_route_del() (hlr_ussd.c 120-124) of the route that ussd_route_find_prefix() found. -/
def routeDel (p : Bytes) : List URoute → List URoute
  | [] => []
  | r :: l => if r.pfx == p then l else r :: routeDel p l

/-- smsc_route_find (hlr_sms.c 75-84). -/
def smscRouteFind (l : List SRoute) (n : Bytes) : Option SRoute := l.find? (fun r => r.num == n)

/-- smsc_route_free() (hlr_sms.c 103-107) of the route that smsc_route_find() found. -/
def smscRouteDel (n : Bytes) : List SRoute → List SRoute
  | [] => []
  | r :: l => if r.num == n then l else r :: smscRouteDel n l

/-- llist_del() of an object (hlr_ussd.c 69-73, hlr_sms.c 69-73). -/
def entDel (id : Nat) (l : List Ent) : List Ent := l.filter (fun x => x.id != id)

/-! ## Commands -/

/-- `vty->node`, with `vty->index` where a command uses it: the slot of the profile being configured,
the MSC whose services are configured. -/
inductive Node where
  | config | hlr | gsup | euse | smsc | ps | profiles
  | profile (slot : Nat)
  | mslookup
  | server (n : Mslookup.Node)
  | client
deriving DecidableEq, Repr

/-- The commands of hlr_vty.c and dgsm_vty.c that change the configuration. -/
inductive Cmd where
  | hlr | gsup | ps
  | pdpProfiles | noPdpProfiles
  | profile (c : Nat) | noProfile (c : Nat)
  | apn (n : Bytes) | noApn
  | bindIp (a : Bytes) | ipaName (n : Bytes)
  | database (p : Bytes)
  | euse (n : Bytes) | noEuse (n : Bytes)
  | routeInt (p : Bytes) (i : Iuse) | routeExt (p n : Bytes) | noRoute (p : Bytes)
  | ussdDefault (n : Bytes) | noUssdDefault
  | guard (t : Nat)
  | smscEntity (n : Bytes) | noSmscEntity (n : Bytes)
  | smscRoute (num n : Bytes) | noSmscRoute (num : Bytes)
  | smscDefault (n : Bytes) | noSmscDefault
  /-- `reject-cause not-found`, or `reject-cause no-proxy` -/
  | reject (proxy : Bool) (r : Rej)
  | storeImei | noStoreImei
  | cod (m : Hlr.CodMode) (cs ps : Bool) | noCod
  | mslookup
  | msServer | msNoServer | msClient | msNoClient
  | msMdns (a : MdnsConfig.BindArgs) | msSuffix (t : Bytes) | msNoMdns
  | msc (n : Bytes)
  | service (svc : Bytes) (a : Option Addr) | noService (svc : Bytes) | noServiceAt (svc : Bytes) (a : Option Addr)
  | gateway (a : Option Addr) | noGateway
  | timeout (t : Nat)
deriving DecidableEq, Repr

/-- CMD_SUCCESS, CMD_WARNING, CMD_ERR_INCOMPLETE (libosmocore). -/
inductive Res where
  | ok | warning | incomplete
deriving DecidableEq, Repr

/-- mslookup_server_mdns_bind, mslookup_client_mdns_to (dgsm_vty.c 44-82) on the settings. -/
def bindHalf (a : MdnsConfig.BindArgs) (h : MdnsConfig.Half) : Res × MdnsConfig.Half :=
  match a.addr h.addr with
  | none => (.warning, h)
  | some x => (.ok, { h with addr := x, mdns := true, enable := true })

/-- A command of the node `server` or `msc` on the services. -/
def svcCmd (n : Node) (c : Mslookup.Cmd) (s : St) : Res × Node × St :=
  let r := c.exec s.msl.services
  (if r.1 then .ok else .warning, n, { s with msl := { s.msl with services := r.2 } })

/-- Reject an address that cannot be parsed: it is treated like 0, which the commands refuse too
(dgsm_vty.c 253-258, 309-314). -/
def addrOr0 (a : Option Addr) : Addr := a.getD {}

/-- The DEFUNs of dgsm_vty.c (35-398, 484-516), without starting and stopping what is configured
(Verif.Mslookup.MdnsConfig). -/
def execMsl (n : Node) (s : St) : Cmd → Res × Node × St
  | .mslookup => (.ok, .mslookup, s)
  | .msServer => (.ok, .server .server, { s with msl := { s.msl with srv := { s.msl.srv with enable := true } } })
  | .msNoServer => (.ok, n, { s with msl := { s.msl with srv := { s.msl.srv with enable := false } } })
  | .msClient => (.ok, .client, { s with msl := { s.msl with cli := { s.msl.cli with enable := true } } })
  | .msNoClient => (.ok, n, { s with msl := { s.msl with cli := { s.msl.cli with enable := false } } })
  | .msMdns a =>
    let r1 := bindHalf a s.msl.srv
    let r2 := bindHalf a s.msl.cli
    match n with
    | .server _ => (r1.1, n, { s with msl := { s.msl with srv := r1.2 } })
    | .client => (r2.1, n, { s with msl := { s.msl with cli := r2.2 } })
    | _ => (if r1.1 = .ok then r2.1 else r1.1, n, { s with msl := { s.msl with srv := r1.2, cli := r2.2 } })
  | .msSuffix t =>
    match n with
    | .server _ => (.ok, n, { s with msl := { s.msl with srv := { s.msl.srv with suffix := t } } })
    | .client => (.ok, n, { s with msl := { s.msl with cli := { s.msl.cli with suffix := t } } })
    | _ => (.ok, n, { s with msl := { s.msl with srv := { s.msl.srv with suffix := t }
                                                 cli := { s.msl.cli with suffix := t } } })
  | .msNoMdns =>
    match n with
    | .server _ => (.ok, n, { s with msl := { s.msl with srv := { s.msl.srv with mdns := false } } })
    | .client => (.ok, n, { s with msl := { s.msl with cli := { s.msl.cli with mdns := false } } })
    | _ => (.ok, n, { s with msl := { s.msl with srv := { s.msl.srv with mdns := false }
                                                 cli := { s.msl.cli with mdns := false } } })
  | .msc m => svcCmd (.server (.msc m)) (.enter (.msc m)) s
  | .service svc a => match n with
    | .server m => svcCmd n (.service m svc (addrOr0 a)) s
    | _ => (.warning, n, s)
  | .noService svc => match n with
    | .server m => svcCmd n (.noService m svc) s
    | _ => (.warning, n, s)
  | .noServiceAt svc a => match n with
    | .server m => svcCmd n (.noServiceAt m svc (addrOr0 a)) s
    | _ => (.warning, n, s)
  | .gateway a =>
    if (addrOr0 a).nonzero then (.ok, n, { s with msl := { s.msl with gateway := addrOr0 a } }) else (.warning, n, s)
  | .noGateway => (.ok, n, { s with msl := { s.msl with gateway := {} } })
  | .timeout t => (.ok, n, { s with msl := { s.msl with timeout := t } })
  | _ => (.warning, n, s)

/-- The DEFUNs of hlr_vty.c (88-284, 405-833).  `file` says whether the command comes from the
configuration file (`vty->type`).  A new object gets an identity no object had before. -/
def exec (file : Bool) (n : Node) (s : St) : Cmd → Res × Node × St
  | .hlr => (.ok, .hlr, s)
  | .gsup => (.ok, .gsup, s)
  | .ps => (.ok, .ps, s)
  | .pdpProfiles => (.ok, .profiles, { s with pdpOn := true })
  | .noPdpProfiles => (.ok, n, { s with pdpOn := false })
  | .profile c =>
    match getPdp c s.slots with
    | some i => (.ok, .profile i, s)
    | none => match createPdp c s with
      | some (i, s) => (.ok, .profile i, s)
      | none => (.incomplete, n, s)
  | .noProfile c =>
    match getPdp c s.slots with
    | some i => (.ok, n, destroyPdp i s)
    | none => (.ok, n, s)
  | .apn a =>
    match n with
    | .profile i =>
      if a.length + 1 > APN_MAXLEN then (.incomplete, n, s)
      else (.ok, n, { s with slots := s.slots.modify i fun p => { p with apn := some (apnEnc a) } })
    | _ => (.warning, n, s)
  | .noApn =>
    match n with
    | .profile i => (.ok, n, { s with slots := s.slots.modify i fun p => { p with apn := none } })
    | _ => (.warning, n, s)
  | .bindIp a => (.ok, n, { s with bind := some a })
  | .ipaName x => if file then (.ok, n, { s with ipa := x }) else (.warning, n, s)
  | .database p => (.ok, n, { s with db := p })
  | .euse x =>
    match entFind s.euses x with
    | some _ => (.ok, .euse, s)
    | none => (.ok, .euse, { s with euses := s.euses ++ [⟨s.nextId, x⟩], nextId := s.nextId + 1 })
  | .noEuse x =>
    match entFind s.euses x with
    | none => (.warning, n, s)
    | some e => if s.euseDefault = some e.id then (.warning, n, s) else (.ok, n, { s with euses := entDel e.id s.euses })
  | .routeInt p i =>
    match routeFind s.routes p with
    | some _ => (.warning, n, s)
    | none => (.ok, n, { s with routes := s.routes ++ [⟨p, .int i⟩] })
  | .routeExt p x =>
    match routeFind s.routes p, entFind s.euses x with
    | some _, _ => (.warning, n, s)
    | none, none => (.warning, n, s)
    | none, some e => (.ok, n, { s with routes := s.routes ++ [⟨p, .ext e.id⟩] })
  | .noRoute p =>
    match routeFind s.routes p with
    | none => (.warning, n, s)
    | some _ => (.ok, n, { s with routes := routeDel p s.routes })
  | .ussdDefault x =>
    match entFind s.euses x with
    | none => (.warning, n, s)
    | some e => (.ok, n, { s with euseDefault := some e.id })
  | .noUssdDefault => (.ok, n, { s with euseDefault := none })
  | .guard t => (.ok, n, { s with guard := t })
  | .smscEntity x =>
    match entFind s.smscs x with
    | some _ => (.ok, .smsc, s)
    | none => (.ok, .smsc, { s with smscs := s.smscs ++ [⟨s.nextId, x⟩], nextId := s.nextId + 1 })
  | .noSmscEntity x =>
    match entFind s.smscs x with
    | none => (.warning, n, s)
    | some e => if s.smscDefault = some e.id then (.warning, n, s) else (.ok, n, { s with smscs := entDel e.id s.smscs })
  | .smscRoute num x =>
    match smscRouteFind s.smscRoutes num, entFind s.smscs x with
    | some _, _ => (.warning, n, s)
    | none, none => (.warning, n, s)
    | none, some e => (.ok, n, { s with smscRoutes := s.smscRoutes ++ [⟨num, e.id⟩] })
  | .noSmscRoute num =>
    match smscRouteFind s.smscRoutes num with
    | none => (.warning, n, s)
    | some _ => (.ok, n, { s with smscRoutes := smscRouteDel num s.smscRoutes })
  | .smscDefault x =>
    match entFind s.smscs x with
    | none => (.warning, n, s)
    | some e => (.ok, n, { s with smscDefault := some e.id })
  | .noSmscDefault => (.ok, n, { s with smscDefault := none })
  | .reject proxy r => (.ok, n, if proxy then { s with noProxy := r } else { s with rej := r })
  | .storeImei => (.ok, n, { s with storeImei := true })
  | .noStoreImei => (.ok, n, { s with storeImei := false })
  | .cod m cs ps => (.ok, n, { s with cod := m, codCs := cs, codPs := ps })
  | .noCod => (.ok, n, { s with cod := .disabled })
  | c => execMsl n s c

/-! ## Words -/

/-- The keywords of the commands. -/
inductive Kw where
  | no | hlr | gsup | ps | pdpProfiles | default | profile | apn | bind | ip | ipaName | database | euse
  | ussd | route | prefix | internal | external | defaultRoute | ncssGuardTimeout | smsc | entity
  | rejectCause | notFound | noProxy | storeImei | cod | noMsisdn | msisdnFromImsi
  | none_ | cs | csps | ownMsisdn | ownImsi | testIdle
  | mslookup | server | client | mdns | domainSuffix | msc | service | at_ | gatewayProxy | timeout
deriving DecidableEq, Repr

def Kw.text : Kw → Bytes
  | .no => b "no" | .hlr => b "hlr" | .gsup => b "gsup" | .ps => b "ps" | .pdpProfiles => b "pdp-profiles"
  | .default => b "default" | .profile => b "profile" | .apn => b "apn" | .bind => b "bind" | .ip => b "ip"
  | .ipaName => b "ipa-name" | .database => b "database" | .euse => b "euse" | .ussd => b "ussd"
  | .route => b "route" | .prefix => b "prefix" | .internal => b "internal" | .external => b "external"
  | .defaultRoute => b "default-route" | .ncssGuardTimeout => b "ncss-guard-timeout" | .smsc => b "smsc"
  | .entity => b "entity" | .rejectCause => b "reject-cause" | .notFound => b "not-found" | .noProxy => b "no-proxy"
  | .storeImei => b "store-imei" | .cod => b "subscriber-create-on-demand" | .noMsisdn => b "no-msisdn"
  | .msisdnFromImsi => b "msisdn-from-imsi" | .none_ => b "none" | .cs => b "cs" | .csps => b "cs+ps"
  | .ownMsisdn => b "own-msisdn" | .ownImsi => b "own-imsi" | .testIdle => b "test-idle"
  | .mslookup => b "mslookup" | .server => b "server" | .client => b "client" | .mdns => b "mdns"
  | .domainSuffix => b "domain-suffix" | .msc => b "msc" | .service => b "service" | .at_ => b "at"
  | .gatewayProxy => b "gateway-proxy" | .timeout => b "timeout"

def Kw.all : List Kw := [.no, .hlr, .gsup, .ps, .pdpProfiles, .default, .profile, .apn, .bind, .ip, .ipaName,
  .database, .euse, .ussd, .route, .prefix, .internal, .external, .defaultRoute, .ncssGuardTimeout, .smsc, .entity,
  .rejectCause, .notFound, .noProxy, .storeImei, .cod, .noMsisdn, .msisdnFromImsi, .none_, .cs, .csps, .ownMsisdn,
  .ownImsi, .testIdle, .mslookup, .server, .client, .mdns, .domainSuffix, .msc, .service, .at_, .gatewayProxy, .timeout]

/-- The keyword a word is.  The configuration file must spell keywords in full
(cmd_execute_command_strict(), libosmocore). -/
def Kw.of (w : Bytes) : Option Kw := Kw.all.find? (fun k => k.text == w)

/-- A word for a range `<lo-hi>` (cmd_range_match(), libosmocore; assumption) and its value by
atoi(). -/
def rangeVal (lo hi : Nat) (w : Bytes) : Option Nat :=
  if w = [] then none
  else match digitsVal 0 w with
    | some v => if lo ≤ v ∧ v ≤ hi then some v else none
    | none => none

/-- The functions of libosmocore that work on the text of addresses: cmd_ipv4_match(),
osmo_sockaddr_str_from_str() (address family and address; `none` if it is none), the `ip` field of
`struct osmo_sockaddr_str`, and osmo_escape_str() of the characters it does not leave alone. -/
structure Env where
  ipv4 : Bytes → Bool
  ipParse : Bytes → Option (Bool × Nat)
  ipText : Bool × Nat → Bytes
  esc : UInt8 → Bytes

def Env.addr (e : Env) (ip : Bytes) (port : Nat) : Option Addr :=
  (e.ipParse ip).map fun a => { v6 := a.1, ip := a.2, port := port }

/-- The internal handlers (`hlr_iuses`, hlr_ussd.c 427-440, and INT_CHOICE, hlr_vty.c 443). -/
def iuseText : Iuse → Bytes
  | .ownMsisdn => Kw.text .ownMsisdn
  | .ownImsi => Kw.text .ownImsi
  | .testIdle => Kw.text .testIdle

/-- The first word of the create-on-demand command's arguments (hlr_vty.c 826-834). -/
def codMode (w : Bytes) : Option Hlr.CodMode :=
  match Kw.of w with
  | some .noMsisdn => some .noMsisdn
  | some .msisdnFromImsi => some .msisdnFromImsi
  | _ => (rangeVal 3 15 w).map .randMsisdn

/-- Its second word: strstr() for "cs" and "ps" (hlr_vty.c 836-839) on the four choices. -/
def codFlags (w : Bytes) : Option (Bool × Bool) :=
  match Kw.of w with
  | some .none_ => some (false, false)
  | some .cs => some (true, false)
  | some .ps => some (false, true)
  | some .csps => some (true, true)
  | _ => none

/-- The optional arguments of `mdns bind [IP] [PORT]`. -/
def bindArgs (e : Env) : List Bytes → Option MdnsConfig.BindArgs
  | [] => some {}
  | [ip] => some { ip := some (e.ipParse ip) }
  | [ip, port] => (rangeVal 1 65535 port).map fun p => { ip := some (e.ipParse ip), port := some p }
  | _ => none

/-- The commands that begin with `no` in the node `hlr` (hlr_vty.c 881-977). -/
def parseNoHlr : List Bytes → Option Cmd
  | [k] => match Kw.of k with
    | some .storeImei => some .noStoreImei
    | some .cod => some .noCod
    | _ => none
  | [k, x] => match Kw.of k, Kw.of x with
    | some .euse, _ => some (.noEuse x)
    | some .ussd, some .defaultRoute => some .noUssdDefault
    | some .smsc, some .defaultRoute => some .noSmscDefault
    | _, _ => none
  | [k, k2, x] => match Kw.of k, Kw.of k2 with
    | some .smsc, some .entity => some (.noSmscEntity x)
    | some .smsc, some .route => some (.noSmscRoute x)
    | _, _ => none
  | [k, k2, k3, x] => match Kw.of k, Kw.of k2, Kw.of k3 with
    | some .ussd, some .route, some .prefix => some (.noRoute x)
    | _, _, _ => none
  | _ => none

/-- The commands installed in the node `hlr` (hlr_vty.c 881-977). -/
def parseHlr : List Bytes → Option Cmd
  | [] => none
  | w :: ws => match Kw.of w with
    | some .no => parseNoHlr ws
    | some .gsup => if ws = [] then some .gsup else none
    | some .ps => if ws = [] then some .ps else none
    | some .database => match ws with | [p] => some (.database p) | _ => none
    | some .euse => match ws with | [x] => some (.euse x) | _ => none
    | some .ussd => match ws with
      | [k1, k2, x] => match Kw.of k1, Kw.of k2 with
        | some .defaultRoute, some .external => some (.ussdDefault x)
        | _, _ => none
      | [k1, k2, p, k3, x] => match Kw.of k1, Kw.of k2, Kw.of k3 with
        | some .route, some .prefix, some .external => some (.routeExt p x)
        | some .route, some .prefix, some .internal => match Kw.of x with
          | some .ownMsisdn => some (.routeInt p .ownMsisdn)
          | some .ownImsi => some (.routeInt p .ownImsi)
          | some .testIdle => some (.routeInt p .testIdle)
          | _ => none
        | _, _, _ => none
      | _ => none
    | some .ncssGuardTimeout => match ws with | [t] => (rangeVal 0 255 t).map .guard | _ => none
    | some .smsc => match ws with
      | [k, x] => match Kw.of k with
        | some .entity => some (.smscEntity x)
        | some .defaultRoute => some (.smscDefault x)
        | _ => none
      | [k, num, x] => match Kw.of k with
        | some .route => some (.smscRoute num x)
        | _ => none
      | _ => none
    | some .rejectCause => match ws with
      | [k, c] => match Kw.of k with
        | some .notFound => (Rej.of c).map (.reject false)
        | some .noProxy => (Rej.of c).map (.reject true)
        | _ => none
      | _ => none
    | some .storeImei => if ws = [] then some .storeImei else none
    | some .cod => match ws with
      | [m, f] => match codMode m, codFlags f with
        | some m, some f => some (.cod m f.1 f.2)
        | _, _ => none
      | _ => none
    | _ => none

/-- The commands installed in the nodes of dgsm_vty.c (550-584). -/
def parseMsl (e : Env) (n : Node) : List Bytes → Option Cmd
  | [] => none
  | w :: ws => match n, Kw.of w with
    | .mslookup, some .server => if ws = [] then some .msServer else none
    | .mslookup, some .client => if ws = [] then some .msClient else none
    | .client, some .timeout => match ws with | [t] => (rangeVal 1 100000 t).map .timeout | _ => none
    | .client, some .gatewayProxy => match ws with
      | [ip] => some (.gateway (e.addr ip 4222))
      | [ip, p] => (rangeVal 1 65535 p).map fun p => .gateway (e.addr ip p)
      | _ => none
    | .server _, some .service => match ws with
      | [svc, k, ip, p] => match Kw.of k with
        | some .at_ => (rangeVal 1 65535 p).map fun p => .service svc (e.addr ip p)
        | _ => none
      | _ => none
    | .server .server, some .msc => match ws with
      | k :: x :: xs => match Kw.of k with
        | some .ipaName => some (.msc ([32].intercalate (x :: xs)))
        | _ => none
      | _ => none
    | .server (.msc _), some .mdns => none
    | _, some .mdns => match ws with
      | k :: ws => match Kw.of k with
        | some .bind => (bindArgs e ws).map .msMdns
        | some .domainSuffix => match ws with | [t] => some (.msSuffix t) | _ => none
        | _ => none
      | [] => none
    | _, some .no => match ws with
      | [k] => match n, Kw.of k with
        | .mslookup, some .server => some .msNoServer
        | .mslookup, some .client => some .msNoClient
        | .client, some .gatewayProxy => some .noGateway
        | _, _ => none
      | [k, x] => match n, Kw.of k, Kw.of x with
        | .server _, some .service, _ => some (.noService x)
        | .server (.msc _), _, _ => none
        | _, some .mdns, some .bind => some .msNoMdns
        | _, _, _ => none
      | [k, svc, k2, ip, p] => match n, Kw.of k, Kw.of k2 with
        | .server _, some .service, some .at_ => (rangeVal 1 65535 p).map fun p => .noServiceAt svc (e.addr ip p)
        | _, _, _ => none
      | _ => none
    | _, _ => none

/-- Which command a line is in a node: the commands installed in it (hlr_vty.c 881-977). -/
def parse (e : Env) (n : Node) (ws : List Bytes) : Option Cmd :=
  match n with
  | .config => match ws with
    | [k] => match Kw.of k with
      | some .hlr => some .hlr
      | some .mslookup => some .mslookup
      | _ => none
    | _ => none
  | .hlr => parseHlr ws
  | .gsup => match ws with
    | [k, x] => match Kw.of k with
      | some .ipaName => some (.ipaName x)
      | _ => none
    | [k1, k2, x] => match Kw.of k1, Kw.of k2 with
      | some .bind, some .ip => if e.ipv4 x then some (.bindIp x) else none
      | _, _ => none
    | _ => none
  | .euse => none
  | .smsc => none
  | .ps => match ws with
    | [k1, k2] => match Kw.of k1, Kw.of k2 with
      | some .pdpProfiles, some .default => some .pdpProfiles
      | _, _ => none
    | [k0, k1, k2] => match Kw.of k0, Kw.of k1, Kw.of k2 with
      | some .no, some .pdpProfiles, some .default => some .noPdpProfiles
      | _, _, _ => none
    | _ => none
  | .profiles => match ws with
    | [k, c] => match Kw.of k with
      | some .profile => (rangeVal 1 10 c).map .profile
      | _ => none
    | [k0, k, c] => match Kw.of k0, Kw.of k with
      | some .no, some .profile => (rangeVal 1 10 c).map .noProfile
      | _, _ => none
    | _ => none
  | .profile _ => match ws with
    | [k, x] => match Kw.of k, Kw.of x with
      | some .apn, _ => some (.apn x)
      | some .no, some .apn => some .noApn
      | _, _ => none
    | _ => none
  | n => parseMsl e n ws

/-! ## Writing -/

/-- A line of the configuration: how far it is indented, and its words. -/
abbrev Line := Nat × List Bytes

/-- config_write_subscr_create_on_demand (hlr_vty.c 286-318). -/
def writeCod (s : St) : Line :=
  let flags := if s.codCs && s.codPs then Kw.text .csps else if s.codCs then Kw.text .cs
    else if s.codPs then Kw.text .ps else Kw.text .none_
  match s.cod with
  | .msisdnFromImsi => (1, [Kw.text .cod, Kw.text .msisdnFromImsi, flags])
  | .randMsisdn l => (1, [Kw.text .cod, dec l, flags])
  | .noMsisdn => (1, [Kw.text .cod, Kw.text .noMsisdn, flags])
  | .disabled => (1, [Kw.text .no, Kw.text .cod])

/-- config_write_hlr (hlr_vty.c 321-337). -/
def writeHlr (s : St) : List Line :=
  [(0, [Kw.text .hlr]), (1, [Kw.text .rejectCause, Kw.text .notFound, s.rej.text]),
   (1, [Kw.text .rejectCause, Kw.text .noProxy, s.noProxy.text])]
  ++ (if s.storeImei then [(1, [Kw.text .storeImei])] else [])
  ++ (if s.db ≠ b "hlr.db" then [(1, [Kw.text .database, s.db])] else [])
  ++ [writeCod s]

/-- config_write_hlr_gsup (hlr_vty.c 339-347). -/
def writeGsup (s : St) : List Line :=
  [(1, [Kw.text .gsup])]
  ++ (match s.bind with | some a => [(2, [Kw.text .bind, Kw.text .ip, a])] | none => [])
  ++ [(2, [Kw.text .ipaName, s.ipa])]

/-- The line for a USSD route (hlr_vty.c 596-601): `none` if it reads a freed object. -/
def writeRoute (s : St) (r : URoute) : Option Line :=
  match r.tgt with
  | .int i => some (1, [Kw.text .ussd, Kw.text .route, Kw.text .prefix, r.pfx, Kw.text .internal, iuseText i])
  | .ext id => (deref s.euses id).map fun x =>
      (1, [Kw.text .ussd, Kw.text .route, Kw.text .prefix, r.pfx, Kw.text .external, x.name])

/-- All results, if all are there. -/
def allSome : List (Option α) → Option (List α)
  | [] => some []
  | none :: _ => none
  | some x :: l => (allSome l).map (x :: ·)

/-- The line for the default route of USSD (hlr_vty.c 603-604). -/
def writeUssdDefault (s : St) : Option (List Line) :=
  match s.euseDefault with
  | none => some []
  | some id => (deref s.euses id).map fun x => [(1, [Kw.text .ussd, Kw.text .defaultRoute, Kw.text .external, x.name])]

/-- config_write_euse (hlr_vty.c 588-611). -/
def writeEuse (s : St) : Option (List Line) := do
  let rs ← allSome (s.routes.map (writeRoute s))
  let d ← writeUssdDefault s
  some (s.euses.map (fun x => (1, [Kw.text .euse, x.name])) ++ rs ++ d
    ++ (if s.guard ≠ 30 then [(1, [Kw.text .ncssGuardTimeout, dec s.guard])] else []))

/-- The line for an SMSC route (hlr_vty.c 767-770). -/
def writeSmscRoute (s : St) (r : SRoute) : Option Line :=
  (deref s.smscs r.smsc).map fun x => (1, [Kw.text .smsc, Kw.text .route, r.num, x.name])

/-- The line for the default SMSC (hlr_vty.c 772-774). -/
def writeSmscDefault (s : St) : Option (List Line) :=
  match s.smscDefault with
  | none => some []
  | some id => (deref s.smscs id).map fun x => [(1, [Kw.text .smsc, Kw.text .defaultRoute, x.name])]

/-- config_write_smsc (hlr_vty.c 759-777). -/
def writeSmsc (s : St) : Option (List Line) := do
  let rs ← allSome (s.smscRoutes.map (writeSmscRoute s))
  let d ← writeSmscDefault s
  some (s.smscs.map (fun x => (1, [Kw.text .smsc, Kw.text .entity, x.name])) ++ rs ++ d)

/-- The lines for the services (dgsm_vty.c 401-413, 443-452).  The name of an MSC is printed as one
word; it is split again when it is read. -/
def writeSvc (e : Env) : Mslookup.Cmd → Line
  | .enter (.msc m) => (2, [Kw.text .msc, Kw.text .ipaName, m])
  | .service n svc a => (match n with | .server => 2 | .msc _ => 3,
      [Kw.text .service, svc, Kw.text .at_, e.ipText (a.v6, a.ip), dec a.port])
  | _ => (0, [])

/-- config_write_mslookup (dgsm_vty.c 415-482). -/
def writeMsl (e : Env) (m : Msl) : List Line :=
  if !m.srv.enable && m.services.isEmpty && !m.cli.enable then []
  else
    [(0, [Kw.text .mslookup])]
    ++ (if m.srv.enable || !m.services.isEmpty then
        [(1, [Kw.text .server])]
        ++ (if m.srv.mdns then
            [(2, [Kw.text .mdns, Kw.text .bind]
              ++ if m.srv.addr.nonzero then [e.ipText (m.srv.addr.v6, m.srv.addr.ip), dec m.srv.addr.port] else [])] else [])
        ++ (if m.srv.suffix ≠ MdnsConfig.init.srv.suffix then [(2, [Kw.text .mdns, Kw.text .domainSuffix, m.srv.suffix])] else [])
        ++ (writeServices e.esc m.services).map (writeSvc e)
        ++ (if m.srv.enable then [] else [(1, [Kw.text .no, Kw.text .server])])
      else [])
    ++ (if m.cli.enable then
        [(1, [Kw.text .client])]
        ++ (if m.gateway.nonzero then [(2, [Kw.text .gatewayProxy, e.ipText (m.gateway.v6, m.gateway.ip), dec m.gateway.port])] else [])
        ++ (if m.cli.mdns && m.cli.addr.nonzero then
            [(2, [Kw.text .mdns, Kw.text .bind, e.ipText (m.cli.addr.v6, m.cli.addr.ip), dec m.cli.addr.port])] else [])
        ++ (if m.cli.suffix ≠ MdnsConfig.init.cli.suffix then [(2, [Kw.text .mdns, Kw.text .domainSuffix, m.cli.suffix])] else [])
        ++ (if m.timeout ≠ 2000 then [(2, [Kw.text .timeout, dec m.timeout])] else [])
      else [])

/-- config_write_hlr_ps (hlr_vty.c 349-353). -/
def writePs : List Line := [(1, [Kw.text .ps])]

/-- The lines for one slot (hlr_vty.c 361-375). -/
def writePdp (p : Pdp) : List Line :=
  if p.ctx = 0 then []
  else (3, [Kw.text .profile, dec p.ctx]) :: (if p.info then
    match p.apn with
    | some a => if a = [] then [] else [(4, [Kw.text .apn, apnText a])]
    | none => []
    else [])

/-- config_write_hlr_ps_pdp_profiles (hlr_vty.c 355-377). -/
def writePdps (s : St) : List Line :=
  if !s.pdpOn then []
  else (2, [Kw.text .pdpProfiles, Kw.text .default]) :: (s.slots.take s.num).flatMap writePdp

/-- What `write file` and `show running-config` print of the HLR's own configuration.  libosmocore
calls the functions given to install_node() (hlr_vty.c 904-951, dgsm_vty.c 552) in the order of the
node numbers, `enum hlr_vty_node` (hlr_vty.h 31-43); tests/test_nodes.vty shows this order.  `none`:
a freed object is read. -/
def write (e : Env) (s : St) : Option (List Line) := do
  let u ← writeEuse s
  let m ← writeSmsc s
  some (writeHlr s ++ writeGsup s ++ u ++ m ++ writeMsl e s.msl ++ writePs ++ writePdps s)

/-- The text of a line, without the newline. -/
def Line.text (l : Line) : Bytes := List.replicate l.1 32 ++ [32].intercalate l.2

/-! ## Reading -/

/-- cmd_make_strvec2() (libosmocore; assumption): indentation and words of a line; no words for a
line that is empty or a comment.  Only spaces are used as indentation here. -/
def splitWords (acc : Bytes) : Bytes → List Bytes
  | [] => if acc = [] then [] else [acc]
  | c :: s => if isSpace c then (if acc = [] then splitWords [] s else acc :: splitWords [] s) else splitWords (acc ++ [c]) s

def tokens (t : Bytes) : Line :=
  let r := t.dropWhile (· == 32)
  (t.length - r.length, match r with
    | 33 :: _ => []
    | 35 :: _ => []
    | r => splitWords [] r)

/-- The parent nodes of the current one, each with the indentation of its commands. -/
abbrev Parents := List (Node × Nat)

/-- config_from_file() (libosmocore; assumption): the indentation of a line decides in which of the
current node and its parents the command is executed.  `k` is the indentation of the current node's
commands, `none` if the node has just been entered.  `none`: invalid indentation. -/
def align (ind : Nat) : Node → Option Nat → Parents → Option (Node × Nat × Parents)
  | n, none, [] => some (n, ind, [])
  | n, none, (p, k) :: ps => if ind > k then some (n, ind, (p, k) :: ps) else align ind p (some k) ps
  | n, some k, [] => if ind = k then some (n, k, []) else none
  | n, some k, (p, k') :: ps =>
    if ind = k then some (n, k, (p, k') :: ps) else if ind > k then none else align ind p (some k') ps

/-- Where the reader is. -/
structure Reader where
  node : Node := .config
  ind : Option Nat := none
  parents : Parents := []
  st : St := {}
deriving DecidableEq, Repr

/-- The kind of a node, `enum hlr_vty_node`. -/
def Node.kind : Node → Nat
  | .config => 0 | .hlr => 1 | .gsup => 2 | .euse => 3 | .smsc => 4 | .mslookup => 5
  | .server .server => 6 | .server (.msc _) => 7 | .client => 8
  | .ps => 9 | .profiles => 10 | .profile _ => 11

/-- One line of the file: `none` if reading stops with an error.  A command that answers CMD_WARNING
does not stop it. -/
def readLine (e : Env) (r : Reader) (l : Line) : Option Reader :=
  if l.2 = [] then some r
  else match align l.1 r.node r.ind r.parents with
    | none => none
    | some (n, k, ps) => match parse e n l.2 with
      | none => none
      | some c => match exec true n r.st c with
        | (.incomplete, _, _) => none
        | (_, n', s) =>
          if n'.kind = n.kind then some { node := n', ind := some k, parents := ps, st := s }
          else some { node := n', ind := none, parents := (n, k) :: ps, st := s }

/-- The lines of the file, in order. -/
def readLines (e : Env) (r : Reader) : List Line → Option Reader
  | [] => some r
  | l :: ls => (readLine e r l).bind fun r => readLines e r ls

/-- vty_read_config_file() (hlr.c 804) on a freshly started HLR: the configuration, `none` if the
HLR does not start.  The file is given by its lines; lines of more than 510 bytes, which libosmocore
would split, are not modelled. -/
def readFile (e : Env) (ts : List Bytes) : Option St := (readLines e {} (ts.map tokens)).map (·.st)

/-- What is written into the file. -/
def fileOf (e : Env) (s : St) : Option (List Bytes) := (write e s).map fun ls => ls.map Line.text

/-! ## The running HLR's view of its configuration -/

/-- The PDP information that osmo_gsup_create_insert_subscriber_data_msg (gsup_server.c 478-491)
puts into the message: context ids and APNs.  The wildcard APN is "*" with context id 1
(gsup_server.c 418-436). -/
def sentPdps (s : St) : List Pdp :=
  if s.pdpOn then s.slots.take s.num else [{ ctx := 1, info := true, apn := some (apnEnc [42]) }]

/-- find_smsc_route (hlr_sms.c 111-119) and the use of the result (hlr_sms.c 176-190): the name of
the SMSC.  The outer `none` is the use of a freed object. -/
def smscFor (s : St) (addr : Bytes) : Option (Option Bytes) :=
  match smscRouteFind s.smscRoutes addr with
  | some r => (deref s.smscs r.smsc).map fun x => some x.name
  | none => match s.smscDefault with
    | some id => (deref s.smscs id).map fun x => some x.name
    | none => some none

/-- The loop of ussd_route_lookup_for_req (hlr_ussd.c 157-165). -/
def ussdLookup (code : Bytes) (l : List URoute) : Option URoute := l.find? (fun r => r.pfx.isPrefixOf code)

/-- Where a USSD code goes (hlr_ussd.c 157-165, 636-651): an EUSE's name, an internal handler, or
nowhere.  The outer `none` is the use of a freed object. -/
def ussdFor (s : St) (code : Bytes) : Option (Option (Bytes ⊕ Iuse)) :=
  match ussdLookup code s.routes with
  | some r => match r.tgt with
    | .int i => some (some (.inr i))
    | .ext id => (deref s.euses id).map fun x => some (.inl x.name)
  | none => match s.euseDefault with
    | some id => (deref s.euses id).map fun x => some (.inl x.name)
    | none => some none

end Verif.Config
