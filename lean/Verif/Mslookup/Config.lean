import Verif.Mslookup.Base
import Verif.Gsup.Props
/-!
# The services a site offers: `src/mslookup_server.c` 71-187 and the configuration
commands of `src/dgsm_vty.c`
-/
namespace Verif.Mslookup
open Verif Verif.Sys Verif.Gsup

/-- `struct mslookup_service_host` (include/osmocom/hlr/mslookup_server.h 34-39).  A zeroed
address has no family in the program; here it is the IPv4 address 0 with port 0, which no
configured address equals either. -/
structure Host where
  service : Bytes
  v4 : Addr := {}
  v6 : Addr := {}
deriving DecidableEq, Repr

/-- `struct mslookup_server_msc_cfg` (mslookup_server.h 48-52). -/
structure MscCfg where
  name : IpaName
  hosts : List Host := []
deriving DecidableEq, Repr

/-- `mslookup.server.local_site_services` -/
abbrev Services := List MscCfg

/-- mslookup_server_msc_get (mslookup_server.c 71-93) without `create`. -/
def mscGet (l : Services) (n : IpaName) : Option MscCfg := l.find? (fun m => decide (ipaCmp m.name n = 0))

/-- mslookup_server_msc_get with `create`: the list afterwards. -/
def mscAdd (l : Services) (n : IpaName) : Services :=
  if (mscGet l n).isSome then l else l ++ [{ name := n }]

/-- Change the MSC that mslookup_server_msc_get() returned. -/
def onMsc (n : IpaName) (f : MscCfg → MscCfg) : Services → Services
  | [] => []
  | m :: l => if ipaCmp m.name n = 0 then f m :: l else m :: onMsc n f l

/-- mslookup_server_msc_service_get (mslookup_server.c 95-115) without `create`. -/
def hostGet (m : MscCfg) (svc : Bytes) : Option Host := m.hosts.find? (·.service == svc)

/-- mslookup_server_service_get (mslookup_server.c 117-123). -/
def serviceGet (l : Services) (n : IpaName) (svc : Bytes) : Option Host :=
  (mscGet l n).bind (fun m => hostGet m svc)

/-- The assignment of mslookup_server_msc_service_set (mslookup_server.c 140-149). -/
def Host.set (h : Host) (a : Addr) : Host := if a.v6 then { h with v6 := a } else { h with v4 := a }

/-- mslookup_server_msc_service_get with `create` (a new entry goes to the end of the list),
and the assignment. -/
def setHost (svc : Bytes) (a : Addr) : List Host → List Host
  | [] => [Host.set { service := svc } a]
  | h :: l => if h.service == svc then h.set a :: l else h :: setHost svc a l

/-- mslookup_server_msc_service_set (mslookup_server.c 125-151) for an existing MSC. -/
def serviceSet (m : MscCfg) (svc : Bytes) (a : Addr) : Int × MscCfg :=
  if svc.isEmpty ∨ svc.length > SERVICE_MAXLEN then (-EINVAL, m)
  else if !a.nonzero then (-EINVAL, m)
  else (0, { m with hosts := setHost svc a m.hosts })

/-- The loop body of mslookup_server_msc_service_del (mslookup_server.c 163-184): what is
left of an entry, `none` if it is deleted. -/
def delHost (svc : Bytes) (a : Option Addr) (h : Host) : Option Host :=
  if !(svc == h.service) then some h
  else match a with
    | none => none
    | some a =>
      if a = h.v4 then (if h.v6.nonzero then some { h with v4 := {} } else none)
      else if a = h.v6 then (if h.v4.nonzero then some { h with v6 := {} } else none)
      else some h

/-- mslookup_server_msc_service_del (mslookup_server.c 153-187) for an existing MSC and a
service (no caller leaves it out): the number of deleted entries. -/
def serviceDel (m : MscCfg) (svc : Bytes) (a : Option Addr) : Int × MscCfg :=
  (m.hosts.countP (fun h => (delHost svc a h).isNone), { m with hosts := m.hosts.filterMap (delHost svc a) })

/-! ## Configuration commands -/

/-- Where a command is given (`vty->node`, `vty->index`): in the node `server` or in the
node that `msc ipa-name NAME` enters. -/
inductive Node where
  | server
  | msc (name : Bytes)
deriving DecidableEq, Repr

/-- The name of the MSC (mslookup_server_msc_wildcard, dgsm_vty.c 206).  The buffer is not
initialised in the program; its unused part is zero here. -/
def Node.ipa : Node → IpaName
  | .server => {}
  | .msc s => (ipaSetStr {} s).2

/-- Commands of dgsm_vty.c.  Addresses have been parsed by osmo_sockaddr_str_from_str(). -/
inductive Cmd where
  /-- `msc ipa-name NAME`, or `server` -/
  | enter (n : Node)
  /-- `service NAME at IP PORT` -/
  | service (n : Node) (svc : Bytes) (a : Addr)
  /-- `no service NAME` -/
  | noService (n : Node) (svc : Bytes)
  /-- `no service NAME at IP PORT` -/
  | noServiceAt (n : Node) (svc : Bytes) (a : Addr)
deriving DecidableEq, Repr

/-- Run a function on the MSC of a node: msc_from_node (dgsm_vty.c 221-232).  Entries are
never removed, so that the one the node was entered for is still there. -/
def atMsc (l : Services) (n : IpaName) (f : MscCfg → Int × MscCfg) : Int × Services :=
  let l := mscAdd l n
  match mscGet l n with
  | none => (-EINVAL, l)
  | some m => ((f m).1, onMsc n (fun m => (f m).2) l)

/-- The commands (dgsm_vty.c 197-216, 234-266, 270-291, 293-324): do they report success
(CMD_SUCCESS), and the configuration afterwards. -/
def Cmd.exec (l : Services) : Cmd → Bool × Services
  | .enter n => (true, match n with | .server => l | .msc _ => mscAdd l n.ipa)
  | .service n svc a =>
    if !a.nonzero then (false, mscAdd l n.ipa)
    else let r := atMsc l n.ipa (fun m => serviceSet m svc a); (decide (r.1 = 0), r.2)
  | .noService n svc =>
    let r := atMsc l n.ipa (fun m => serviceDel m svc none); (decide (¬ r.1 < 1), r.2)
  | .noServiceAt n svc a =>
    if !a.nonzero then (false, mscAdd l n.ipa)
    else let r := atMsc l n.ipa (fun m => serviceDel m svc (some a)); (decide (¬ r.1 < 1), r.2)

/-- A sequence of commands: the reports, in order, and the configuration. -/
def execAll (l : Services) : List Cmd → List Bool × Services
  | [] => ([], l)
  | c :: cs => let r := c.exec l; let r' := execAll r.2 cs; (r.1 :: r'.1, r'.2)

/-! ## Writing the configuration -/

/-- config_write_msc_services (dgsm_vty.c 401-413), as the commands that are written. -/
def writeHosts (n : Node) (hs : List Host) : List Cmd :=
  hs.flatMap (fun h => (if h.v4.nonzero then [.service n h.service h.v4] else [])
    ++ (if h.v6.nonzero then [.service n h.service h.v6] else []))

/-- The characters osmo_escape_str() (libosmocore; assumption) leaves as they are: printable
ASCII except the double quote and the backslash. -/
def plainChar (c : UInt8) : Bool := 32 ≤ c && c < 127 && c != 34 && c != 92

/-- osmo_escape_str() of one character; `esc` is what it makes of the others. -/
def escape (esc : UInt8 → Bytes) (s : Bytes) : Bytes := s.flatMap (fun c => if plainChar c then [c] else esc c)

/-- osmo_ipa_name_to_str (cni_peer_id.c 101-110). -/
def nameText (esc : UInt8 → Bytes) (n : IpaName) : Bytes :=
  if n.len = 0 then []
  else if n.val.getD (n.len - 1) 0 = 0 then escape esc (n.val.take (n.len - 1)) else escape esc n.name

/-- The server part of config_write_mslookup (dgsm_vty.c 443-452), as the commands that are
written. -/
def writeServices (esc : UInt8 → Bytes) (l : Services) : List Cmd :=
  (match mscGet l {} with | some m => writeHosts .server m.hosts | none => [])
  ++ (l.filter (fun m => decide (ipaCmp {} m.name ≠ 0))).flatMap (fun m =>
    .enter (.msc (nameText esc m.name)) :: writeHosts (.msc (nameText esc m.name)) m.hosts)

end Verif.Mslookup
