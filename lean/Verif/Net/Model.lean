import Verif.Mslookup.Client
import Verif.Mslookup.MdnsMethod
import Verif.Sys.Spec
/-!
# A network of HLRs with mslookup servers, and of programs that look subscribers up

Every site runs an HLR with an mDNS lookup server, and every program that looks subscribers up
(the sites' HLRs themselves, `osmo-mslookup-client`, SIP connectors) runs a lookup client with
the mDNS method.  They talk by multicast: a packet that was ever sent may reach any of them,
at any time, any number of times, or never.

Simplified: all use the same domain suffix and multicast address; what a user does in a
callback of a lookup comes as a later event; a program that was restarted is another program.
-/
namespace Verif.Net
open Verif Verif.Db Verif.Sys Verif.Mslookup Verif.Mslookup.Mdns Verif.Mslookup.Client

/-- A site: its HLR (`struct hlr`, include/osmocom/hlr/hlr.h 40-134) with the part of the
configuration that the mslookup server uses.  `hist` is not in the program: what has happened to
the HLR, with the configuration in force. -/
structure Site where
  cfg : Cfg
  srv : Srv
  sys : Sys
  hist : List (Cfg × Sys.Ev) := []

/-- A program that looks subscribers up: the client (mslookup_client.c 23-27) with one lookup
method, mDNS (mslookup_client_mdns.c 33-43). -/
structure Look where
  client : Client := {}
  mth : Method

structure Net where
  site : Nat → Site
  look : Nat → Look
  /-- the packets that were ever sent -/
  air : List Bytes := []
  /-- a lookup client or server ran into undefined behaviour -/
  ub : Bool := false

/-- What happens in the network. -/
inductive Ev where
  /-- something happens to the HLR of a site -/
  | hlr (j : Nat) (ev : Sys.Ev)
  /-- a site is configured otherwise -/
  | conf (j : Nat) (cfg : Cfg) (srv : Srv)
  /-- a user starts a lookup -/
  | request (i : Nat) (q : Query) (minWait timeout : Nat)
  /-- a user cancels a lookup -/
  | cancel (i : Nat) (handle : Nat)
  /-- the timer of a lookup expires -/
  | timeout (i : Nat) (u : Nat)
  /-- the server of a site receives a packet; `now` is its clock, `sc` is what happens to the
  statements of its database -/
  | serve (j : Nat) (p : Bytes) (now : Int) (sc : Script)
  /-- a lookup client receives a packet -/
  | hear (i : Nat) (p : Bytes)
  /-- somebody else sends a packet -/
  | inject (p : Bytes)

/-- The users' callbacks only note the result. -/
def note : Client → Client := react {} 0

/-- The methods' part of _osmo_mslookup_client_request_cleanup (mslookup_client.c 176-187): for the
requests that the client had before and has no more. -/
def forget (before after : Client) (m : Method) : Method :=
  (before.reqs.filter fun r => !(after.reqs.any fun x => x.handle == r.handle)).foldl (fun m r => m.cleanup r.handle) m

/-- The client did something that asks no method. -/
def Look.with (l : Look) (c : Client) : Look := { client := c, mth := forget l.client c l.mth }

/-- osmo_mslookup_client_request (mslookup_client.c 238-298) with the mDNS method's
mdns_method_request (mslookup_client_mdns.c 97-125): the packet sent, if any. -/
def Look.request (l : Look) (q : Query) (mn to : Nat) : Out (Option Bytes) × Look :=
  let r := Client.request note (fun _ => []) l.client q mn to
  let l' := l.with r.2
  if r.1 = 0 then (.ok none, l')
  else
    let m := l'.mth.request q r.1
    (match m.1 with
      | .crash => .crash
      | .error => .ok none
      | .ok p => .ok (some p), { l' with mth := m.2 })

/-- mdns_method_recv (mslookup_client_mdns.c 70-95). -/
def Look.hear (l : Look) (p : Bytes) : Out Unit × Look :=
  match l.mth.recv p with
  | .crash => (.crash, l)
  | .error => (.ok (), l)
  | .ok none => (.ok (), l)
  | .ok (some (h, r)) => (.ok (), l.with (rxResult note l.client h r))

def Net.setLook (n : Net) (i : Nat) (l : Look) : Net := { n with look := fun k => if k = i then l else n.look k }
def Net.setSite (n : Net) (j : Nat) (s : Site) : Net := { n with site := fun k => if k = j then s else n.site k }

/-- Something happens to the HLR. -/
def Site.event (s : Site) (ev : Sys.Ev) : Site := { s with sys := Sys.step s.cfg s.sys ev, hist := s.hist ++ [(s.cfg, ev)] }

/-- What leaves a server or client. -/
def Net.send (n : Net) : Out (Option Bytes) → Net
  | .crash => { n with ub := true }
  | .error => n
  | .ok none => n
  | .ok (some p) => { n with air := p :: n.air }

/-- One event.  The server only reads the database (osmo_mslookup_server_mdns_rx,
mslookup_server_mdns.c 63-89, 30-61; see `serve_db`); if the process is killed while it does,
the HLR is started again. -/
def step (z : Zone) (sfx : Bytes) (n : Net) : Ev → Net
  | .hlr j ev => n.setSite j ((n.site j).event ev)
  | .conf j cfg srv => n.setSite j { n.site j with cfg := cfg, srv := srv }
  | .request i q mn to =>
    let r := (n.look i).request q mn to
    (n.setLook i r.2).send r.1
  | .cancel i h => n.setLook i ((n.look i).with ((n.look i).client.cancel h))
  | .timeout i u => n.setLook i ((n.look i).with (timeoutCb note (n.look i).client u))
  | .serve j p now sc =>
    if p ∈ n.air then
      match (exec (serverPacket z now (n.site j).srv (n.site j).sys.proxy sfx p) (n.site j).sys.db sc).1 with
      | none => n.setSite j ((n.site j).event .kill)
      | some o => n.send o
    else n
  | .hear i p =>
    if p ∈ n.air then
      let r := (n.look i).hear p
      let n := n.setLook i r.2
      match r.1 with
      | .crash => { n with ub := true }
      | _ => n
    else n
  | .inject p => { n with air := p :: n.air }

/-- The beginning: the sites' configurations and databases, and the first packet id of each
client's method (mslookup_client_mdns.c 189-195). -/
structure Start where
  cfg : Nat → Cfg
  srv : Nat → Srv
  db : Nat → Db
  packet : Nat → Nat := fun _ => 0

def Start.net (s : Start) (sfx : Bytes) : Net where
  site j := { cfg := s.cfg j, srv := s.srv j, sys := init (s.db j) }
  look i := { mth := { suffix := sfx, next := s.packet i } }

def run (z : Zone) (sfx : Bytes) (s : Start) (evs : List Ev) : Net := evs.foldl (step z sfx) (s.net sfx)

end Verif.Net
