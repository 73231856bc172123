import Verif.Mslookup.Mdns
import Verif.Mslookup.Server
/-!
# The mDNS lookup method and the mDNS server

`src/mslookup/mslookup_client_mdns.c` and `src/mslookup_server_mdns.c`.
-/
namespace Verif.Mslookup.Mdns
open Verif Verif.Db Verif.Sys Verif.Mslookup

/-! ## The client's side -/

/-- `struct osmo_mdns_method_request` (mslookup_client_mdns.c 45-50). -/
structure MReq where
  handle : Nat
  query : Query
  packet : Nat
deriving DecidableEq, Repr

/-- `struct osmo_mdns_method_state` (mslookup_client_mdns.c 33-43). -/
structure Method where
  suffix : Bytes
  reqs : List MReq := []
  /-- `next_packet_id`, an uint16_t -/
  next : Nat := 0
deriving DecidableEq, Repr

/-- request_handle_by_query (mslookup_client_mdns.c 52-68).  The packet id is not looked at. -/
def Method.handleFor (m : Method) (q : Query) : Option Nat :=
  (m.reqs.find? (fun r => decide (r.query.service = q.service) && decide (idCmp r.query.id q.id = 0))).map (·.handle)

/-- mdns_method_request (mslookup_client_mdns.c 97-125): the packet to send, if any. -/
def Method.request (m : Method) (q : Query) (h : Nat) : Out Bytes × Method :=
  (queryEncode m.next q m.suffix,
    { m with reqs := { handle := h, query := q, packet := m.next } :: m.reqs, next := (m.next + 1) % 65536 })

/-- mdns_method_request_cleanup (mslookup_client_mdns.c 127-140). -/
def Method.cleanup (m : Method) (h : Nat) : Method := { m with reqs := m.reqs.eraseP (fun r => decide (r.handle = h)) }

/-- mdns_method_recv (mslookup_client_mdns.c 70-95): the handle and the result passed to
osmo_mslookup_client_rx_result(), if any.  At most 1024 bytes are read. -/
def Method.recv (m : Method) (d : Bytes) : Out (Option (Nat × Result)) :=
  match resultDecode (d.take 1024) m.suffix with
  | .crash => .crash
  | .error => .ok none
  | .ok (_, q, r) => .ok ((m.handleFor q).map (fun h => (h, r)))

/-- What happens to the method. -/
inductive MOp where
  /-- the lookup client asks it to look something up -/
  | request (q : Query) (handle : Nat)
  /-- the lookup ended -/
  | cleanup (handle : Nat)
  /-- a packet arrives -/
  | recv (d : Bytes)
deriving DecidableEq, Repr

def Method.step (m : Method) : MOp → Method
  | .request q h => (m.request q h).2
  | .cleanup h => m.cleanup h
  | .recv _ => m

/-- A run from osmo_mslookup_client_add_mdns() (mslookup_client_mdns.c 170-218) with this suffix
and first packet id.  Simplified: the suffix is copied; see `MdnsConfig`. -/
def Method.run (suffix : Bytes) (first : Nat) (ops : List MOp) : Method :=
  ops.foldl Method.step { suffix := suffix, next := first }

/-! ## The server's side -/

/-- osmo_mslookup_server_mdns_handle_request and osmo_mslookup_server_mdns_tx
(mslookup_server_mdns.c 30-61), given what mslookup_server_rx() did: the packet sent, if any.
Undefined behaviour is a crash. -/
def answerPacket (id : Nat) (q : Query) (suffix : Bytes) : Option Result → Out (Option Bytes)
  | none => .crash
  | some r =>
    if r.rc ≠ .result then .ok none
    else match resultEncode id q r suffix with
      | .crash => .crash
      | .error => .ok none
      | .ok d => .ok (some d)

/-- osmo_mslookup_server_mdns_rx (mslookup_server_mdns.c 63-89).  At most 1024 bytes are read. -/
def serverPacket (z : Zone) (now : Int) (c : Srv) (p : List ProxyEntry) (suffix d : Bytes) : DbM (Out (Option Bytes)) :=
  match queryDecode (d.take 1024) suffix with
  | .crash => pure .crash
  | .error => pure (.ok none)
  | .ok (id, q) => do pure (answerPacket id q suffix (← serverRx z now c p q))

end Verif.Mslookup.Mdns
