import Verif.Base
/-!
# The GSUP client (src/gsupclient/gsup_client.c)

The client library with which an MSC, an SGSN, an EUSE or the D-GSM part of the HLR itself
talks to an HLR.  It is driven by its select loop: the TCP connection comes up, breaks or
delivers a frame, a timer expires, the user of the library sends a message or destroys the
client.  These are the events below; every function of gsup_client.c that acts on the
connection is modelled.

libosmo-abis is modelled by what the code relies on (assumption):
`ipa_client_conn_open()` starts a connection attempt or returns a negative error;
`ipa_client_conn_send()` appends to the transmit queue of the link, which is written out from
its head while the connection is up; `ipa_client_conn_clear_queue()` empties that queue;
`ipa_client_conn_close()` closes the socket without calling back; when an attempt succeeds
the up/down callback is called with 1; when an attempt fails, or the peer closes an
established connection, the socket is closed and the up/down callback is called with 0;
`ipaccess_bts_handle_ccm()` returns 0 for frames of another protocol than IPA CCM, and for
CCM frames either 1, possibly having queued an answer, or a negative value having closed the
link.

Time is counted in seconds.  The clock does not pass the expiry of a running timer: a timer
expires before the loop goes on waiting (simplification: processing takes no time).
-/
namespace Verif.Client
open Verif

/-- OSMO_GSUP_CLIENT_RECONNECT_INTERVAL (include/osmocom/gsupclient/gsup_client.h 34). -/
abbrev RECONNECT : Nat := 1
/-- OSMO_GSUP_CLIENT_PING_INTERVAL (gsup_client.h 35). -/
abbrev PING : Nat := 20

/-- IPAC_PROTO_OSMO, IPAC_PROTO_IPACCESS, IPAC_PROTO_EXT_GSUP, IPAC_PROTO_EXT_OAP,
IPAC_MSGT_PONG (libosmocore ipaccess.h; assumption). -/
abbrev PROTO_OSMO : UInt8 := 0xee
abbrev PROTO_IPA : UInt8 := 0xfe
abbrev EXT_GSUP : UInt8 := 0x05
abbrev EXT_OAP : UInt8 := 0x06
abbrev MSGT_PONG : UInt8 := 0x01

/-- A frame in the transmit queue: a CCM PING (gsup_client.c 42-50), an answer to a CCM message queued by
`ipaccess_bts_handle_ccm`, a GSUP or an OAP message (`client_send` 114-121). -/
inductive Frame where
  | ping
  | ccm (data : Bytes)
  | oap (data : Bytes)
  | gsup (data : Bytes)
deriving DecidableEq, Repr

/-- The state of the socket of `gsupc->link`. -/
inductive Link where
  | closed | connecting | up
deriving DecidableEq, Repr

/-- What the user's `up_down_cb` does: return true, return false, or destroy the client and
return false as `remote_hlr_up_down` (src/remote_hlr.c 109-126) does.  (A callback that
destroys the client and returns true would be an error of the user.) -/
inductive Answer where
  | ok | stop | destroy
deriving DecidableEq, Repr

/-- How `ipaccess_bts_handle_ccm` takes a CCM frame. -/
inductive Ccm where
  | bad
  | handled (reply : Option Bytes)
deriving DecidableEq, Repr

/-- What an observer sees of a client, each with the time it happened. -/
inductive Obs where
  /-- `ipa_client_conn_open` was called for the `n`-th time and returned `rc` -/
  | attempt (n : Nat) (rc : Int)
  /-- the connection was established -/
  | established
  /-- the attempt failed or the peer closed the connection -/
  | lost
  /-- the client gave up the connection: no PONG, or an invalid CCM frame -/
  | dropped
  /-- a PONG arrived -/
  | pong
  /-- the user's callback was told that the link is up, or down -/
  | told (up : Bool)
  /-- the user's callback asked not to retry -/
  | stop
  /-- the client was destroyed -/
  | destroyed
  /-- a message of the user was accepted (`osmo_gsup_client_send` returned 0) on the `n`-th
  connection, or refused (it returned -ENOTCONN) -/
  | accepted (n : Nat) (m : Bytes)
  | refused (m : Bytes)
  /-- the `n`-th connection took this frame from the transmit queue -/
  | wrote (n : Nat) (f : Frame)
  /-- a GSUP message was handed to the user's `read_cb` -/
  | given (m : Bytes)
deriving DecidableEq, Repr

/-- `struct osmo_gsup_client` (gsup_client.h 47-64) with its link and timers.  A running
timer is the time it expires.  `tries` counts the calls of `ipa_client_conn_open` and `log` is
the history, latest first; both are for specification only. -/
structure St where
  now : Nat := 0
  alive : Bool := true
  link : Link := .closed
  isConnected : Bool := false
  gotPong : Bool := false
  ping : Option Nat := none
  conn : Option Nat := none
  queue : List Frame := []
  tries : Nat := 0
  log : List (Nat × Obs) := []
deriving Repr

/-- Record an observation. -/
def St.note (s : St) (o : Obs) : St := { s with log := (s.now, o) :: s.log }

/-- Whether an error of `ipa_client_conn_open` ends the client (gsup_client.c 85-87):
EBADF, ENOTSOCK, EAFNOSUPPORT, EINVAL. -/
def fatal (rc : Int) : Bool := rc == -9 || rc == -88 || rc == -97 || rc == -22

/-- `gsup_client_connect` (gsup_client.c 52-96); `rc` is what `ipa_client_conn_open` returns
if it is called. -/
def connect (rc : Int) (s : St) : Int × St :=
  if s.isConnected then (0, s) else
  let s := { s with conn := none, ping := none, queue := [], tries := s.tries + 1 }
  let s := s.note (.attempt s.tries rc)
  if 0 ≤ rc then (0, { s with link := .connecting })
  else if fatal rc then (rc, s)
  else (0, { s with conn := some (s.now + RECONNECT) })

/-- `osmo_gsup_client_destroy` (gsup_client.c 386-397). -/
def destroy (s : St) : St :=
  { s.note .destroyed with alive := false, link := .closed, conn := none, ping := none, queue := [] }

/-- The user's `up_down_cb` is told that the link is down; if there is none the client
retries (gsup_client.c 105-109, 173-177).  What to do next if the answer allows. -/
def tellDown (cb : Bool) (a : Answer) (s : St) (retry : St → St) : St :=
  if !cb then retry s else
  let s := s.note (.told false)
  match a with
  | .ok => retry s
  | .stop => s.note .stop
  | .destroy => destroy s

/-- `start_test_procedure` (gsup_client.c 285-293): restart the ping timer and send a PING. -/
def startTest (s : St) : St :=
  { s with gotPong := false, ping := some (s.now + PING), queue := s.queue ++ [.ping] }

/-- `connect_timer_cb` (gsup_client.c 98-112).  A timer that expires is no longer running. -/
def connTimer (cb : Bool) (a : Answer) (rc : Int) (s : St) : St :=
  let s := { s with conn := none }
  if s.isConnected then s else
  tellDown cb a s fun s => (connect rc s).2

/-- `ping_timer_cb` (gsup_client.c 265-283). -/
def pingTimer (rc : Int) (s : St) : St :=
  let s := { s with ping := none }
  if s.gotPong then startTest s else
  let s := { s.note .dropped with link := .closed, isConnected := false }
  (connect rc s).2

/-- `gsup_client_updown_cb` with up ≠ 0 (gsup_client.c 150-169).  `reg` is the OAP
registration message, none if OAP is not used or cannot register (123-135).  The answer of the
callback is not looked at. -/
def linkUp (cb : Bool) (reg : Option Bytes) (a : Answer) (s : St) : St :=
  let s := startTest { s.note .established with link := .up, isConnected := true }
  let s := match reg with
    | some m => { s with queue := s.queue ++ [Frame.oap m] }
    | none => s
  let s := { s with conn := none }
  if !cb then s else
  let s := s.note (.told true)
  match a with
  | .destroy => destroy s
  | _ => s

/-- `gsup_client_updown_cb` with up = 0 (gsup_client.c 150-157, 170-182). -/
def linkDown (cb : Bool) (a : Answer) (s : St) : St :=
  let s := { s.note .lost with link := .closed, isConnected := false, ping := none }
  tellDown cb a s fun s => { s with conn := some (s.now + RECONNECT) }

/-- `gsup_client_read_cb` (gsup_client.c 201-263): a frame of the given protocol arrives.
`ccm` is how `ipaccess_bts_handle_ccm` takes it if it is a CCM frame, `oap` the answer
`osmo_oap_client_handle` makes to an OAP message, if any (184-199). -/
def read (proto : UInt8) (data : Bytes) (ccm : Ccm) (oap : Option Bytes) (s : St) : St :=
  if proto = PROTO_IPA then
    match ccm with
    | .bad => { s.note .dropped with link := .closed, isConnected := false }
    | .handled reply =>
      let s := match reply with
        | some m => { s with queue := s.queue ++ [Frame.ccm m] }
        | none => s
      if data.head? = some MSGT_PONG then { s.note .pong with gotPong := true } else s
  else if proto ≠ PROTO_OSMO then s
  else match data with
    | [] => s
    | e :: m =>
      if e = EXT_GSUP then s.note (.given m)
      else if e = EXT_OAP then
        match oap with
        | some r => { s with queue := s.queue ++ [Frame.oap r] }
        | none => s
      else s

/-- `osmo_gsup_client_send` (gsup_client.c 399-410). -/
def send (m : Bytes) (s : St) : Int × St :=
  if !s.isConnected then (-ENOTCONN, s.note (.refused m))
  else (0, { s.note (.accepted s.tries m) with queue := s.queue ++ [.gsup m] })

/-- Whether a timer has expired. -/
def due (s : St) (t : Option Nat) : Bool :=
  match t with
  | some d => d ≤ s.now
  | none => false

/-- The select loop waits `d` seconds, or until the next timer expires. -/
def wait (d : Nat) (s : St) : St :=
  let t := s.now + d
  let t := match s.ping with | some p => min t p | none => t
  let t := match s.conn with | some p => min t p | none => t
  { s with now := max s.now t }

/-- The events that drive a client. -/
inductive Ev where
  | wait (d : Nat)
  /-- the connection attempt succeeds -/
  | established (reg : Option Bytes) (a : Answer)
  /-- the connection attempt fails, or the peer closes the connection -/
  | lost (a : Answer)
  /-- a frame arrives -/
  | frame (proto : UInt8) (data : Bytes) (ccm : Ccm) (oap : Option Bytes)
  /-- the connection takes the frame at the head of the transmit queue -/
  | writable
  /-- the ping timer expires -/
  | ping (rc : Int)
  /-- the connect timer expires -/
  | conn (a : Answer) (rc : Int)
  /-- the user sends a message, or destroys the client -/
  | send (m : Bytes)
  | destroy
deriving Repr

/-- One event.  An event that cannot happen (a timer expiring that is not due, a frame on a
connection that is not there, anything after the end of the client) does nothing. -/
def step (cb : Bool) (s : St) (e : Ev) : St :=
  if !s.alive then (match e with | .wait d => wait d s | _ => s) else
  match e with
  | .wait d => wait d s
  | .established reg a => if s.link = .connecting then linkUp cb reg a s else s
  | .lost a => if s.link = .closed then s else linkDown cb a s
  | .frame p d c o => if s.link = .up then read p d c o s else s
  | .writable =>
    match s.link, s.queue with
    | .up, f :: q => { s.note (.wrote s.tries f) with queue := q }
    | _, _ => s
  | .ping rc => if due s s.ping then pingTimer rc s else s
  | .conn a rc => if due s s.conn then connTimer cb a rc s else s
  | .send m => (send m s).2
  | .destroy => destroy s

/-- A sequence of events. -/
def run (cb : Bool) (s : St) (evs : List Ev) : St := evs.foldl (step cb) s

/-- `osmo_gsup_client_create3` (gsup_client.c 303-348) at time `t`: a client, or nothing if
the first attempt fails for one of the fatal reasons.  (Failures of `osmo_oap_client_init` and
`ipa_client_conn_create2` also give nothing; they are not modelled.) -/
def create (t : Nat) (rc : Int) : Option St :=
  let r := connect rc { now := t }
  if r.1 < 0 then none else some r.2

end Verif.Client
