import Verif.Sys.Show
import Verif.Client.Model
/-!
# The bytes on a GSUP connection (src/gsup_server.c, src/gsupclient/gsup_client.c)

Between the socket and the handling of GSUP messages lies a layer of framing: an IPA header (length of what follows it, stream
identifier), for GSUP followed by an extension header of one byte.  Both sides of it that are in /repo are modelled: what
`osmo_gsup_server_send()` and `client_send()` put before a message, what `osmo_gsup_server_read_cb()` and `gsup_client_read_cb()` (see
`Verif.Client.read`) make of a frame, and what `osmo_gsup_server_ccm_cb()` keeps of the identity a peer gives.

The rest is libosmocore and libosmo-abis (assumption): `ipa_prepend_header()` writes the length of the message as a 16 bit number, most
significant byte first, and the stream identifier; `ipa_msg_recv_buffered()` collects bytes until a frame is complete, and then hands
it over; a header that announces no data, or more than fits in its buffer (`cap`), ends the connection; a negative result of the read
callback alone does not.  `ipa_server_conn_ccm()` answers a PING, and of an identity response it hands the parsed elements to the
callback; where it finds an error, or the callback reports one, it destroys the connection.
-/
namespace Verif.Wire
open Verif Verif.Sys

/-! ## Sending -/

/-- `ipa_prepend_header()` (libosmocore; assumption): `struct ipaccess_head` has a 16 bit length and the stream identifier. -/
def prepend (proto : UInt8) (m : Bytes) : Bytes := UInt8.ofNat (m.length / 256) :: UInt8.ofNat m.length :: proto :: m

/-- `ipa_prepend_header_ext()` (libosmocore; assumption). -/
def prependExt (ext : UInt8) (m : Bytes) : Bytes := ext :: m

/-- osmo_gsup_server_send (gsup_server.c 49-55), for a GSUP message as from osmo_gsup_conn_send (gsup_server.c 57-67). -/
def serverSend (m : Bytes) : Bytes := prepend Client.PROTO_OSMO (prependExt Client.EXT_GSUP m)

/-- client_send (gsup_client.c 114-121), for what is in the transmit queue of the client; a PING is `gsup_client_send_ping`
(gsup_client.c 42-50), `IPAC_MSGT_PING` is 0. -/
def clientSend : Client.Frame → Bytes
  | .ping => prepend Client.PROTO_IPA [0]
  | .ccm d => prepend Client.PROTO_IPA d
  | .oap d => prepend Client.PROTO_OSMO (prependExt Client.EXT_OAP d)
  | .gsup m => prepend Client.PROTO_OSMO (prependExt Client.EXT_GSUP m)

/-! ## Receiving -/

/-- What the next byte does to a frame that is being received. -/
inductive Got where
  | more (buf : Bytes)
  | frame (proto : UInt8) (data : Bytes)
  | bad
deriving DecidableEq, Repr

/-- `ipa_msg_recv_buffered()` (libosmo-abis; assumption), one byte at a time. -/
def push (cap : Nat) (buf : Bytes) (x : UInt8) : Got :=
  match buf ++ [x] with
  | h :: l :: p :: d =>
    if h.toNat * 256 + l.toNat = 0 ∨ cap < h.toNat * 256 + l.toNat then .bad
    else if d.length = h.toNat * 256 + l.toNat then .frame p d
    else .more (h :: l :: p :: d)
  | b => .more b

/-- What becomes of the buffer a frame is in. -/
inductive Buf where
  /-- it is freed -/
  | freed
  /-- the handler of GSUP messages has it, and frees it -/
  | given
  /-- nobody frees it -/
  | lost
deriving DecidableEq, Repr

/-- What osmo_gsup_server_read_cb does with a frame. -/
inductive Act where
  /-- `ipa_server_conn_ccm()` gets it -/
  | ccm (data : Bytes)
  /-- `server->read_cb` gets the message -/
  | gsup (m : Bytes)
  /-- osmo_gsup_conn_oap_handle, which does nothing -/
  | oap
  /-- it is logged as invalid; the read callback returns -1 -/
  | invalid
deriving DecidableEq, Repr

/-- osmo_gsup_server_read_cb (gsup_server.c 172-225) and osmo_gsup_conn_oap_handle (gsup_server.c 154-169; all of it but
`return 0` is switched off). -/
def readCb (proto : UInt8) (data : Bytes) : Act × Buf :=
  if proto = Client.PROTO_IPA then (.ccm data, .freed)
  else if proto ≠ Client.PROTO_OSMO then (.invalid, .freed)
  else match data with
    | [] => (.invalid, .freed)
    | e :: m =>
      if e = Client.EXT_GSUP then (.gsup m, .given)
      else if e = Client.EXT_OAP then (.oap, .lost)
      else (.invalid, .freed)

/-! ## The identity of a peer -/

/-- `struct tlv_parsed` (libosmocore tlv.h; assumption): for every tag a value, or nothing. -/
abbrev Tlv := UInt8 → Option Bytes

/-- IPAC_IDTAG_SERNR (libosmocore ipaccess.h; assumption). -/
abbrev IDTAG_SERNR : UInt8 := 0

/-- `clnt->ccm` and how many copies of values made for it are allocated. -/
structure Ident where
  tlv : Tlv := fun _ => none
  live : Nat := 0

/-- One turn of the loop in tlvp_copy (gsup_server.c 249-260).  A value that is replaced is not freed. -/
def copyTag (inp : Tlv) (o : Ident) (i : UInt8) : Ident :=
  match inp i with
  | none => match o.tlv i with
    | some _ => { tlv := fun j => if j = i then none else o.tlv j, live := o.live - 1 }
    | none => o
  | some v => { tlv := fun j => if j = i then some v else o.tlv j, live := o.live + 1 }

/-- tlvp_copy (gsup_server.c 244-261); `ARRAY_SIZE(out->lv)` is 256. -/
def tlvpCopy (inp : Tlv) (o : Ident) : Ident := ((List.range 256).map UInt8.ofNat).foldl (copyTag inp) o

/-- osmo_gsup_conn_ccm_get (gsup_server.c 263-271). -/
def ccmGet (o : Ident) (tag : UInt8) : Option Bytes := o.tlv tag

/-- What osmo_tlvp_dump (gsup_server.c 227-242) reads of a value when it logs it with `%s`: the bytes up to the first NUL; `none` if the value
has none, so that bytes behind it are read too. -/
def dumpRead (v : Bytes) : Option Bytes := if (0 : UInt8) ∈ v then some (v.takeWhile (· ≠ 0)) else none

/-- How `ipa_server_conn_ccm()` takes a CCM frame. -/
inductive Ccm where
  | bad
  | other
  | resp (tlv : Tlv)

/-- The libraries. -/
structure Lib where
  /-- the largest frame `ipa_msg_recv_buffered()` has room for -/
  cap : Nat
  /-- `osmo_gsup_decode()` -/
  dec : Bytes → Option Gsup.Msg
  /-- `ipa_server_conn_ccm()` -/
  ccm : Bytes → Ccm

/-! ## The HLR, byte by byte -/

/-- The process with what is between it and its sockets. -/
structure W where
  sys : Sys
  /-- what has been received of a frame on each connection (`conn->pending_msg`) -/
  buf : ConnId → Bytes := fun _ => []
  /-- `clnt->ccm` -/
  id : ConnId → Ident := fun _ => {}
  /-- how many buffers of received frames nobody will free -/
  lost : Nat := 0

/-- What can happen: a byte arrives on a connection (with the surroundings of the message that may be complete with it), or something
else. -/
inductive WEv where
  | byte (c : ConnId) (x : UInt8) (e : Env)
  | ev (ev : Ev)

/-- Frames from the peers arrive as bytes only. -/
def ofBytes : Ev → Bool
  | .ccm _ _ => true
  | .rx _ _ _ => true
  | _ => false

/-- The data of connection `c`. -/
def setBuf (w : W) (c : ConnId) (buf : Bytes) : W := { w with buf := fun c' => if c' = c then buf else w.buf c' }
def setId (w : W) (c : ConnId) (i : Ident) : W := { w with id := fun c' => if c' = c then i else w.id c' }

/-- The connection is destroyed by the library, which calls osmo_gsup_server_closed_cb (gsup_server.c 309-318). -/
def kick (cfg : Cfg) (w : W) (c : ConnId) : W := { w with sys := step cfg w.sys (.close c) }

/-- osmo_gsup_server_ccm_cb (gsup_server.c 273-300), called with the elements `tlv`: the rest of it, and the destruction of the connection
if it fails, is `Verif.Sys.ccmCb`. -/
def ccmCb (cfg : Cfg) (w : W) (c : ConnId) (tlv : Tlv) : W :=
  let i := tlvpCopy tlv (w.id c)
  let w := setId w c i
  { w with sys := step cfg w.sys (.ccm c (ccmGet i IDTAG_SERNR)) }

/-- A whole frame has arrived (gsup_server.c 172-225). -/
def frameIn (L : Lib) (cfg : Cfg) (w : W) (c : ConnId) (proto : UInt8) (data : Bytes) (e : Env) : W :=
  let w := if (readCb proto data).2 = .lost then { w with lost := w.lost + 1 } else w
  match (readCb proto data).1 with
  | .gsup m => { w with sys := step cfg w.sys (.rx c (L.dec m) e) }
  | .ccm d => match L.ccm d with
    | .bad => kick cfg w c
    | .other => w
    | .resp tlv => ccmCb cfg w c tlv
  | .oap => w
  | .invalid => w

/-- One byte arrives on connection `c`. -/
def byteIn (L : Lib) (cfg : Cfg) (w : W) (c : ConnId) (x : UInt8) (e : Env) : W :=
  match push L.cap (w.buf c) x with
  | .more buf => setBuf w c buf
  | .bad => kick cfg w c
  | .frame p d => frameIn L cfg (setBuf w c []) c p d e

/-- Whether bytes can arrive on `c`. -/
def W.hears (w : W) (c : ConnId) : Bool := !w.sys.ub && (w.sys.conn? c).isSome

/-- One event. -/
def wstep (L : Lib) (cfg : Cfg) (w : W) : WEv → W
  | .byte c x e => if w.hears c then byteIn L cfg w c x e else w
  | .ev ev => if ofBytes ev then w else { w with sys := step cfg w.sys ev }

/-- A history. -/
def wrun (L : Lib) (w : W) : List (Cfg × WEv) → W
  | [] => w
  | x :: l => wrun L (wstep L x.1 w x.2) l

/-- A fresh start on a database. -/
def winit (d : Db.Db) : W := { sys := init d }

/-! ## The client, byte by byte -/

/-- A byte arrives at a client (gsup_client.c 201-263, `Verif.Client.read`); `ccm` and `oap` are how the libraries take a frame that is
complete with it. -/
def clientByte (cap : Nat) (ccm : UInt8 → Bytes → Client.Ccm) (oap : Bytes → Option Bytes) (s : Client.St × Bytes) (x : UInt8) :
    Client.St × Bytes :=
  match push cap s.2 x with
  | .more buf => (s.1, buf)
  | .bad => (s.1, s.2)
  | .frame p d => (Client.read p d (ccm p d) (oap d) s.1, [])

end Verif.Wire
