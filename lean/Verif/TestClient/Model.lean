import Verif.Gsup.Msg
/-!
# gsup_test_client (src/gsupclient/gsup_test_client.c)

A program that puts load on an HLR: it asks for authentication data of ten thousand
subscribers, registers each one once the data have come, acknowledges the subscriber data the
HLR sends, and counts.  The connection itself is the GSUP client of `Verif.Client`.
-/
namespace Verif.TestClient
open Verif Verif.Gsup

/-- enum imsi_op_type (gsup_test_client.c 32-37). -/
inductive Kind where
  | sai
  | lu
  | isd
deriving DecidableEq, Repr

/-- struct imsi_op_stats (gsup_test_client.c 24-30).  The members are `uint32_t`: here they are
not reduced, `report` reduces them. -/
structure Stats where
  alloc : Nat := 0
  released : Nat := 0
  success : Nat := 0
  error : Nat := 0
  timeout : Nat := 0
deriving DecidableEq, Repr

/-- struct imsi_op (gsup_test_client.c 48-53); `armed`: the timer is running. -/
structure Op where
  imsi : Bytes
  kind : Kind
  armed : Bool := false
deriving DecidableEq, Repr

/-- The program: `g_imsi_ops`, `imsi_op_stats` (gsup_test_client.c 22, 46), the variable `i` of
main() (line 285), the messages handed to osmo_gsup_client_send() so far, those it refused
included, and whether a null pointer was followed. -/
structure St where
  ops : List Op := []
  stats : Kind → Stats := fun _ => {}
  next : Nat := 0
  sent : List (Nat × Bytes) := []
  crashed : Bool := false

/-- Whether the two library functions succeed: osmo_gsup_encode and osmo_gsup_client_send. -/
structure Lib where
  enc : Bool := true
  send : Bool := true
deriving DecidableEq, Repr

/-- `imsi_op_stats[type].x++`. -/
def St.count (s : St) (k : Kind) (f : Stats → Stats) : St :=
  { s with stats := fun j => if j = k then f (s.stats j) else s.stats j }

/-- imsi_op_find (gsup_test_client.c 55-65). -/
def find (s : St) (imsi : Bytes) (k : Kind) : Option Op :=
  s.ops.find? (fun o => o.imsi = imsi && o.kind = k)

/-- imsi_op_alloc (gsup_test_client.c 69-85); talloc_zero succeeds.  The timer is set up, not
started. -/
def alloc (s : St) (imsi : Bytes) (k : Kind) : St × Option Op :=
  match find s imsi k with
  | some _ => (s, none)
  | none =>
    let o : Op := { imsi := strlcpy 17 imsi, kind := k }
    ({ s with ops := o :: s.ops }.count k (fun t => { t with alloc := t.alloc + 1 }), some o)

/-- imsi_op_release (gsup_test_client.c 87-93). -/
def release (s : St) (o : Op) : St :=
  { s with ops := s.ops.erase o }.count o.kind (fun t => { t with released := t.released + 1 })

/-- imsi_op_timer_cb (gsup_test_client.c 95-101). -/
def timerCb (s : St) (o : Op) : St :=
  release (s.count o.kind (fun t => { t with timeout := t.timeout + 1 })) o

/-- osmo_gsup_encode and osmo_gsup_client_send at the end of a request (gsup_test_client.c
114-120, 134-140): the return value is whether it is not negative. -/
def encSend (L : Lib) (s : St) (typ : Nat) (imsi : Bytes) : St × Bool :=
  if L.enc then ({ s with sent := s.sent ++ [(typ, imsi)] }, L.send) else (s, false)

/-- req_auth_info (gsup_test_client.c 103-121) and req_loc_upd (123-141): `io` is used without
a look whether imsi_op_alloc() gave one. -/
def request (L : Lib) (s : St) (imsi : Bytes) (k : Kind) (typ : Nat) : St × Bool :=
  match alloc s imsi k with
  | (s, none) => ({ s with crashed := true }, false)
  | (s, some o) => encSend L s typ (strlcpy 17 o.imsi)

/-- resp_isd (gsup_test_client.c 143-162): when the answer cannot be encoded `io` is kept. -/
def respIsd (L : Lib) (s : St) (o : Op) : St :=
  if L.enc then { release s o with sent := s.sent ++ [(INSERT_DATA + 2, strlcpy 17 o.imsi)] } else s

/-- OSMO_GSUP_IS_MSGT_ERROR (libosmocore gsup.h): the two lowest bits are 1. -/
def isError (t : Nat) : Bool := t % 4 == 1

/-- imsi_op_rx_gsup (gsup_test_client.c 164-197). -/
def opRx (L : Lib) (s : St) (o : Op) (typ : Nat) : St :=
  let s := s.count o.kind (fun t => if isError typ then { t with error := t.error + 1 } else { t with success := t.success + 1 })
  match o.kind with
  | .sai => release (request L s o.imsi .lu UPDATE_LOCATION).1 o
  | .lu => release s o
  | .isd => respIsd L s o

/-- op_type_by_gsup_msgt (gsup_test_client.c 199-214). -/
def kindOf (typ : Nat) : Option Kind :=
  if typ = SEND_AUTH_INFO + 2 ∨ typ = SEND_AUTH_INFO + 1 then some .sai
  else if typ = UPDATE_LOCATION + 2 ∨ typ = UPDATE_LOCATION + 1 then some .lu
  else if typ = INSERT_DATA then some .isd
  else none

/-- The type and the IMSI of a message, as osmo_gsup_decode gives them: `imsi` of struct
osmo_gsup_message has 17 bytes (libosmocore gsup.h). -/
structure Rx where
  typ : Nat
  imsi : Bytes
  short : imsi.length ≤ 16 := by decide

/-- gsupc_read_cb (gsup_test_client.c 216-251); `none`: osmo_gsup_decode fails.  Whether the
buffer of the message is freed is left out. -/
def readCb (L : Lib) (s : St) : Option Rx → St
  | none => s
  | some m =>
    if m.imsi = [] then s
    else match kindOf m.typ with
      | none => s
      | some .isd => match alloc s m.imsi .isd with
        | (s, none) => s
        | (s, some o) => opRx L s o m.typ
      | some k => match find s m.imsi k with
        | none => s
        | some o => opRx L s o m.typ

/-- The `k` last decimal digits (libc, `%0kllu` of a number of at most `k` digits). -/
def digits : Nat → Nat → Bytes
  | 0, _ => []
  | k + 1, n => digits k (n / 10) ++ [(48 + n % 10).toUInt8]

/-- The IMSI of the i-th subscriber (gsup_test_client.c 299-303). -/
def imsiOf (i : Nat) : Bytes := digits 15 (901790000000000 + i)

/-- What happens: main() goes through its loop once more (gsup_test_client.c 298-309), a
message arrives (`none`: one that cannot be decoded), or the timer of the `k`-th entry of
`g_imsi_ops` runs out.  The first is possible ten thousand times, the last when that timer was
started. -/
inductive Ev where
  | loop (L : Lib)
  | rx (L : Lib) (m : Option Rx)
  | expire (k : Nat)

/-- main (gsup_test_client.c 298-313) with osmo_select_main(): one event.  After a null
pointer was followed nothing happens any more. -/
def step (s : St) (ev : Ev) : St :=
  if s.crashed then s
  else match ev with
    | .loop L => if s.next < 10000 then { (request L s (imsiOf s.next) .sai SEND_AUTH_INFO).1 with next := s.next + 1 } else s
    | .rx L m => readCb L s m
    | .expire k => match s.ops[k]? with
      | some o => if o.armed then timerCb s o else s
      | none => s

/-- The state after the events. -/
def run (l : List Ev) : St := l.foldl step {}

/-- print_report (gsup_test_client.c 253-264), which SIGINT leads to (266-274): the five
numbers of a line. -/
def report (s : St) (k : Kind) : List Nat :=
  [(s.stats k).alloc, (s.stats k).released, (s.stats k).success, (s.stats k).error, (s.stats k).timeout].map (· % 2 ^ 32)

end Verif.TestClient
