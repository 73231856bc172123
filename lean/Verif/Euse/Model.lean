import Verif.Gsup.Msg
import Verif.Prov.Text
/-!
# osmo-euse-demo (src/osmo-euse-demo.c)

The sample application for USSD: a program that connects to the HLR as the external node
"EUSE-foobar" and answers each request.  The connection itself is the GSUP client of
`Verif.Client`.
-/
namespace Verif.Euse
open Verif Verif.Gsup

/-- The functions of libosmocore the program calls: gsm0480_parse_facility_ie (the invoke id
and the text, `none` if it fails), gsm0480_gen_reject, gsm0480_gen_ussd_resp_7bit, and
whether osmo_gsup_encode succeeds.  Allocations succeed. -/
structure Lib where
  parse : Bytes → Option (Nat × Bytes)
  reject : Int → Nat → Nat → Bytes
  text : Nat → Bytes → Bytes
  enc : Msg → Bool

/-- What goes to the HLR.  The return value of osmo_gsup_encode is not looked at
(osmo-euse-demo.c 90): what could be encoded before the failure is sent. -/
inductive Sent where
  | msg (m : Msg)
  | garbled
deriving DecidableEq, Repr

/-- What a call did: the messages sent, and whether the received message buffer was freed. -/
structure Out where
  sent : List Sent := []
  freed : Bool := true
deriving DecidableEq, Repr

/-- GSM0480_USSD_7BIT_STRING_LEN (libosmocore). -/
abbrev USSD_7BIT_STRING_LEN : Nat := 182
/-- GSM_0480_PROBLEM_CODE_TAG_GENERAL, GSM_0480_GEN_PROB_CODE_UNRECOGNISED,
GSM_0480_GEN_PROB_CODE_BAD_STRUCTURE (libosmocore gsm_04_80.h). -/
abbrev TAG_GENERAL : Nat := 0x80
abbrev UNRECOGNISED : Nat := 0x00
abbrev BAD_STRUCTURE : Nat := 0x02

/-- euse_tx_ss (osmo-euse-demo.c 60-93). -/
def txSs (L : Lib) (imsi : Bytes) (sessId : Nat) (typ : Nat) (final : Bool) (info : Option Bytes) : List Sent :=
  if typ = PROC_SS ∨ typ = PROC_SS + 2 ∨ typ = PROC_SS + 1 then
    let m : Msg := { typ := typ, imsi := imsi, sessId := sessId, sessState := if final then .end_ else .continue_, ssInfo := info.getD [] }
    if L.enc m then [.msg m] else [.garbled]
  else []

/-- euse_tx_ussd_reject (osmo-euse-demo.c 103-111). -/
def txReject (L : Lib) (imsi : Bytes) (sessId : Nat) (invokeId : Int) (tag code : Nat) : List Sent :=
  txSs L imsi sessId (PROC_SS + 2) true (some (L.reject invokeId tag code))

/-- euse_tx_ussd_resp_7bit (osmo-euse-demo.c 121-132). -/
def txResp (L : Lib) (imsi : Bytes) (sessId : Nat) (final : Bool) (invokeId : Nat) (text : Bytes) : List Sent :=
  txSs L imsi sessId (PROC_SS + 2) final (some (L.text invokeId text))

/-- snprintf() of the answer into `char buf[GSM0480_USSD_7BIT_STRING_LEN + 1]`
(osmo-euse-demo.c 136, 158). -/
def answer (text : Bytes) : Bytes := (b "You sent \"" ++ text ++ b "\"").take USSD_7BIT_STRING_LEN

/-- euse_rx_proc_ss_req (osmo-euse-demo.c 134-160). -/
def rxProcSsReq (L : Lib) (m : Msg) : List Sent :=
  match (if m.ssInfo.isEmpty then some (0, []) else L.parse m.ssInfo) with
  | none => txReject L m.imsi m.sessId (-1) TAG_GENERAL BAD_STRUCTURE
  | some (inv, text) =>
    if m.sessState ≠ .begin then txReject L m.imsi m.sessId inv TAG_GENERAL UNRECOGNISED
    else txResp L m.imsi m.sessId true inv (answer text)

/-- gsupc_read_cb (osmo-euse-demo.c 162-190); `none`: osmo_gsup_decode fails, and the buffer
is not freed (line 170). -/
def readCb (L : Lib) : Option Msg → Out
  | none => { freed := false }
  | some m => if m.typ = PROC_SS ∨ m.typ = PROC_SS + 2 then { sent := rxProcSsReq L m } else {}

/-- What main() does with its arguments (osmo-euse-demo.c 211-238): print the usage, or
connect as a client of this name to this host and port. -/
inductive Start where
  | usage
  | client (name host : Bytes) (port : Nat)
deriving DecidableEq, Repr

/-- OSMO_GSUP_PORT (libosmocore). -/
abbrev GSUP_PORT : Nat := 4222

/-- main (osmo-euse-demo.c 211-238); `args` is argv[1], argv[2] and so on.  The port is a `uint16_t`. -/
def start (args : List Bytes) : Start :=
  match args with
  | [] => .client (b "EUSE-foobar") (b "127.0.0.1") GSUP_PORT
  | h :: rest =>
    if h = b "--help" ∨ h = b "-h" then .usage
    else match rest with
      | [] => .client (b "EUSE-foobar") h GSUP_PORT
      | p :: _ => .client (b "EUSE-foobar") h (Prov.atoiU32 p % 2 ^ 16)

end Verif.Euse
