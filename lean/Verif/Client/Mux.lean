import Verif.Client.Props
import Verif.Gsup.Msg
/-!
# The GSUP client multiplexer (src/gsupclient/gsup_client_mux.c)

With it an MSC shares one GSUP client between its parts: subscriber management, SMS,
supplementary services and inter-MSC signalling.
The codec is libosmocore's and is a parameter: `decode` gives the message or a negative code,
`encode` the bytes or a negative code.
-/
namespace Verif.Client.Mux
open Verif Verif.Client Verif.Gsup

/-- `enum osmo_gsup_message_class` (libosmocore gsup.h; assumption): UNSET 0, then these, and
ARRAYSIZE 5. -/
abbrev SUBSCRIBER : Nat := 1
abbrev SMS : Nat := 2
abbrev USSD : Nat := 3
abbrev INTER_MSC : Nat := 4
abbrev ARRAYSIZE : Nat := 5

/-- libosmocore's codec. -/
structure Codec where
  decode : Bytes → Int ⊕ Msg
  encode : Msg → Int ⊕ Bytes

/-- `struct gsup_client_mux` (include/osmocom/gsupclient/gsup_client_mux.h 40-45): the client
if started, the serial number of its IPA unit if set, and what the receivers do: `rx c` is the
return code of the receiver of class `c`, none where no receiver is set. -/
structure Mux where
  client : Option St := none
  serno : Option Bytes := none
  rx : Nat → Option (Msg → Int) := fun _ => none

/-- `gsup_client_mux_classify` (gsup_client_mux.c 30-56). -/
def classify (m : Msg) : Nat :=
  if m.cls ≠ 0 then m.cls
  else if m.typ = PROC_SS ∨ m.typ = PROC_SS + 2 ∨ m.typ = PROC_SS + 1 then USSD
  else if m.typ = MO_FORWARD_SM + 1 ∨ m.typ = MO_FORWARD_SM + 2 ∨ m.typ = READY_FOR_SM + 1 ∨ m.typ = READY_FOR_SM + 2
      ∨ m.typ = MT_FORWARD_SM then SMS
  else SUBSCRIBER

/-- `gsup_client_mux_tx_set_source` (gsup_client_mux.c 143-161). -/
def setSource (x : Mux) (m : Msg) : Msg :=
  match x.client, x.serno with
  | some _, some n => { m with src := n ++ [0] }
  | _, _ => m

/-- The error reply (gsup_client_mux.c 173-191). -/
def errorReply (x : Mux) (orig : Msg) (cause : Hlr.Cause) : Msg :=
  let m := setSource x { cause := some cause, typ := toError orig.typ, cls := orig.cls, dst := orig.src,
                         smRpMr := orig.smRpMr, imsi := orig.imsi }
  if orig.sessState ≠ .none then { m with sessState := .end_, sessId := orig.sessId } else m

/-- `osmo_gsup_client_enc_send` (gsup_client.c 417-447) on the client of the multiplexer.  A
client that was not started is refused by `osmo_gsup_client_send`, which tests for NULL. -/
def encSend (k : Codec) (m : Msg) (x : Mux) : Int × Mux :=
  match k.encode m with
  | .inl rc => (rc, x)
  | .inr bs => match x.client with
    | none => (-ENOTCONN, x)
    | some s => ((send bs s).1, { x with client := some (send bs s).2 })

/-- `gsup_client_mux_tx_error_reply` (gsup_client_mux.c 164-196). -/
def txErrorReply (k : Codec) (orig : Msg) (cause : Hlr.Cause) (x : Mux) : Mux :=
  if !isRequest orig.typ then x else (encSend k (errorReply x orig cause) x).2

/-- `gsup_client_mux_rx` (gsup_client_mux.c 59-100): the return code, the class whose receiver
got the message and the message, and the state after. -/
def rx (k : Codec) (bs : Bytes) (x : Mux) : Int × Option (Nat × Msg) × Mux :=
  match k.decode bs with
  | .inl rc => (rc, none, x)
  | .inr m =>
    if m.imsi.isEmpty then
      (-96, none, if isRequest m.typ then txErrorReply k m .invMandInfo x else x)
    else
      let c := classify m
      if c = 0 ∨ ARRAYSIZE ≤ c then (-EINVAL, none, x)
      else match x.rx c with
        | none => (-ENOTSUP, none, x)
        | some f => (f m, some (c, m), x)

/-- `gsup_client_mux_tx` (gsup_client_mux.c 122-140). -/
def tx (k : Codec) (m : Msg) (x : Mux) : Int × Mux :=
  match x.client with
  | none => (-ENOTSUP, x)
  | some s => match k.encode m with
    | .inl rc => (rc, x)
    | .inr bs => ((send bs s).1, { x with client := some (send bs s).2 })

/-- `gsup_client_mux_start` (gsup_client_mux.c 109-120). -/
def start (t : Nat) (rc : Int) (x : Mux) : Int × Mux :=
  match create t rc with
  | none => (-12, { x with client := none })
  | some s => (0, { x with client := some s })

end Verif.Client.Mux
