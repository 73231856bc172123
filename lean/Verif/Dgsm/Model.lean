import Verif.Dgsm.Json
import Verif.Start.Model
/-!
# The scripts that route calls and messages: `contrib/dgsm/freeswitch_dialplan_dgsm.py`, `contrib/dgsm/esme_dgsm.py`

Both run osmo-mslookup-client for the number that is called, and read the address of the other
side from what it prints.

Simplified: POSIXLY_CORRECT is not set; the program can be started, and can open its socket; the
number is what FreeSWITCH or smpplib give; printing to the log does not fail.
-/
namespace Verif.Dgsm
open Verif Verif.Mslookup Verif.Tool Verif.Tool.Spec Verif.Sys

/-- How addresses are recognized and written (libosmocore). -/
structure Env where
  isIp : Bytes → Bool
  ipText : Addr → Bytes

/-- `query_str` (freeswitch_dialplan_dgsm.py 17, esme_dgsm.py 54). -/
def queryStr (service id : Bytes) : Bytes := service ++ 46 :: (id ++ 46 :: b "msisdn")

/-- The arguments of the program (freeswitch_dialplan_dgsm.py 20-21, esme_dgsm.py 57-58). -/
def argv (service id : Bytes) : List Bytes := [queryStr service id, b "-f", b "json"]

/-- How far the program has come: with the options it was given, after these turns of its main loop. -/
def program (env : Env) (ws : List Bytes) (turns : List (List Tool.Ev)) : Option Tool :=
  match Start.lookupMain false env.isIp env.ipText ws with
  | .lookup cfg _ _ _ _ ps => some (run cfg ps turns)
  | _ => none

/-- `subprocess.check_output()` (freeswitch_dialplan_dgsm.py 20-21, esme_dgsm.py 57-58): `none` while the
program runs, then what it printed, or an exception (`some none`). -/
def checkOutput (env : Env) (ws : List Bytes) (turns : List (List Tool.Ev)) : Option (Option Bytes) :=
  match program env ws turns with
  | none => some none
  | some t => if t.exited then some (some (printed t.log)) else none

/-- `decode('ascii')` (freeswitch_dialplan_dgsm.py 23, esme_dgsm.py 60). -/
def ascii (s : Bytes) : Option Bytes := if s.all (fun c => decide (c < 128)) then some s else none

/-- query_mslookup (freeswitch_dialplan_dgsm.py 16-26, esme_dgsm.py 53-63). -/
def queryMslookup (env : Env) (service id : Bytes) (turns : List (List Tool.Ev)) : Option (Option Json) :=
  (checkOutput env (argv service id) turns).map (fun o => (o.bind ascii).bind loads)

/-- `result[key]`: of several members with the same name, the last one counts (`json.loads()` makes a
dictionary); `none` for an exception (freeswitch_dialplan_dgsm.py 41, 46; esme_dgsm.py 107, 112). -/
def getItem (key : Bytes) : Json → Option Json
  | .obj l => (l.reverse.find? (fun m => m.1 == key)).map (·.2)
  | _ => none

/-- `if not v` (freeswitch_dialplan_dgsm.py 41, esme_dgsm.py 107). -/
def truthy : Json → Bool
  | .str s => !s.isEmpty
  | .num n => n != 0
  | .bool v => v
  | .arr l => !l.isEmpty
  | .obj l => !l.isEmpty

/-- `sip_ip, sip_port = result['v4']` (freeswitch_dialplan_dgsm.py 46, esme_dgsm.py 112).  Simplified: the
value is a list of two strings, as the program writes it; everything else is an exception. -/
def unpack : Json → Option (Bytes × Bytes)
  | .arr [.str a, .str p] => some (a, p)
  | _ => none

/-- What happens to a call. -/
inductive Call where
  | waiting
  | bridge (dial : Bytes)
  | hangup (cause : Bytes)
deriving DecidableEq, Repr

/-- `'sofia/internal/sip:{}@{}:{}'.format(…)` (freeswitch_dialplan_dgsm.py 47-48). -/
def dialStr (msisdn ip port : Bytes) : Bytes := b "sofia/internal/sip:" ++ msisdn ++ b "@" ++ ip ++ b ":" ++ port

/-- handler (freeswitch_dialplan_dgsm.py 29-54), from the result of the query on. -/
def route (msisdn : Bytes) (result : Option Json) : Call :=
  match result.bind (getItem (b "v4")) with
  | none => .hangup (b "UNALLOCATED_NUMBER")
  | some v =>
    if !truthy v then .hangup (b "UNALLOCATED_NUMBER")
    else match unpack v with
      | none => .hangup (b "UNALLOCATED_NUMBER")
      | some (ip, port) => .bridge (dialStr msisdn ip port)

/-- handler (freeswitch_dialplan_dgsm.py 29-54). -/
def handler (env : Env) (msisdn : Bytes) (turns : List (List Tool.Ev)) : Call :=
  match queryMslookup env (b "sip.voice") msisdn turns with
  | none => .waiting
  | some result => route msisdn result

/-! ## Messages -/

/-- What a PDU of smpplib has in it. -/
structure Pdu where
  /-- it is a DeliverSM -/
  deliver : Bool := true
  destTon : Nat := 0
  dest : Bytes
  source : Bytes
  registered : Nat := 0
  text : Bytes
deriving DecidableEq, Repr

/-- A message that is sent to another SMSC (esme_dgsm.py 66-83). -/
structure Sent where
  host : Bytes
  port : Bytes
  source : Bytes
  dest : Bytes
  registered : Nat
  text : Bytes
deriving DecidableEq, Repr

/-- What happens to a PDU: the status that is returned, or an exception, and what was sent. -/
inductive Sms where
  | waiting
  | done (status : Nat) (sent : Option Sent)
  | raised
deriving DecidableEq, Repr

/-- can_handle_pdu (esme_dgsm.py 40-50); SMPP_TON_INTL is 1. -/
def canHandle (p : Pdu) : Bool := if !p.deliver then false else if p.destTon = 1 then false else true

/-- rx_deliver_sm (esme_dgsm.py 106-117), from the result of the query on; `tx` says whether the other SMSC
can be reached and takes the message.  SMPP_ESME_RSYSERR is 8, SMPP_ESME_ROK is 0.  Simplified: the result is
an object, as the program writes it; anything else is an exception. -/
def forward (tx : Bytes → Bytes → Bool) (p : Pdu) (result : Option Json) : Sms :=
  match result with
  | none => .raised
  | some j => match j with
    | .obj l => match getItem (b "v4") (.obj l) with
      | none => .done 8 none
      | some v =>
        if !truthy v then .done 8 none
        else match unpack v with
          | none => .raised
          | some (host, port) =>
            if tx host port then .done 0 (some { host := host, port := port, source := p.source, dest := p.dest, registered := p.registered, text := p.text })
            else .raised
    | _ => .raised

/-- rx_deliver_sm (esme_dgsm.py 91-117); `fail` is what `--always-fail` says.  Simplified: `--sleep` is not
modelled; the number is valid UTF-8. -/
def rxDeliverSm (env : Env) (fail : Option Nat) (tx : Bytes → Bytes → Bool) (p : Pdu) (turns : List (List Tool.Ev)) : Sms :=
  if !canHandle p then .done 8 none
  else match fail with
    | some n => .done n none
    | none => match queryMslookup env (b "smpp.sms") p.dest turns with
      | none => .waiting
      | some result => forward tx p result

end Verif.Dgsm
