import Verif.Gsup.Msg
/-! # The test of osmo_gsup_make_response, replayed on the model

The messages of `tests/gsup/gsup_test.c` and the text recorded in `tests/gsup/gsup_test.ok`.  These are tests
of the model against the behaviour recorded from the real program: `#guard` evaluates them during the build and
fails it if a result differs. -/
namespace Verif.Gsup.Transcript
open Verif Verif.Gsup

/-- osmo_gsup_message_type_name and osmo_gsup_message_class_name (libosmocore) of the values in the test. -/
def typeName (t : Nat) : String :=
  if t = UPDATE_LOCATION then "OSMO_GSUP_MSGT_UPDATE_LOCATION_REQUEST"
  else if t = UPDATE_LOCATION + 1 then "OSMO_GSUP_MSGT_UPDATE_LOCATION_ERROR"
  else if t = UPDATE_LOCATION + 2 then "OSMO_GSUP_MSGT_UPDATE_LOCATION_RESULT"
  else if t = ROUTING_ERROR then "OSMO_GSUP_MSGT_ROUTING_ERROR" else "?"
def className (c : Nat) : String :=
  if c = 1 then "Subscriber-Management " else if c = 4 then "Inter-MSC " else ""
def stateName : SessState → String
  | .none => "" | .begin => "BEGIN" | .continue_ => "CONTINUE" | .end_ => "END"

/-- osmo_quote_cstr_buf (libosmocore) of the values in the test: NUL is written `\0`. -/
def quote (x : Bytes) : String :=
  "\"" ++ String.join (x.map (fun c => if c = 0 then "\\0" else String.singleton (Char.ofNat c.toNat))) ++ "\""

/-- osmo_gsup_message_to_str_buf (gsup_req.c 360-411), without the cause and a strange CN domain. -/
def toStr (m : Msg) : String :=
  className m.cls ++ typeName m.typ ++ ": imsi=" ++ quote m.imsi
  ++ (if m.cnDomain = 2 then " cn_domain=CS" else if m.cnDomain = 1 then " cn_domain=PS" else "")
  ++ (if m.src.isEmpty then "" else " source_name=" ++ quote m.src)
  ++ (if m.dst.isEmpty then "" else " destination_name=" ++ quote m.dst)
  ++ (if m.sessId = 0 then "" else s!" session_id={m.sessId}")
  ++ (if m.sessState = .none then "" else " session_state=" ++ stateName m.sessState)
  ++ (match m.smRpMr with | none => "" | some n => s!" sm_rp_mr={n}")

/-- gsup_test.c 35-44 -/
def rx : Msg where
  typ := UPDATE_LOCATION
  imsi := b "1234567"
  cls := 1
  src := b "incoming-source-name" ++ [0]
  smRpMr := some 23
  sessId := 42
  sessState := .begin

/-- gsup_test.c 45-54 -/
def nonempty : Msg where
  typ := ROUTING_ERROR
  imsi := b "987654321"
  cls := 4
  dst := b "preset-destination-name" ++ [0]
  smRpMr := some 17
  sessId := 11
  sessState := .end_

def show_ (reply : Msg) (error final : Bool) : String × Nat :=
  (toStr (makeResponse reply rx error final).2, (makeResponse reply rx error final).1)

-- gsup_test.ok 3
#guard toStr rx = "Subscriber-Management OSMO_GSUP_MSGT_UPDATE_LOCATION_REQUEST: imsi=\"1234567\" source_name=\"incoming-source-name\\0\" session_id=42 session_state=BEGIN sm_rp_mr=23"
-- gsup_test.ok 5-17
#guard show_ {} false false = ("Subscriber-Management OSMO_GSUP_MSGT_UPDATE_LOCATION_RESULT: imsi=\"1234567\" destination_name=\"incoming-source-name\\0\" session_id=42 session_state=CONTINUE sm_rp_mr=23", 0)
#guard show_ {} false true = ("Subscriber-Management OSMO_GSUP_MSGT_UPDATE_LOCATION_RESULT: imsi=\"1234567\" destination_name=\"incoming-source-name\\0\" session_id=42 session_state=END sm_rp_mr=23", 0)
#guard show_ {} true false = ("Subscriber-Management OSMO_GSUP_MSGT_UPDATE_LOCATION_ERROR: imsi=\"1234567\" destination_name=\"incoming-source-name\\0\" session_id=42 session_state=CONTINUE sm_rp_mr=23", 0)
#guard show_ {} true true = ("Subscriber-Management OSMO_GSUP_MSGT_UPDATE_LOCATION_ERROR: imsi=\"1234567\" destination_name=\"incoming-source-name\\0\" session_id=42 session_state=END sm_rp_mr=23", 0)
-- gsup_test.ok 19-31
#guard [(false, false), (false, true), (true, false), (true, true)].all fun (e, f) =>
  show_ nonempty e f = ("Inter-MSC OSMO_GSUP_MSGT_ROUTING_ERROR: imsi=\"987654321\" destination_name=\"preset-destination-name\\0\" session_id=11 session_state=END sm_rp_mr=17", 15)

end Verif.Gsup.Transcript
