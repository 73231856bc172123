import Verif.Config.Model
/-!
# The recorded VTY sessions about the configuration, replayed on the model

`tests/test_nodes.vty`, `tests/test_subscr_create_on_demand.vty` and `doc/examples/osmo-hlr.cfg`, with
the database named on the command line.  A test of the model (`#guard`), not a proof.
-/
namespace Verif.Config.Transcript
open Verif Verif.Sys Verif.Mslookup

/-- The addresses in the sessions. -/
def ips : List (String × Bool × Nat) :=
  [("127.0.0.1", false, 2130706433), ("239.192.23.42", false, 239 * 2 ^ 24 + 192 * 2 ^ 16 + 23 * 256 + 42), ("1.2.3.4", false, 16909060), ("123.45.67.89", false, 5),
   ("121.31.41.5", false, 6), ("a:b:c::d", true, 7), ("76.54.32.10", false, 8), ("12.11.10.98", false, 9),
   ("dd:cc:bb::a", true, 11), ("999:999:999::999", true, 12), ("1.1.1.1", false, 13), ("2.2.2.2", false, 14),
   ("2222:2222:2222::2", true, 15), ("23.42.17.11", false, 16)]

def env : Env where
  ipv4 w := w == b "127.0.0.1"
  ipParse w := (ips.find? fun x => b x.1 == w).map (·.2)
  ipText a := ((ips.find? fun x => x.2 == a).map fun x => b x.1).getD []
  esc _ := b "?"

/-- `exit` (vty_go_parent(), libosmocore). -/
def parent : Node → Node
  | .config | .hlr | .mslookup => .config
  | .gsup | .euse | .smsc | .ps => .hlr
  | .profiles => .ps
  | .profile _ => .profiles
  | .server (.msc _) => .server .server
  | .server .server | .client => .mslookup

structure Sess where
  node : Node := .config
  st : St
  out : List String := []

/-- A line: a command, or one of `exit`, `end`, `show`. -/
def Sess.line (s : Sess) (l : String) : Sess :=
  match tokens (b l) with
  | (_, ws) =>
    if ws = [b "exit"] then { s with node := parent s.node }
    else if ws = [b "end"] then { s with node := .config }
    else match parse env s.node ws with
      | none => { s with out := s.out ++ ["% Unknown command."] }
      | some c => match exec false s.node s.st c with
        | (.ok, n, st) => { s with node := n, st := st }
        | (_, n, st) => { s with node := n, st := st, out := s.out ++ ["%"] }

def example_cfg : List String :=
  ["hlr", " gsup", "  bind ip 127.0.0.1", " ussd route prefix *#100# internal own-msisdn",
   " ussd route prefix *#101# internal own-imsi", " ps", "  pdp-profiles default", "   profile 1", "    apn internet",
   "   profile 2", "    apn *"]

/-- The HLR started with the example configuration. -/
def start : Option Sess := (readFile env (example_cfg.map b)).map fun st => { st := { st with db := b "hlr_vty_test.db" } }

def run (s : Option Sess) (ls : List String) : Option Sess := s.map fun s => ls.foldl Sess.line s

def shown (s : Option Sess) : Option (List Bytes) := s.bind fun s => fileOf env s.st

-- test_nodes.vty 88-131
#guard shown (run start ["hlr", "store-imei", "gsup", "end"]) = some (["hlr", " reject-cause not-found plmn-not-allowed",
  " reject-cause no-proxy net-fail", " store-imei", " database hlr_vty_test.db", " no subscriber-create-on-demand", " gsup",
  "  bind ip 127.0.0.1", "  ipa-name unnamed-HLR", " ussd route prefix *#100# internal own-msisdn",
  " ussd route prefix *#101# internal own-imsi", " ps", "  pdp-profiles default", "   profile 1", "    apn internet",
  "   profile 2", "    apn *"].map b)

/-- The part of the configuration from `mslookup` on. -/
def mslPart (s : Option Sess) : Option (List Bytes) :=
  (shown s).map fun l => (l.dropWhile (· != b "mslookup")).takeWhile (· != b " ps")

def nodes1 : List String :=
  ["mslookup", "server", "msc ipa-name MSC-1", "exit", "exit", "client", "gateway-proxy 1.2.3.4", "exit", "mdns bind", "server",
   "service qwert at 123.45.67.89 qwert", "service qwert at qwert 1234",
   "service foo.bar at 123.45.67.89 1011", "service baz.bar at 121.31.41.5 1617", "service baz.bar at a:b:c::d 1819",
   "msc ipa-name msc-901-70-23", "service foo.bar at 76.54.32.10 1234", "service baz.bar at 12.11.10.98 7654",
   "service baz.bar at 999:999:999::999 9999", "service baz.bar at dd:cc:bb::a 3210", "exit",
   "msc ipa-name msc-901-70-42", "service foo.bar at 1.1.1.1 1111", "service baz.bar at 2.2.2.2 2222",
   "service baz.bar at 2222:2222:2222::2 2222"]

-- test_nodes.vty 136-390
#guard mslPart (run start nodes1) = some (["mslookup", " server", "  mdns bind 239.192.23.42 4266",
  "  service foo.bar at 123.45.67.89 1011", "  service baz.bar at 121.31.41.5 1617", "  service baz.bar at a:b:c::d 1819",
  "  msc ipa-name MSC-1", "  msc ipa-name msc-901-70-23", "   service foo.bar at 76.54.32.10 1234",
  "   service baz.bar at 12.11.10.98 7654", "   service baz.bar at dd:cc:bb::a 3210", "  msc ipa-name msc-901-70-42",
  "   service foo.bar at 1.1.1.1 1111", "   service baz.bar at 2.2.2.2 2222",
  "   service baz.bar at 2222:2222:2222::2 2222", " client", "  gateway-proxy 1.2.3.4 4222",
  "  mdns bind 239.192.23.42 4266"].map b)

#guard (run start nodes1).map (·.out) = some ["% Unknown command.", "%"]

def nodes2 : List String :=
  ["no service baz.bar", "no service asdf", "exit", "msc ipa-name msc-901-70-23", "no service baz.bar at dd:cc:bb::a 3210",
   "no service asdf at asdf asdf", "no service asdf at asdf 3210", "no service asdf at dd:cc:bb::a 3210", "exit",
   "no service baz.bar at 2.2.2.2 2222", "no service baz.bar at a:b:c::d 1819", "exit", "client", "no gateway-proxy"]

-- test_nodes.vty 392-433; the session prints a warning exactly where the model returns one.
#guard mslPart (run start (nodes1 ++ nodes2)) = some (["mslookup", " server", "  mdns bind 239.192.23.42 4266",
  "  service foo.bar at 123.45.67.89 1011", "  service baz.bar at 121.31.41.5 1617",
  "  msc ipa-name MSC-1", "  msc ipa-name msc-901-70-23", "   service foo.bar at 76.54.32.10 1234",
  "   service baz.bar at 12.11.10.98 7654", "  msc ipa-name msc-901-70-42",
  "   service foo.bar at 1.1.1.1 1111", " client", "  mdns bind 239.192.23.42 4266"].map b)

#guard (run start (nodes1 ++ nodes2)).map (·.out) =
  some ["% Unknown command.", "%", "%", "%", "% Unknown command.", "%", "%", "%", "%"]

-- test_nodes.vty 435-469
#guard (mslPart (run start (nodes1 ++ nodes2 ++ ["exit", "server", "service gsup.hlr at 23.42.17.11 4223"]))).map (·.drop 3) =
  some (["  service foo.bar at 123.45.67.89 1011", "  service baz.bar at 121.31.41.5 1617",
  "  service gsup.hlr at 23.42.17.11 4223",
  "  msc ipa-name MSC-1", "  msc ipa-name msc-901-70-23", "   service foo.bar at 76.54.32.10 1234",
  "   service baz.bar at 12.11.10.98 7654", "  msc ipa-name msc-901-70-42",
  "   service foo.bar at 1.1.1.1 1111", " client", "  mdns bind 239.192.23.42 4266"].map b)

-- test_nodes.vty 470-511
#guard (shown (run start ["hlr", "ps", "no pdp-profiles default", "pdp-profiles default", "profile 1", "apn internet", "exit",
  "profile 2", "apn *"])).map (fun l => l.dropWhile (· != b " ps")) = some ([" ps", "  pdp-profiles default", "   profile 1",
  "    apn internet", "   profile 2", "    apn *"].map b)

/-- test_subscr_create_on_demand.vty -/
def cod (l : String) : Bool :=
  match run start ["hlr", l] with
  | some s => s.out.isEmpty && (match shown (some s) with
    | some ls => ls.contains (b (" " ++ l))
    | none => false)
  | none => false

#guard ["subscriber-create-on-demand no-msisdn none", "subscriber-create-on-demand msisdn-from-imsi cs+ps",
  "subscriber-create-on-demand 3 none", "subscriber-create-on-demand 4 cs", "subscriber-create-on-demand 5 ps",
  "subscriber-create-on-demand 6 cs+ps", "no subscriber-create-on-demand"].all cod

-- The example configuration of the project can be written and read again.
#guard (shown start).bind (fun f => readFile env f) = start.map (·.st)

end Verif.Config.Transcript
