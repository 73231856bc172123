import Verif.Mslookup.Client
import Verif.Mslookup.Mdns
/-!
# The lookup program: `src/mslookup/osmo-mslookup-client.c`

It answers queries given on its command line and, as a daemon, those of the programs that connect
to its UNIX domain socket.  The lookups are done by the mslookup client (`Verif.Mslookup.Client`)
with the mDNS method, which does not answer while it is being asked.

Simplified: `--send` and the parsing of the options are not modelled; accept(), the registration
of a socket and writing to stdout do not fail; a write to a connection whose other end is open
sends all of it; `requests_handled` does not wrap around.
-/
namespace Verif.Tool
open Verif Verif.Mslookup Verif.Sys

/-- `cmdline_opts` and `globals.format` (osmo-mslookup-client.c 198-215, 334-345). -/
structure Cfg where
  json : Bool := false
  headers : Bool := true
  daemon : Bool := true
  minDelay : Nat := 1000
  timeout : Nat := 1000
  /-- the text of an IP address, as libosmocore stores it in `struct osmo_sockaddr_str` -/
  ip : Addr → Bytes

/-! ## Output -/

/-- osmo_mslookup_result_code_name (mslookup.c 97-102): "none", "result", "not-found". -/
def rcName : Rc → Bytes
  | .none => [110, 111, 110, 101]
  | .result => [114, 101, 115, 117, 108, 116]
  | .notFound => [110, 111, 116, 45, 102, 111, 117, 110, 100]

example : rcName .none = b "none" ∧ rcName .result = b "result" ∧ rcName .notFound = b "not-found" := by decide +kernel

/-- CSV_HEADERS (osmo-mslookup-client.c 41). -/
def csvHeaders : Bytes :=
  [113, 117, 101, 114, 121, 9, 114, 101, 115, 117, 108, 116, 9, 108, 97, 115, 116, 9, 97, 103, 101, 9, 118, 52, 95, 105, 112, 9,
   118, 52, 95, 112, 111, 114, 116, 9, 118, 54, 95, 105, 112, 9, 118, 54, 95, 112, 111, 114, 116]

example : csvHeaders = b "query\tresult\tlast\tage\tv4_ip\tv4_port\tv6_ip\tv6_port" := by decide +kernel

/-- The columns of one address (osmo-mslookup-client.c 362-369). -/
def csvAddr (cfg : Cfg) (a : Addr) : Bytes := if a.nonzero then 9 :: (cfg.ip a ++ 9 :: Mdns.dec a.port) else [9, 9]

/-- formatter_csv (osmo-mslookup-client.c 349-376) into a buffer that is large enough. -/
def csvText (cfg : Cfg) (text : Bytes) : Option Result → Bytes
  | none => text ++ b "\tERROR\t\t\t\t\t\t"
  | some r => text ++ 9 :: (rcName r.rc ++ 9 :: ((if r.last then b "last" else b "not-last") ++ 9 :: (Mdns.dec r.age ++
      (if r.rc = .result then csvAddr cfg r.v4 ++ csvAddr cfg r.v6 else b "\t\t\t\t\t"))))

/-- One address (osmo-mslookup-client.c 390-393). -/
def jsonAddr (cfg : Cfg) (key : Bytes) (a : Addr) : Bytes :=
  if a.nonzero then b ", \"" ++ key ++ b "\": [\"" ++ cfg.ip a ++ b "\", \"" ++ Mdns.dec a.port ++ b "\"]" else []

/-- formatter_json (osmo-mslookup-client.c 378-397) into a buffer that is large enough. -/
def jsonText (cfg : Cfg) (text : Bytes) (r : Option Result) : Bytes :=
  b "{\"query\": \"" ++ text ++ b "\"" ++
  (match r with
   | none => b ", \"result\": \"ERROR\""
   | some r => b ", \"result\": \"" ++ rcName r.rc ++ b "\"" ++ b ", \"last\": " ++ (if r.last then b "true" else b "false")
      ++ b ", \"age\": " ++ Mdns.dec r.age
      ++ (if r.rc = .result then jsonAddr cfg (b "v4") r.v4 ++ jsonAddr cfg (b "v6") r.v6 else []))
  ++ b "}"

/-- `formatters[globals.format](g_buf, sizeof(g_buf), …)` (osmo-mslookup-client.c 222, 399-402):
the text is cut to 1023 bytes. -/
def fmt (cfg : Cfg) (text : Bytes) (r : Option Result) : Bytes :=
  ((if cfg.json then jsonText cfg text r else csvText cfg text r)).take 1023

/-! ## State -/

/-- `struct socket_client` (osmo-mslookup-client.c 412-416). -/
structure Sock where
  /-- connections are numbered in the order of their acceptance (not in the program) -/
  id : Nat
  /-- the other end is open (not in the program) -/
  alive : Bool := true
  /-- `query_str`, empty until a query is received -/
  query : Bytes := []
deriving DecidableEq, Repr

/-- `struct query` (osmo-mslookup-client.c 579-585). -/
structure Qry where
  text : Bytes
  handle : Nat
deriving DecidableEq, Repr

/-- What happens, as seen from outside. -/
inductive Obs where
  /-- connection `n` is accepted -/
  | accepted (n : Nat)
  /-- a packet is received on it -/
  | asked (n : Nat) (d : Bytes)
  /-- recv() finds it at its end, or fails -/
  | ended (n : Nat)
  /-- the query `line` of a connection, or of the command line, starts lookup number `u`: for
  this query, with this minimum delay and timeout -/
  | started (o : Option Nat) (line : Bytes) (u : Nat) (q : Query) (mn to : Nat)
  /-- the query `line` of a connection, or of the command line, is refused -/
  | refused (o : Option Nat) (line : Bytes)
  /-- the lookup client reports a result of lookup `u` -/
  | result (u : Nat) (r : Result)
  /-- the program ends -/
  | exit
  /-- this is written to the connection -/
  | line (n : Nat) (s : Bytes)
  /-- the program closes the connection -/
  | closed (n : Nat)
  /-- this is written to stdout -/
  | stdout (s : Bytes)
deriving DecidableEq, Repr

/-- `globals` (osmo-mslookup-client.c 334-345). -/
structure Tool where
  client : Client.Client := {}
  socks : List Sock := []
  queries : List Qry := []
  /-- `requests_handled` -/
  handled : Nat := 0
  /-- connections accepted so far -/
  conns : Nat := 0
  /-- the process was killed by SIGPIPE -/
  killed : Bool := false
  exited : Bool := false
  /-- what happened, the latest first -/
  log : List Obs := []

/-- Nothing happens any more once the process was killed. -/
def Tool.emit (t : Tool) (o : Obs) : Tool := if t.killed then t else { t with log := o :: t.log }

/-- write() to a connection (osmo-mslookup-client.c 430-437, 533-539).  If its other end is
closed, SIGPIPE is raised, which the program neither ignores nor handles. -/
def Tool.write (t : Tool) (c : Sock) (s : Bytes) : Tool :=
  if c.alive then t.emit (.line c.id s) else { t with killed := true }

/-- socket_client_close (osmo-mslookup-client.c 418-428). -/
def Tool.close (t : Tool) (n : Nat) : Tool := ({ t with socks := t.socks.filter (fun c => !(c.id == n)) } : Tool).emit (.closed n)

/-- respond_str_stdout (osmo-mslookup-client.c 404-407). -/
def Tool.print (t : Tool) (s : Bytes) : Tool := t.emit (.stdout (s ++ [10]))

/-- A response without a result, or with the last one, is the final one. -/
def isFinal : Option Result → Bool
  | none => true
  | some r => r.last

/-- What respond_result does for one connection (osmo-mslookup-client.c 594-598). -/
def respondTo (text s : Bytes) (fin : Bool) (t : Tool) (c : Sock) : Tool :=
  if c.query = text then
    let t := t.write c s
    if fin then t.close c.id else t
  else t

/-- respond_result (osmo-mslookup-client.c 587-602). -/
def respond (cfg : Cfg) (t : Tool) (text : Bytes) (r : Option Result) : Tool :=
  let s := fmt cfg text r
  let t := t.print s
  let t := t.socks.foldl (respondTo text s (isFinal r)) t
  if isFinal r then { t with handled := t.handled + 1 } else t

/-- mslookup_result_cb (osmo-mslookup-client.c 609-632). -/
def resultCb (cfg : Cfg) (t : Tool) (x : Nat × Nat × Result) : Tool :=
  match t.queries.find? (·.handle == x.2.1) with
  | none => t
  | some q =>
    let t := respond cfg (t.emit (.result x.1 x.2.2)) q.text (some x.2.2)
    if x.2.2.last then { t with queries := t.queries.eraseP (·.handle == x.2.1) } else t

/-- A callback of the lookup client: number of the lookup, handle and result. -/
def callback (c : Client.Client) (x : Nat × Client.Obs) : Option (Nat × Nat × Result) :=
  match x.2 with
  | .cb r => (c.req? x.1).map (fun q => (x.1, q.handle, r))
  | _ => none

/-- The callbacks that the lookup client made on its way from `c` to `c'`. -/
def callbacks (c c' : Client.Client) : List (Nat × Nat × Result) :=
  (c'.log.take (c'.log.length - c.log.length)).reverse.filterMap (callback c)

/-- The lookup client does something; its callbacks reach mslookup_result_cb().  They do not call
the lookup client themselves, so that they are handled one after the other. -/
def Tool.moved (cfg : Cfg) (t : Tool) (c' : Client.Client) : Tool :=
  (callbacks t.client c').foldl (resultCb cfg) { t with client := c' }

/-! ## Queries -/

/-- The text before and after the first `x` (`strchr()`). -/
def splitFirst (x : UInt8) : Bytes → Option (Bytes × Bytes)
  | [] => none
  | c :: s => if c = x then some ([], s) else (splitFirst x s).map (fun p => (c :: p.1, p.2))

/-- The minimum delay and the timeout of a query (osmo-mslookup-client.c 639-682), from the part
before the '@' if there is one.  `parse_int(0, UINT32_MAX, …)` (224-240) reads numbers like
decode_uint32_t() of mdns.c. -/
def handling (cfg : Cfg) : Option Bytes → Option (Nat × Nat)
  | none => some (cfg.minDelay, cfg.timeout)
  | some t =>
    if t.length ≥ 16 then none
    else match splitFirst 45 t with
      | some (a, c) => (Mdns.decodeU32 a).bind (fun mn =>
          if c.isEmpty then some (mn, 0) else (Mdns.decodeU32 c).map (fun to => (mn, to)))
      | none => if t.isEmpty then some (0, 0) else (Mdns.decodeU32 t).map (fun to => (0, to))

/-- The part of a query before the '@', if there is one, and the domain string. -/
def parts (line : Bytes) : Option Bytes × Bytes :=
  match splitFirst 64 line with
  | some (a, d) => (some a, d)
  | none => (none, line)

/-- respond_err (osmo-mslookup-client.c 604-607). -/
def refuse (cfg : Cfg) (t : Tool) (o : Option Nat) (line : Bytes) : Tool :=
  respond cfg (t.emit (.refused o line)) (parts line).2 none

/-- The checks of start_query_str (osmo-mslookup-client.c 634-701). -/
def readQuery (cfg : Cfg) (line : Bytes) : Option (Query × Nat × Nat) :=
  match handling cfg (parts line).1 with
  | none => none
  | some (mn, to) =>
    if (parts line).2.length ≥ 128 then none
    else match parseDomain (parts line).2 with
      | .error _ => none
      | .ok q => some (q, mn, to)

/-- start_query_str (osmo-mslookup-client.c 634-712), called for a connection or for the command
line. -/
def startQuery (cfg : Cfg) (t : Tool) (o : Option Nat) (line : Bytes) : Tool :=
  match readQuery cfg line with
  | none => refuse cfg t o line
  | some (q, mn, to) =>
    let x := Client.request (Client.react {} 0) (fun _ => []) t.client q mn to
    let u := t.client.uids
    let t := t.moved cfg x.2
    if x.1 = 0 then refuse cfg t o line
    else ({ t with queries := { text := (parts line).2, handle := x.1 } :: t.queries } : Tool).emit (.started o line u q mn to)

/-! ## The socket -/

/-- `strtok(rxbuf, "\r\n")` (osmo-mslookup-client.c 464). -/
def firstLine (d : Bytes) : Option Bytes :=
  let eol (c : UInt8) : Bool := c == 13 || c == 10
  let s := ((cstr d).dropWhile eol).takeWhile (fun c => !eol c)
  if s.isEmpty then none else some s

/-- socket_accept (osmo-mslookup-client.c 502-542); the other end may be closed already. -/
def accept (cfg : Cfg) (t : Tool) (alive : Bool) : Tool :=
  let c : Sock := { id := t.conns, alive := alive }
  let t := ({ t with conns := t.conns + 1, socks := c :: t.socks } : Tool).emit (.accepted c.id)
  if !cfg.json && cfg.headers then t.write c csvHeaders else t

/-- socket_read_cb (osmo-mslookup-client.c 439-488) for a packet of one or more bytes. -/
def readCb (cfg : Cfg) (t : Tool) (c : Sock) (d : Bytes) : Tool :=
  let t := t.emit (.asked c.id d)
  if d.length ≥ 1024 then t.close c.id
  else match firstLine d with
    | none => t.close c.id
    | some line =>
      if c.query ≠ [] then t.write c (fmt cfg (parts line).2 none)
      else
        let t := { t with socks := t.socks.map (fun x => if x.id = c.id then { x with query := (parts line).2 } else x) }
        (startQuery cfg t (some c.id) line).print (b "query: " ++ line)

/-! ## The main loop -/

inductive Ev where
  /-- a program connects; its end may be closed again already -/
  | accept (alive : Bool)
  /-- a packet arrives on the connection -/
  | packet (n : Nat) (d : Bytes)
  /-- the other end of the connection is closed -/
  | hangup (n : Nat)
  /-- the program notices that, or an error of the connection -/
  | ended (n : Nat)
  /-- the mDNS method delivers a result for the lookup with this handle -/
  | rx (handle : Nat) (res : Result)
  /-- the timer of lookup number `u` expires -/
  | timeout (u : Nat)
deriving DecidableEq, Repr

/-- One callback of the main loop. -/
def step (cfg : Cfg) (t : Tool) (e : Ev) : Tool :=
  if t.killed || t.exited then t
  else match e with
    | .accept alive => accept cfg t alive
    | .packet n d => match t.socks.find? (·.id == n) with
      | none => t
      | some c => readCb cfg t c d
    | .hangup n => { t with socks := t.socks.map (fun x => if x.id = n then { x with alive := false } else x) }
    | .ended n => match t.socks.find? (·.id == n) with
      | none => t
      | some c => (t.emit (.ended c.id)).close c.id
    | .rx h res => t.moved cfg (Client.step {} 0 t.client (.rx h res))
    | .timeout u => t.moved cfg (Client.step {} 0 t.client (.timeout u))

/-- The end of the program (osmo-mslookup-client.c 881-894, 567-577): the connections are
closed. -/
def finish (t : Tool) : Tool :=
  let t := t.emit .exit
  { t.socks.foldl (fun t c => t.close c.id) t with exited := true }

/-- One turn of the loop (osmo-mslookup-client.c 878-885): osmo_select_main_ctx() calls some
callbacks, then comes the check whether to go on. -/
def turn (cfg : Cfg) (t : Tool) (evs : List Ev) : Tool :=
  let t := evs.foldl (step cfg) t
  if !t.killed && !t.exited && !cfg.daemon && t.handled != 0 && t.queries.isEmpty then finish t else t

/-- What happens before the loop (osmo-mslookup-client.c 857-876): the headers are printed, the
queries of the command line are started. -/
def start (cfg : Cfg) (args : List Bytes) : Tool :=
  let t : Tool := {}
  let t := if !cfg.json && cfg.headers then t.print csvHeaders else t
  args.foldl (fun t a => startQuery cfg t none a) t

/-- A run of the program: the queries of its command line, the turns of its main loop. -/
def run (cfg : Cfg) (args : List Bytes) (turns : List (List Ev)) : Tool := turns.foldl (turn cfg) (start cfg args)

end Verif.Tool
