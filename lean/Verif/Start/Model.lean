import Verif.Start.Getopt
import Verif.DbOpen.Model
import Verif.Config.Model
import Verif.Tool.Model
/-!
# Starting the programs: main() of `src/hlr.c`, `src/hlr_db_tool.c`, `src/mslookup/osmo-mslookup-client.c`

From the command line to the main loop.  Left out: logging (the options `-d`, `-s`, `-T`, `-e` only
set it up), memory contexts, and the statistics and CPU scheduling set-up of libosmocore.  An exit
status is 0 or not; the name of the program is not among the words of a command line.
-/
namespace Verif.Start
open Verif Verif.Db Verif.DbOpen

/-- A database file on disk: its content (`DbOpen.File`) and whether its journal mode, which SQLite
stores in the file, is WAL. -/
structure DFile where
  db : File := {}
  wal : Bool := false

/-- What the programs find: the files, and what the system lets them do. -/
structure World where
  /-- POSIXLY_CORRECT is set -/
  posix : Bool := false
  /-- the databases, by path; the special names of SQLite ("" and ":memory:") are not modelled -/
  disk : Bytes → Option DFile := fun _ => none
  /-- sqlite3_open() succeeds for this path: the directory exists, permissions -/
  openable : Bytes → Bool := fun _ => true
  /-- the fate of the SQL statements -/
  script : Script := []
  /-- the lines of a configuration file -/
  cfg : Bytes → Option (List Bytes) := fun _ => none
  env : Config.Env
  /-- get_string_value(vty_ref_gen_mode_names, …) knows this name -/
  refMode : Bytes → Bool := fun _ => false
  /-- rand_init() succeeds -/
  rand : Bool := true
  /-- the ports of VTY, GSUP and CTRL can be opened; fork() succeeds -/
  vty : Bool := true
  gsup : Bool := true
  ctrl : Bool := true
  fork : Bool := true

/-- What a program does that its user can see. -/
inductive Act where
  | help
  | version
  | vtyRef
  /-- reads this configuration file -/
  | config (path : Bytes)
  /-- opens this database, allowed to upgrade it or not -/
  | openDb (path : Bytes) (upgrade : Bool)
  /-- listens for terminals, clients of the HLR, and CTRL -/
  | listenVty | listenGsup | listenCtrl
  | daemonized
  /-- imports from this OsmoNITB database -/
  | imports (path : Bytes)
deriving DecidableEq, Repr

inductive Status where
  /-- exits with status 0, or with another one -/
  | ok | error
  /-- dies while executing an SQL statement -/
  | died
  | running
deriving DecidableEq, Repr

structure Out where
  acts : List Act := []
  status : Status
  disk : Bytes → Option DFile
  /-- the configuration the main loop starts with -/
  conf : Option Config.St := none

/-- Replace a file. -/
def setFile (d : Bytes → Option DFile) (p : Bytes) (f : DFile) : Bytes → Option DFile :=
  fun q => if q = p then some f else d q

/-- db_open() (db.c 591-728) of a path: sqlite3_open() creates the file if there is none (642),
`PRAGMA journal_mode=WAL` (655), which is taken to succeed, then `DbOpen.dbOpen`.  In the same
statement, "synchonous" is not the name of a pragma; SQLite ignores it. -/
def openPath (w : World) (p : Bytes) (allow : Bool) : OpenRes × (Bytes → Option DFile) :=
  if w.openable p then
    let r := dbOpen allow (((w.disk p).map (·.db)).getD {}) w.script
    (r.1, setFile w.disk p { db := r.2, wal := true })
  else (.failed, w.disk)

/-! ## osmo-hlr -/

/-- "hc:l:d:Dse:TUV" and `long_options` (hlr.c 655-672). -/
def hlrOpts : Opts where
  short := [(104, false), (99, true), (108, true), (100, true), (68, false), (115, false), (101, true), (84, false),
    (85, false), (86, false)]
  long := [
    { name := [104, 101, 108, 112], val := 104 },
    { name := [99, 111, 110, 102, 105, 103, 45, 102, 105, 108, 101], arg := true, val := 99 },
    { name := [100, 97, 116, 97, 98, 97, 115, 101], arg := true, val := 108 },
    { name := [100, 101, 98, 117, 103], arg := true, val := 100 },
    { name := [100, 97, 101, 109, 111, 110, 105, 122, 101], val := 68 },
    { name := [100, 105, 115, 97, 98, 108, 101, 45, 99, 111, 108, 111, 114], val := 115 },
    { name := [108, 111, 103, 45, 108, 101, 118, 101, 108], arg := true, val := 101 },
    { name := [116, 105, 109, 101, 115, 116, 97, 109, 112], val := 84 },
    { name := [100, 98, 45, 117, 112, 103, 114, 97, 100, 101], val := 85 },
    { name := [100, 98, 45, 99, 104, 101, 99, 107], val := 67 },
    { name := [118, 101, 114, 115, 105, 111, 110], val := 86 },
    { name := [118, 116, 121, 45, 114, 101, 102, 45, 109, 111, 100, 101], arg := true, flag := true, val := 1 },
    { name := [118, 116, 121, 45, 114, 101, 102, 45, 120, 109, 108], flag := true, val := 2 }]

example : hlrOpts.long.map (·.name) = ["help", "config-file", "database", "debug", "daemonize", "disable-color", "log-level",
    "timestamp", "db-upgrade", "db-check", "version", "vty-ref-mode", "vty-ref-xml"].map b ∧
    hlrOpts.short.map (·.1) = b "hcldDseTUV" := by decide +kernel

/-- `cmdline_opts` (hlr.c 614-624). -/
structure HlrArgs where
  config : Bytes := [111, 115, 109, 111, 45, 104, 108, 114, 46, 99, 102, 103]
  db : Option Bytes := none
  daemonize : Bool := false
  upgrade : Bool := false
  check : Bool := false
deriving DecidableEq, Repr

example : ({} : HlrArgs).config = b "osmo-hlr.cfg" := by decide +kernel

/-- How reading the options ends. -/
inductive Parsed (α : Type) where
  | go (a : α)
  | exit (acts : List Act) (ok : Bool)
deriving DecidableEq, Repr

/-- One option: handle_options (hlr.c 677-722), handle_long_options (626-649). -/
def hlrOption (w : World) (a : HlrArgs) : Tok → Parsed HlrArgs
  | .flagged 1 arg => if w.refMode (arg.getD []) then .go a else .exit [] false
  | .flagged 2 _ => .exit [.vtyRef] true
  | .opt 104 _ => .exit [.help] true
  | .opt 99 arg => .go { a with config := arg.getD [] }
  | .opt 108 arg => .go { a with db := arg }
  | .opt 100 _ => .go a
  | .opt 68 _ => .go { a with daemonize := true }
  | .opt 115 _ => .go a
  | .opt 101 _ => .go a
  | .opt 84 _ => .go a
  | .opt 85 _ => .go { a with upgrade := true }
  | .opt 67 _ => .go { a with check := true }
  | .opt 86 _ => .exit [.version] true
  | _ => .exit [] false

/-- The loop over the options. -/
def options {α : Type} (f : α → Tok → Parsed α) : α → List Tok → Parsed α
  | a, [] => .go a
  | a, t :: ts => match f a t with
    | .go a' => options f a' ts
    | .exit acts ok => .exit acts ok

/-- handle_options (hlr.c 651-728). -/
def hlrHandle (w : World) (ws : List Bytes) : Parsed HlrArgs :=
  match options (hlrOption w) {} (scan hlrOpts w.posix ws).1 with
  | .exit acts ok => .exit acts ok
  | .go a => if (scan hlrOpts w.posix ws).2.isEmpty then .go a else .exit [] false

def okStatus (ok : Bool) : Status := if ok then .ok else .error

/-- main() of hlr.c from telnet_init_default() to the main loop (hlr.c 842-879); `acts`: what was
done before.  That hlr_controlif_setup() failed is not noticed. -/
def hlrServe (w : World) (a : HlrArgs) (c : Config.St) (acts : List Act) (disk : Bytes → Option DFile) : Out :=
  if !w.vty then { acts := acts, status := .error, disk := disk }
  else if !w.gsup then { acts := acts ++ [.listenVty], status := .error, disk := disk }
  else
    let acts := acts ++ [.listenVty, .listenGsup] ++ (if w.ctrl then [.listenCtrl] else [])
    if a.daemonize then
      if w.fork then { acts := acts ++ [.daemonized], status := .running, disk := disk, conf := some c }
      else { acts := acts, status := .error, disk := disk }
    else { acts := acts, status := .running, disk := disk, conf := some c }

/-- main() of hlr.c (hlr.c 759-879). -/
def hlrMain (w : World) (ws : List Bytes) : Out :=
  match hlrHandle w ws with
  | .exit acts ok => { acts := acts, status := okStatus ok, disk := w.disk }
  | .go a =>
    match (w.cfg a.config).bind (Config.readFile w.env) with
    | none => { acts := [.config a.config], status := .error, disk := w.disk }
    | some c =>
      if !w.rand then { acts := [.config a.config], status := .error, disk := w.disk }
      else
        let p := a.db.getD c.db
        let acts := [.config a.config, .openDb p a.upgrade]
        let r := openPath w p a.upgrade
        match r.1 with
        | .failed => { acts := acts, status := .error, disk := r.2 }
        | .died => { acts := acts, status := .died, disk := r.2 }
        | .opened =>
          if a.check then { acts := acts, status := .ok, disk := r.2 }
          else hlrServe w a { c with db := p } acts r.2

/-! ## osmo-hlr-db-tool -/

/-- "hl:d:sTe:UV" and `long_options` (hlr_db_tool.c 97-110). -/
def dbToolOpts : Opts where
  short := [(104, false), (108, true), (100, true), (115, false), (84, false), (101, true), (85, false), (86, false)]
  long := [
    { name := [104, 101, 108, 112], val := 104 },
    { name := [100, 97, 116, 97, 98, 97, 115, 101], arg := true, val := 108 },
    { name := [100, 101, 98, 117, 103], arg := true, val := 100 },
    { name := [100, 105, 115, 97, 98, 108, 101, 45, 99, 111, 108, 111, 114], val := 115 },
    { name := [116, 105, 109, 101, 115, 116, 97, 109, 112], val := 84 },
    { name := [108, 111, 103, 45, 108, 101, 118, 101, 108], arg := true, val := 101 },
    { name := [100, 98, 45, 117, 112, 103, 114, 97, 100, 101], val := 85 },
    { name := [118, 101, 114, 115, 105, 111, 110], val := 86 }]

example : dbToolOpts.long.map (·.name) = ["help", "database", "debug", "disable-color", "timestamp", "log-level",
    "db-upgrade", "version"].map b ∧ dbToolOpts.short.map (·.1) = b "hldsTeUV" := by decide +kernel

/-- `cmdline_opts` (hlr_db_tool.c 44-52). -/
structure DbToolArgs where
  db : Bytes := [104, 108, 114, 46, 100, 98]
  upgrade : Bool := false
  imports : Option Bytes := none
deriving DecidableEq, Repr

example : ({} : DbToolArgs).db = b "hlr.db" := by decide +kernel

/-- One option (hlr_db_tool.c 114-145). -/
def dbToolOption (a : DbToolArgs) : Tok → Parsed DbToolArgs
  | .opt 104 _ => .exit [.help] true
  | .opt 108 arg => .go { a with db := arg.getD [] }
  | .opt 100 _ => .go a
  | .opt 115 _ => .go a
  | .opt 84 _ => .go a
  | .opt 101 _ => .go a
  | .opt 85 _ => .go { a with upgrade := true }
  | .opt 86 _ => .exit [.version] true
  | _ => .exit [] false

/-- "create" and "import-nitb-db". -/
def wCreate : Bytes := [99, 114, 101, 97, 116, 101]
def wImport : Bytes := [105, 109, 112, 111, 114, 116, 45, 110, 105, 116, 98, 45, 100, 98]

example : wCreate = b "create" ∧ wImport = b "import-nitb-db" := by decide +kernel

/-- The command (hlr_db_tool.c 148-176). -/
def dbToolCommand (a : DbToolArgs) : List Bytes → Parsed DbToolArgs
  | [] => .exit [.help] false
  | c :: ps =>
    if c = wCreate then (if ps.isEmpty then .go a else .exit [.help] false)
    else if c = wImport then
      match ps with
      | [] => .exit [.help] false
      | f :: ps' => if ps'.isEmpty then .go { a with imports := some f } else .exit [.help] false
    else .exit [.help] false

/-- handle_options (hlr_db_tool.c 91-177). -/
def dbToolHandle (w : World) (ws : List Bytes) : Parsed DbToolArgs :=
  match options dbToolOption {} (scan dbToolOpts w.posix ws).1 with
  | .exit acts ok => .exit acts ok
  | .go a => dbToolCommand a (scan dbToolOpts w.posix ws).2

/-- main() of hlr_db_tool.c (473-531).  The import itself is `Verif.Import`; here it is an action
whose effect on the database is a parameter, as is whether it says that it failed. -/
def dbToolMain (w : World) (imp : Bytes → DFile → Bool × DFile) (ws : List Bytes) : Out :=
  match dbToolHandle w ws with
  | .exit acts ok => { acts := acts, status := okStatus ok, disk := w.disk }
  | .go a =>
    if !w.rand then { status := .error, disk := w.disk }
    else
      let acts := [.openDb a.db a.upgrade]
      let r := openPath w a.db a.upgrade
      match r.1 with
      | .failed => { acts := acts, status := .error, disk := r.2 }
      | .died => { acts := acts, status := .died, disk := r.2 }
      | .opened =>
        match a.imports with
        | none => { acts := acts, status := .ok, disk := r.2 }
        | some f =>
          let x := imp f ((r.2 a.db).getD {})
          { acts := acts ++ [.imports f], status := okStatus x.1, disk := setFile r.2 a.db x.2 }

/-! ## osmo-mslookup-client -/

/-- "f:Hdm:M:D:t:T:s:SqhV" and `long_options` (osmo-mslookup-client.c 741-767). -/
def lookupOpts : Opts where
  short := [(102, true), (72, false), (100, false), (109, true), (77, true), (68, true), (116, true), (84, true), (115, true),
    (83, false), (113, false), (104, false), (86, false)]
  long := [
    { name := [102, 111, 114, 109, 97, 116], arg := true, val := 102 },
    { name := [110, 111, 45, 99, 115, 118, 45, 104, 101, 97, 100, 101, 114, 115], val := 72 },
    { name := [100, 97, 101, 109, 111, 110], val := 100 },
    { name := [109, 100, 110, 115, 45, 105, 112], arg := true, val := 109 },
    { name := [109, 100, 110, 115, 45, 112, 111, 114, 116], arg := true, val := 77 },
    { name := [109, 100, 110, 115, 45, 100, 111, 109, 97, 105, 110, 45, 115, 117, 102, 102, 105, 120], arg := true, val := 68 },
    { name := [116, 105, 109, 101, 111, 117, 116], arg := true, val := 84 },
    { name := [109, 105, 110, 45, 100, 101, 108, 97, 121], arg := true, val := 116 },
    { name := [115, 111, 99, 107, 101, 116], arg := true, val := 115 },
    { name := [115, 101, 110, 100], val := 83 },
    { name := [113, 117, 105, 101, 116], val := 113 },
    { name := [104, 101, 108, 112], val := 104 },
    { name := [118, 101, 114, 115, 105, 111, 110], val := 86 }]

example : lookupOpts.long.map (·.name) = ["format", "no-csv-headers", "daemon", "mdns-ip", "mdns-port", "mdns-domain-suffix",
    "timeout", "min-delay", "socket", "send", "quiet", "help", "version"].map b ∧
    lookupOpts.short.map (·.1) = b "fHdmMDtTsSqhV" := by decide +kernel

/-- `cmdline_opts` (osmo-mslookup-client.c 198-215); "239.192.23.42", 4266, "mdns.osmocom.org". -/
structure LookupArgs where
  daemon : Bool := false
  ip : Bytes := [50, 51, 57, 46, 49, 57, 50, 46, 50, 51, 46, 52, 50]
  port : Nat := 4266
  minDelay : Nat := 1000
  timeout : Nat := 1000
  socket : Option Bytes := none
  format : Option Bytes := none
  suffix : Bytes := [109, 100, 110, 115, 46, 111, 115, 109, 111, 99, 111, 109, 46, 111, 114, 103]
  headers : Bool := true
  send : Bool := false
  quiet : Bool := false
deriving DecidableEq, Repr

example : ({} : LookupArgs).ip = b "239.192.23.42" ∧ ({} : LookupArgs).suffix = b "mdns.osmocom.org" := by decide +kernel

/-- Reading ends with an error message, unless `quiet` is set by then; `true`: with status 0. -/
inductive LParsed where
  | go (a : LookupArgs)
  | exit (acts : List Act) (ok : Bool) (message : Bool)
deriving DecidableEq, Repr

/-- One option (osmo-mslookup-client.c 772-824).  `isIp`: osmo_sockaddr_str_from_str() accepts the
text, and the address is not zero. -/
def lookupOption (isIp : Bytes → Bool) (a : LookupArgs) : Tok → LParsed
  | .opt 102 arg => .go { a with format := arg }
  | .opt 72 _ => .go { a with headers := false }
  | .opt 100 _ => .go { a with daemon := true }
  | .opt 109 arg => if isIp (arg.getD []) then .go { a with ip := arg.getD [] } else .exit [] false (!a.quiet)
  | .opt 77 arg => match Mslookup.Mdns.decodeU32 (arg.getD []) with
    | some n => if 1 ≤ n ∧ n ≤ 65535 then .go { a with port := n } else .exit [] false (!a.quiet)
    | none => .exit [] false (!a.quiet)
  | .opt 68 arg => .go { a with suffix := arg.getD [] }
  | .opt 116 arg => match Mslookup.Mdns.decodeU32 (arg.getD []) with
    | some n => .go { a with minDelay := n }
    | none => .exit [] false (!a.quiet)
  | .opt 84 arg => match Mslookup.Mdns.decodeU32 (arg.getD []) with
    | some n => .go { a with timeout := n }
    | none => .exit [] false (!a.quiet)
  | .opt 115 arg => .go { a with socket := arg }
  | .opt 83 _ => .go { a with send := true }
  | .opt 113 _ => .go { a with quiet := true }
  | .opt 104 _ => .exit [.help] true false
  | .opt 86 _ => .exit [.version] true false
  | _ => .exit [] false (!a.quiet)

/-- The loop (osmo-mslookup-client.c 735-825). -/
def lookupOptions (isIp : Bytes → Bool) : LookupArgs → List Tok → LParsed
  | a, [] => .go a
  | a, t :: ts => match lookupOption isIp a t with
    | .go a' => lookupOptions isIp a' ts
    | .exit acts ok m => .exit acts ok m

/-- What the program does after its options are read. -/
inductive LStart where
  /-- ends: what it printed, with status 0, an error message was printed -/
  | exit (acts : List Act) (ok : Bool) (message : Bool)
  /-- sends one result -/
  | send (a : LookupArgs) (args : List Bytes)
  /-- looks up: `Tool.run cfg queries` -/
  | lookup (cfg : Tool.Cfg) (ip : Bytes) (port : Nat) (suffix : Bytes) (socket : Option Bytes) (queries : List Bytes)

/-- The format (osmo-mslookup-client.c 848-857): osmo_str_startswith("json", format_str) says whether
"json" starts with the given text. -/
def lookupJson : Option Bytes → Option Bool
  | none => some false
  | some f =>
    if f.isPrefixOf [106, 115, 111, 110] then some true
    else if f.isPrefixOf [99, 115, 118] then some false
    else none

example : lookupJson (some (b "json")) = some true ∧ lookupJson (some (b "csv")) = some false ∧
    lookupJson (some (b "xml")) = none := by decide +kernel

/-- What the lookups use of the options. -/
def lookupCfg (ipText : Sys.Addr → Bytes) (a : LookupArgs) (json : Bool) : Tool.Cfg where
  json := json
  headers := a.headers
  daemon := a.daemon
  minDelay := a.minDelay
  timeout := a.timeout
  ip := ipText

/-- main() of osmo-mslookup-client.c from the options to the first lookup (735-876), when the mDNS
client and the socket can be opened.  `ipText`: how libosmocore writes an address. -/
def lookupMain (posix : Bool) (isIp : Bytes → Bool) (ipText : Sys.Addr → Bytes) (ws : List Bytes) : LStart :=
  match lookupOptions isIp {} (scan lookupOpts posix ws).1 with
  | .exit acts ok m => .exit acts ok m
  | .go a =>
    let ps := (scan lookupOpts posix ws).2
    if a.send then .send a ps
    else if !a.daemon && ps.isEmpty then .exit [.help] false false
    else if a.daemon && a.timeout == 0 then .exit [] false (!a.quiet)
    else match lookupJson a.format with
      | none => .exit [] false (!a.quiet)
      | some json => .lookup (lookupCfg ipText a json) a.ip a.port a.suffix a.socket ps

end Verif.Start
