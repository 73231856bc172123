import Verif.Start.Model
/-!
# The script run after a package upgrade: `contrib/osmo-hlr-post-upgrade.sh`

Run with `sh -e` (line 1; debian/postinst 5 calls it as a program): a command that fails ends the
script, unless it is the condition of an `if`.

SQLite: the file of a database in WAL mode is `main`; what was committed since the last checkpoint
is in a second file beside it, which is folded into the first one and removed when the last program
that has the database open closes it.  It stays behind if that program is killed.  `cp` copies the
first file only.

Simplified: a service that died is not started again by systemd while the script runs (it would be
the new program, which refuses an old database, C18); writing messages does not fail; nobody else
has the database open or touches the files.
-/
namespace Verif.Upgrade
open Verif Verif.Db Verif.DbOpen

/-- A database in WAL mode: its file, and what a reader sees if there is a second one. -/
structure DbFile where
  main : File
  wal : Option File := none

/-- What a program that opens the database finds in it. -/
def DbFile.view (d : DbFile) : File := d.wal.getD d.main

structure World where
  /-- /var/lib/osmocom/hlr.db (osmo-hlr-post-upgrade.sh 8) -/
  db : Option DbFile
  /-- the backups, by their time stamps -/
  backups : Bytes → Option File := fun _ => none
  /-- the service osmo-hlr is active -/
  active : Bool := false

/-- What the HLR does while it runs. -/
inductive HlrEv where
  /-- changes the database: its new content -/
  | write (f : File)
  | checkpoint
  /-- dies, without closing the database -/
  | die

def hlrEv (w : World) : HlrEv → World
  | .write f => if w.active then { w with db := w.db.map fun d => { d with wal := some f } } else w
  | .checkpoint => if w.active then { w with db := w.db.map fun d => { main := d.view } } else w
  | .die => { w with active := false }

/-- What the script meets. -/
structure Env where
  conf : Config.Env
  /-- what the HLR does before the first run of osmo-hlr-db-tool, before the script asks whether it
  runs, and before it stops -/
  hlr : Nat → List HlrEv := fun _ => []
  /-- for each run of osmo-hlr-db-tool: the fate of its SQL statements, whether the file can be
  opened, and whether random numbers are there -/
  sql : Nat → Script := fun _ => []
  openable : Nat → Bool := fun _ => true
  rand : Nat → Bool := fun _ => true
  /-- `systemctl stop` returns 0 -/
  stopOk : Bool := true
  /-- the service ends before the script looks for the n-th time, having closed the database or not -/
  ends : Option (Nat × Bool) := some (0, true)
  /-- `date +%Y%m%d%H%M%S` -/
  date : Bytes
  /-- `cp` fails, leaving this (perhaps nothing) -/
  cpFails : Option (Option File) := none
  /-- `systemctl start` returns 0, and the service is active -/
  startOk : Bool := true

structure St where
  w : World
  /-- IS_ACTIVE (line 9) -/
  isActive : Bool := false
  /-- runs of osmo-hlr-db-tool so far -/
  runs : Nat := 0
  /-- every situation so far in which the script can be killed, the latest first -/
  trace : List World

/-- The world changes. -/
def St.to (s : St) (w : World) : St := { s with w := w, trace := w :: s.trace }

/-- The HLR does something. -/
def during (s : St) (evs : List HlrEv) : St := evs.foldl (fun s e => s.to (hlrEv s.w e)) s

/-- "-s", "-U", "-l", "/var/lib/osmocom/hlr.db", "create". -/
def DB : Bytes := b "/var/lib/osmocom/hlr.db"
def toolArgs (up : Bool) : List Bytes :=
  if up then [b "-s", b "-U", b "-l", DB, b "create"] else [b "-s", b "-l", DB, b "create"]

/-- What the run number `n` of osmo-hlr-db-tool finds. -/
def toolWorld (env : Env) (n : Nat) (f : File) : Start.World where
  disk := fun p => if p = DB then some { db := f, wal := true } else none
  openable := fun _ => env.openable n
  script := env.sql n
  env := env.conf
  rand := env.rand n

/-- The run number `n` of osmo-hlr-db-tool (lines 22, 72) on a database with this content: how it
ends, and the content afterwards. -/
def toolOut (env : Env) (n : Nat) (up : Bool) (f : File) : Start.Status × File :=
  let r := Start.dbToolMain (toolWorld env n f) (fun _ d => (true, d)) (toolArgs up)
  (r.status, ((r.disk DB).map (·.db)).getD f)

/-- A run of osmo-hlr-db-tool: whether it succeeds.  It folds the second file into the first when it
closes the database, unless the HLR has it open too, or it died. -/
def tool (env : Env) (up : Bool) (s : St) : Bool × St :=
  let d := s.w.db.getD { main := {} }
  let r := toolOut env s.runs up d.view
  let d' : DbFile :=
    if !env.openable s.runs || !env.rand s.runs then d
    else if s.w.active || r.1 == .died then { d with wal := some r.2 }
    else { main := r.2 }
  (r.1 == .ok, { s.to { s.w with db := some d' } with runs := s.runs + 1 })

/-- The script goes on, or exits with status 0 or not. -/
inductive Res where
  | go (s : St)
  | exit (s : St) (ok : Bool)

def Res.st : Res → St
  | .go s => s
  | .exit s _ => s

/-- check_upgrade_required (lines 25-37). -/
def check (env : Env) (s : St) : Res :=
  if s.w.db.isNone then .exit s true
  else
    let r := tool env false (during s (env.hlr 0))
    if r.1 then .exit r.2 true else .go r.2

/-- The service ends, having closed the database (hlr.c 876) or not. -/
def World.ended (w : World) (closed : Bool) : World :=
  { w with active := false, db := if closed then w.db.map (fun d => { main := d.view }) else w.db }

/-- stop_service (lines 39-58). -/
def stopService (env : Env) (s : St) : Res :=
  let s := during s (env.hlr 1)
  if s.w.active then
    let s := during { s with isActive := true } (env.hlr 2)
    if !env.stopOk then .exit s false
    else if !s.w.active then .go s
    else match env.ends with
      | none => .exit s false
      | some (n, closed) => if n < 100 then .go (s.to (s.w.ended closed)) else .exit s false
  else .go s

/-- create_backup (lines 60-68). -/
def createBackup (env : Env) (s : St) : Res :=
  if (s.w.backups env.date).isSome then .exit s false
  else match env.cpFails, s.w.db with
    | none, some d => .go (s.to { s.w with backups := fun t => if t = env.date then some d.main else s.w.backups t })
    | none, none => .exit s false
    | some x, _ => .exit (s.to { s.w with backups := fun t => if t = env.date then x else s.w.backups t }) false

/-- upgrade (lines 70-82). -/
def upgrade (env : Env) (s : St) : Res :=
  let r := tool env true s
  if !r.1 then .exit r.2 false
  else
    let r := tool env false r.2
    if r.1 then .go r.2
    else
      let r := tool env false r.2
      if r.1 then .go r.2 else .exit r.2 false

/-- start_service (lines 84-89), the last command. -/
def startService (env : Env) (s : St) : Res :=
  if s.isActive then
    if env.startOk then .exit (s.to { s.w with active := true }) true else .exit s false
  else .exit s true

/-- One command after the other. -/
def Res.andThen (r : Res) (f : St → Res) : Res :=
  match r with
  | .go s => f s
  | .exit s ok => .exit s ok

/-- The script (lines 91-95). -/
def script (env : Env) (w : World) : Res :=
  ((((check env { w := w, trace := [w] }).andThen (stopService env)).andThen (createBackup env)).andThen (upgrade env)).andThen
    (startService env)

/-- Its exit status. -/
def Res.ok : Res → Bool
  | .go _ => true
  | .exit _ ok => ok

end Verif.Upgrade
