import Verif.Db.Model
/-!
# Opening, initialising and upgrading the database file: `src/db.c`, `sql/hlr.sql`

A database file is modelled as its `user_version` and its tables; a connection adds
the open transaction and the temporary tables.  Each SQL statement either takes
effect, fails without effect (an error of the statement itself, or an I/O error by
fiat of the script), or the process dies before it.  Outside a transaction a
statement is durable once it has taken effect; inside, at COMMIT.  (Power loss that
undoes committed statements is not modelled.)
-/
namespace Verif.DbOpen
open Verif Verif.Db

/-- Table names in db.c 263-554 and sql/hlr.sql.  Other tables in the file play no
role and are left out. -/
inductive T where
  | subscriber | subscriberBackup | subscriberApn | subscriberMultiMsisdn
  | auc2g | auc3g | oldAuc3g | ind
deriving DecidableEq, Repr

/-- Column names (sql/hlr.sql; tests/db_upgrade/hlr_db_v0.sql for `hlr_number`). -/
inductive Cn where
  | id | imsi | msisdn | imeisv | imei | vlrNumber | hlrNumber | mscNumber | sgsnNumber
  | sgsnAddress | ggsnNumber | gmlcNumber | smscNumber | periodicLuTmr | periodicRauTauTmr
  | namCs | namPs | lmsi | msPurgedCs | msPurgedPs | lastLuSeen | lastLuSeenPs | vlrViaProxy
  | sgsnViaProxy
  | subscriberId | apn | algoId2g | ki | algoId3g | k | op | opc | sqn | indBitlen
  | ind | vlr
deriving DecidableEq, Repr

/-- A value in a cell. -/
inductive Val where
  | null | int (i : Int) | text (t : Bytes)
deriving DecidableEq, Repr

/-- A column with its constraints; PRIMARY KEY is unique and not null.  Types and
defaults are left out: the upgrade statements never rely on a default but NULL. -/
structure Col where
  name : Cn
  uniq : Bool := false
  notNull : Bool := false
deriving DecidableEq, Repr

structure Table where
  cols : List Col
  rows : List (List Val) := []
deriving DecidableEq, Repr

/-- Value of column `c` in a row. -/
def valAt (cols : List Col) (row : List Val) (c : Cn) : Val :=
  (((cols.map (·.name)).zip row).lookup c).getD .null

/-- All values of column `c`, in the order of the rows. -/
def Table.values (t : Table) (c : Cn) : List Val := t.rows.map (fun r => valAt t.cols r c)

/-- The constraints of one column. -/
def colOk (col : Col) (vs : List Val) : Prop :=
  (col.notNull = true → .null ∉ vs) ∧ (col.uniq = true → (vs.filter (· != .null)).Nodup)

instance (col : Col) (vs : List Val) : Decidable (colOk col vs) := by
  unfold colOk; infer_instance

structure File where
  version : Int := 0
  tables : T → Option Table := fun _ => none
  /-- index idx_subscr_imsi exists (sql/hlr.sql 90); it belongs to table subscriber -/
  idx : Bool := false

/-- Replace a table. -/
def setTab (ts : T → Option Table) (t : T) (x : Option Table) : T → Option Table :=
  fun t' => if t' = t then x else ts t'

/-- SQL statements used in db.c 263-554, sql/hlr.sql. -/
inductive Stmt where
  | create (temp : Bool) (t : T) (cols : List Col)
  | addCol (t : T) (c : Cn)
  | copy (dst src : T) (sel : List Cn)
  | drop (t : T)
  | rename (t t' : T)
  | createIdx
  | pragma (v : Int)
  | begin
  | commit
deriving DecidableEq, Repr

/-- A connection (`sqlite3 *`): the durable file, the file as changed by the open
transaction if any, and the temporary tables. -/
structure Conn where
  durable : File
  work : Option File := none
  temp : T → Option Table := fun _ => none

def Conn.cur (c : Conn) : File := c.work.getD c.durable

/-- Put back the file: into the transaction, or (auto-commit) into the file itself. -/
def Conn.put (c : Conn) (f : File) : Conn :=
  match c.work with
  | some _ => { c with work := some f }
  | none => { c with durable := f }

/-- Name resolution: temporary tables hide others. -/
def Conn.table (c : Conn) (t : T) : Option Table := (c.temp t).orElse (fun _ => c.cur.tables t)

/-- Replace or drop the table the name resolves to. -/
def Conn.setTable (c : Conn) (t : T) (x : Option Table) : Conn :=
  if (c.temp t).isSome then { c with temp := setTab c.temp t x }
  else c.put { c.cur with tables := setTab c.cur.tables t x }

/-- Effect of a statement, `none` for an error (SQLite semantics). -/
def step (c : Conn) : Stmt → Option Conn
  | .create true t cols =>
    if (c.temp t).isSome then none else some { c with temp := setTab c.temp t (some { cols := cols }) }
  | .create false t cols =>
    if (c.cur.tables t).isSome then none
    else some (c.put { c.cur with tables := setTab c.cur.tables t (some { cols := cols }) })
  | .addCol t n =>
    match c.table t with
    | none => none
    | some x =>
      if x.cols.any (·.name == n) then none
      else some (c.setTable t (some { cols := x.cols ++ [{ name := n }]
                                      rows := x.rows.map (· ++ [.null]) }))
  | .copy dst src sel =>
    match c.table dst, c.table src with
    | some d, some s =>
      if sel.all (fun n => s.cols.any (·.name == n)) && sel.length == d.cols.length then
        let new : Table :=
          { d with rows := d.rows ++ s.rows.map (fun r => sel.map (valAt s.cols r)) }
        if ∀ col ∈ d.cols, colOk col (new.values col.name) then some (c.setTable dst (some new))
        else none
      else none
    | _, _ => none
  | .drop t =>
    match c.table t with
    | none => none
    | some _ =>
      if (c.temp t).isSome then some (c.setTable t none)
      else
        let c' := c.setTable t none
        some (if t = .subscriber then c'.put { c'.cur with idx := false } else c')
  | .rename t t' =>
    match c.cur.tables t, c.cur.tables t' with
    | some x, none =>
      some (c.put { c.cur with tables := setTab (setTab c.cur.tables t none) t' (some x) })
    | _, _ => none
  | .createIdx =>
    match c.cur.tables .subscriber with
    | none => none
    | some x =>
      if c.cur.idx then none
      else if colOk { name := .imsi, uniq := true } (x.values .imsi) then
        some (c.put { c.cur with idx := true })
      else none
  | .pragma v => some (c.put { c.cur with version := v })
  | .begin => match c.work with
    | some _ => none
    | none => some { c with work := some c.durable }
  | .commit => match c.work with
    | none => none
    | some f => some { c with durable := f, work := none }

/-- How a sequence of statements ends. -/
inductive Res where
  | done (c : Conn) (s : Script)
  | err (c : Conn) (s : Script)
  | died (c : Conn)

/-- db_run_statements (db.c 238-261). -/
def run : List Stmt → Conn → Script → Res
  | [], c, s => .done c s
  | _ :: _, c, .crash :: _ => .died c
  | _ :: _, c, .ioerr :: s => .err c s
  | st :: l, c, .ok :: s =>
    match step c st with
    | none => .err c s
    | some c' => run l c' s
  | st :: l, c, [] =>
    match step c st with
    | none => .err c []
    | some c' => run l c' []

/-! ## The schema -/

def key (n : Cn) : Col := { name := n, uniq := true, notNull := true }
def nn (n : Cn) : Col := { name := n, notNull := true }
def pl (n : Cn) : Col := { name := n }

/-- SUBSCR_V3_CREATE (db.c 347-395), the same up to last_lu_seen in sql/hlr.sql. -/
def subscrV3 : List Col :=
  [key .id, key .imsi, { name := .msisdn, uniq := true }, pl .imeisv, pl .imei, pl .vlrNumber,
   pl .mscNumber, pl .sgsnNumber, pl .sgsnAddress, pl .ggsnNumber, pl .gmlcNumber, pl .smscNumber,
   pl .periodicLuTmr, pl .periodicRauTauTmr, nn .namCs, nn .namPs, pl .lmsi, nn .msPurgedCs,
   nn .msPurgedPs, pl .lastLuSeen]

/-- SUBSCR_V2_COLUMN_NAMES (db.c 397-417). -/
def selV2 : List Cn :=
  [.id, .imsi, .msisdn, .imeisv, .imei, .vlrNumber, .hlrNumber, .sgsnNumber, .sgsnAddress,
   .ggsnNumber, .gmlcNumber, .smscNumber, .periodicLuTmr, .periodicRauTauTmr, .namCs, .namPs,
   .lmsi, .msPurgedCs, .msPurgedPs, .lastLuSeen]

/-- SUBSCR_V3_COLUMN_NAMES (db.c 419-439). -/
def selV3 : List Cn :=
  [.id, .imsi, .msisdn, .imeisv, .imei, .vlrNumber, .mscNumber, .sgsnNumber, .sgsnAddress,
   .ggsnNumber, .gmlcNumber, .smscNumber, .periodicLuTmr, .periodicRauTauTmr, .namCs, .namPs,
   .lmsi, .msPurgedCs, .msPurgedPs, .lastLuSeen]

/-- sql/hlr.sql 1-52. -/
def subscrV7 : List Col :=
  subscrV3 ++ [pl .lastLuSeenPs, pl .vlrViaProxy, pl .sgsnViaProxy]

/-- sql/hlr.sql 54-57 -/
def apnCols : List Col := [pl .subscriberId, nn .apn]
/-- sql/hlr.sql 59-63 -/
def multiMsisdnCols : List Col := [pl .subscriberId, nn .msisdn]
/-- sql/hlr.sql 65-69 -/
def auc2gCols : List Col := [key .subscriberId, nn .algoId2g, nn .ki]
/-- CREATE_AUC_3G_V7 (db.c 522-532), sql/hlr.sql 71-80 -/
def auc3gCols : List Col :=
  [key .subscriberId, nn .algoId3g, nn .k, pl .op, pl .opc, nn .sqn, nn .indBitlen]
/-- db.c 497-503, sql/hlr.sql 82-88 -/
def indCols : List Col := [key .ind, { name := .vlr, uniq := true, notNull := true }]

/-- stmt_bootstrap_sql, generated from sql/hlr.sql. -/
def bootstrap : List Stmt :=
  [.create false .subscriber subscrV7, .create false .subscriberApn apnCols,
   .create false .subscriberMultiMsisdn multiMsisdnCols, .create false .auc2g auc2gCols,
   .create false .auc3g auc3gCols, .create false .ind indCols, .createIdx, .pragma 7]

/-- db_upgrade_path (db.c 557-565) with db_upgrade_v1 … db_upgrade_v7 (db.c 307-554):
the statements run at version `v`. -/
def upgradePath : Nat → List Stmt
  | 0 => [.addCol .subscriber .lastLuSeen, .pragma 1]
  | 1 => [.addCol .subscriber .imei, .pragma 2]
  | 2 => [.begin, .create true .subscriberBackup subscrV3,
          .copy .subscriberBackup .subscriber selV2, .drop .subscriber,
          .create false .subscriber subscrV3, .copy .subscriber .subscriberBackup selV3,
          .drop .subscriberBackup, .commit, .pragma 3]
  | 3 => [.addCol .subscriber .lastLuSeenPs, .pragma 4]
  | 4 => [.addCol .subscriber .vlrViaProxy, .addCol .subscriber .sgsnViaProxy, .pragma 5]
  | 5 => [.create false .ind indCols, .pragma 6]
  | 6 => [.begin, .rename .auc3g .oldAuc3g, .create false .auc3g auc3gCols,
          .copy .auc3g .oldAuc3g [.subscriberId, .algoId3g, .k, .op, .opc, .sqn, .indBitlen],
          .drop .oldAuc3g, .pragma 7, .commit]
  | _ => []

/-- The upgrade loop of db_open (db.c 677-688) with `n` steps to go: the C variable
`version` is `7 - n`. -/
def upgradeLoop : Nat → Conn → Script → Res
  | 0, c, s => .done c s
  | n + 1, c, s =>
    match run (upgradePath (6 - n)) c s with
    | .done c' s' => upgradeLoop n c' s'
    | r => r

/-- The columns mentioned by the prepared statements (stmt_sql, db.c 33-99). -/
def needed : List (T × Cn) :=
  ([.id, .imsi, .msisdn, .imei, .vlrNumber, .sgsnNumber, .sgsnAddress, .periodicLuTmr,
    .periodicRauTauTmr, .namCs, .namPs, .lmsi, .msPurgedCs, .msPurgedPs, .lastLuSeen,
    .lastLuSeenPs, .vlrViaProxy, .sgsnViaProxy].map (fun c => (T.subscriber, c)))
  ++ ([.subscriberId, .algoId2g, .ki].map (fun c => (T.auc2g, c)))
  ++ ([.subscriberId, .algoId3g, .k, .op, .opc, .sqn, .indBitlen].map (fun c => (T.auc3g, c)))
  ++ [(.ind, .ind), (.ind, .vlr)]

/-- All prepared statements can be prepared (db.c 713-721). -/
def prepareOk (f : File) : Bool :=
  needed.all (fun p => match f.tables p.1 with
    | some t => t.cols.any (·.name == p.2)
    | none => false)

inductive OpenRes where
  | opened | failed | died
deriving DecidableEq, Repr

/-- Fate of the next statement. -/
def fate (s : Script) : Fault × Script :=
  match s with
  | [] => (.ok, [])
  | f :: s => (f, s)

/-- db.c 690-727: the version check (on the C variable `version`) and the
preparation of the statements, whose I/O errors are lumped together.  Closing the
connection discards an open transaction. -/
def openEnd (version : Int) (c : Conn) (s : Script) : OpenRes × File :=
  if version ≠ 7 then (.failed, c.durable)
  else match (fate s).1 with
    | .crash => (.died, c.durable)
    | .ioerr => (.failed, c.durable)
    | .ok => if prepareOk c.cur then (.opened, c.durable) else (.failed, c.durable)

/-- db.c 677-727 from a version `v ≤ 7` on. -/
def openUpgrade (allow : Bool) (v : Nat) (c : Conn) (s : Script) : OpenRes × File :=
  if allow then
    match upgradeLoop (7 - v) c s with
    | .done c' s' => openEnd 7 c' s'
    | .err c' _ => (.failed, c'.durable)
    | .died c' => (.died, c'.durable)
  else openEnd v c s

/-- db_open (db.c 591-728) on a file that SQLite can open; result and file
afterwards.  db_table_exists (db.c 274-294) says "no" if its query fails. -/
def dbOpen (allow : Bool) (f : File) (s : Script) : OpenRes × File :=
  match (fate s).1 with
  | .crash => (.died, f)
  | .ioerr => (.failed, f)
  | .ok =>
    let s := (fate s).2
    if f.version < 0 then (.failed, f)
    else if f.version = 0 then
      match (fate s).1 with
      | .crash => (.died, f)
      | fa =>
        if fa = .ok ∧ (f.tables .subscriber).isSome then
          openUpgrade allow 0 { durable := f } (fate s).2
        else
          match run bootstrap { durable := f } (fate s).2 with
          | .done c s' => openUpgrade allow 7 c s'
          | .err c _ => (.failed, c.durable)
          | .died c => (.died, c.durable)
    else if f.version ≤ 7 then openUpgrade allow f.version.toNat { durable := f } s
    else openEnd f.version { durable := f } s

end Verif.DbOpen
