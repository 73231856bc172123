import Verif.Db.Model
/-!
# The script that fills a database with subscribers: `src/populate_hlr_db.pl`

The script inserts subscribers and their keys in one transaction.  Errors are reported on stderr and otherwise ignored
(DBI's default: PrintError without RaiseError).

Simplified: nobody else writes to the database meanwhile, so that the commit at the end is the only moment at which the
file changes; the machine does not lose power (`PRAGMA synchronous = OFF`, line 65, is not modelled); what is printed is not modelled.
-/
namespace Verif.Populate
open Verif Verif.Db

/-- What becomes of a statement: executed, failed without effect, failed with all changes of the transaction undone (as SQLite
may do for some errors), or the script was killed. -/
inductive Fate where
  | ok | fail | rollback | crash
deriving DecidableEq, Repr

/-- The connection: the database as seen in the transaction, and `sqlite_last_insert_rowid()`, the id of the last row that was
inserted, in whatever table, and 0 if there was none (populate_hlr_db.pl 5, 48). -/
structure St where
  db : Db
  last : Int := 0
deriving DecidableEq, Repr

/-- `%010u` (populate_hlr_db.pl 68).  Simplified: the number has at most `w` digits. -/
def pad : Nat → Nat → Bytes
  | 0, _ => []
  | w + 1, i => pad w (i / 10) ++ [(48 + i % 10).toUInt8]

/-- `$imsi` (populate_hlr_db.pl 62, 68). -/
def imsiOf (i : Nat) : Bytes := [57, 48, 49, 55, 57] ++ pad 10 i

/-- `$msisdn` (populate_hlr_db.pl 14-17): `substr($imsi, 5)` after "49". -/
def msisdnOf (imsi : Bytes) : Bytes := [52, 57] ++ imsi.drop 5

/-- `$ki` and `$k` (populate_hlr_db.pl 26, 35). -/
def key : Bytes :=
  [48, 48, 48, 49, 48, 50, 48, 51, 48, 52, 48, 53, 48, 54, 48, 55, 48, 56, 48, 57, 48, 97, 48, 98, 48, 99, 48, 100, 48, 101, 48, 102]

/-- `$op` (populate_hlr_db.pl 36). -/
def op : Bytes :=
  [48, 48, 49, 48, 50, 48, 51, 48, 52, 48, 53, 48, 54, 48, 55, 48, 56, 48, 57, 48, 97, 48, 98, 48, 99, 48, 100, 48, 101, 48, 102, 48]

example : key = b "000102030405060708090a0b0c0d0e0f" ∧ op = b "00102030405060708090a0b0c0d0e0f0" := by decide +kernel
example : imsiOf 1234 = b "901790000001234" ∧ msisdnOf (imsiOf 1234) = b "490000001234" := by decide +kernel

/-- `INSERT INTO subscriber (imsi, msisdn)` (populate_hlr_db.pl 7, 19): the other columns have their defaults; both are UNIQUE
(hlr.sql 5, 7).  `none` if it fails, else the id of the new row. -/
def insBase (imsi msisdn : Bytes) (d : Db) : Option (Int × Db) :=
  if d.subs.any (fun r => r.imsi == imsi || r.msisdn == some msisdn) then none
  else
    let id := newId (d.subs.map (·.id))
    some (id, { d with subs := d.subs ++ [{ id := id, imsi := imsi, msisdn := some msisdn }] })

/-- `INSERT INTO auc_3g` (populate_hlr_db.pl 9, 38): algorithm 5 is Milenage; `opc` is NULL and `ind_bitlen` 5 by default (hlr.sql
75-79). -/
def insAuc3 (id : Int) (d : Db) : Option (Int × Db) :=
  match sqlInsAuc3 { id := id, algo := .milenage, k := key, op := some op, opc := none, sqn := 0, indBitlen := 5 } d with
  | (.done _, d) => some (id, d)
  | _ => none

/-- `INSERT INTO auc_2g` (populate_hlr_db.pl 10, 28): algorithm 1 is COMP128v1. -/
def insAuc2 (id : Int) (d : Db) : Option (Int × Db) :=
  match sqlInsAuc2 { id := id, algo := .comp128v1, ki := key } d with
  | (.done _, d) => some (id, d)
  | _ => none

/-- `$sth->execute(…)`: `none` if the script is killed; `orig` is the database at the beginning of the transaction. -/
def execute (orig : Db) (ins : Db → Option (Int × Db)) (f : Fate) (s : St) : Option St :=
  match f with
  | .crash => none
  | .rollback => some { s with db := orig }
  | .fail => some s
  | .ok => match ins s.db with
    | none => some s
    | some (id, d) => some { db := d, last := id }

/-- create_subscr (populate_hlr_db.pl 41-58), called with both flags set. -/
def createSubscr (orig : Db) (fate : Nat → Fate) (imsi : Bytes) (s : St) : Option St :=
  (execute orig (insBase imsi (msisdnOf imsi)) (fate 0) s).bind fun s =>
    let id := s.last
    (execute orig (insAuc3 id) (fate 1) s).bind fun s => execute orig (insAuc2 id) (fate 2) s

/-- The loop (populate_hlr_db.pl 67-73) for the first `n` subscribers; `fate i j` is what becomes of the `j`-th statement for the
`i`-th. -/
def loop (orig : Db) (fate : Nat → Nat → Fate) : Nat → Option St
  | 0 => some { db := orig }
  | n + 1 => (loop orig fate n).bind (createSubscr orig (fate n) (imsiOf n))

/-- The script, for `n` subscribers; `commit` is what becomes of the commit (populate_hlr_db.pl 64, 75).  The result is the file. -/
def populate (n : Nat) (fate : Nat → Nat → Fate) (commit : Fate) (d : Db) : Db :=
  match loop d fate n with
  | none => d
  | some s => if commit = .ok then s.db else d

/-- The script as it is (populate_hlr_db.pl 67). -/
def script : (Nat → Nat → Fate) → Fate → Db → Db := populate 1000000

end Verif.Populate
