import Verif.Sql2c.Read
/-!
# The upgrade statements of `src/db.c` are those that `DbOpen` runs

The strings of db_upgrade_v1 … db_upgrade_v7, copied with their macros expanded, and a reader for the further kinds of statements that occur in them.
-/
namespace Verif.Sql2c.Up
open Verif Verif.DbOpen Verif.Sql2c

/-- TEMPORARY -/
def kTemp : Bytes := [84, 69, 77, 80, 79, 82, 65, 82, 89]
/-- BEGIN -/
def kBegin : Bytes := [66, 69, 71, 73, 78]
/-- TRANSACTION -/
def kTrans : Bytes := [84, 82, 65, 78, 83, 65, 67, 84, 73, 79, 78]
/-- COMMIT -/
def kCommit : Bytes := [67, 79, 77, 77, 73, 84]
/-- DROP -/
def kDrop : Bytes := [68, 82, 79, 80]
/-- ALTER -/
def kAlter : Bytes := [65, 76, 84, 69, 82]
/-- RENAME -/
def kRename : Bytes := [82, 69, 78, 65, 77, 69]
/-- TO -/
def kTo : Bytes := [84, 79]
/-- ADD -/
def kAdd : Bytes := [65, 68, 68]
/-- COLUMN -/
def kColumn : Bytes := [67, 79, 76, 85, 77, 78]
/-- INSERT -/
def kInsert : Bytes := [73, 78, 83, 69, 82, 84]
/-- INTO -/
def kInto : Bytes := [73, 78, 84, 79]
/-- SELECT -/
def kSelect : Bytes := [83, 69, 76, 69, 67, 84]
/-- FROM -/
def kFrom : Bytes := [70, 82, 79, 77]

/-- The names of the tables (sql/hlr.sql; db.c 440-450, 533-546). -/
def tabs : List (Bytes × T) := tableNames ++ [
  -- subscriber_backup
  ([115, 117, 98, 115, 99, 114, 105, 98, 101, 114, 95, 98, 97, 99, 107, 117, 112], .subscriberBackup),
  -- old_auc_3g
  ([111, 108, 100, 95, 97, 117, 99, 95, 51, 103], .oldAuc3g)]

/-- The columns of a SELECT, and the table after FROM. -/
def select : List Bytes → Option (List Cn × T)
  | [n, k, t] => if k = kFrom then (columnNames.lookup n).bind fun cn => (tabs.lookup t).map fun t => ([cn], t) else none
  | n :: k :: r => if k = [44] then (columnNames.lookup n).bind fun cn => (select r).map fun x => (cn :: x.1, x.2) else none
  | _ => none

/-- A statement of db.c 307-554, from its tokens; other than those of `Sql2c.readToks`. -/
def readToks : List Bytes → Option Stmt
  | [k] => if k = kCommit then some .commit else none
  | [k, k'] => if k = kBegin ∧ k' = kTrans then some .begin else none
  | [k, k', t] => if k = kDrop ∧ k' = kTable then (tabs.lookup t).map .drop else none
  | k :: k' :: t :: k3 :: r =>
    if k = kAlter ∧ k' = kTable ∧ k3 = kRename then
      match r with
      | [k4, t'] => if k4 = kTo then (tabs.lookup t).bind fun t => (tabs.lookup t').map fun t' => .rename t t' else none
      | _ => none
    else if k = kAlter ∧ k' = kTable ∧ k3 = kAdd then
      match r with
      | k4 :: c :: r =>
        if k4 = kColumn then (tabs.lookup t).bind fun t => (columnNames.lookup c).bind fun cn =>
          if part [] (c :: r) = some [{ name := cn }] then some (.addCol t cn) else none
        else none
      | _ => none
    else if k = kCreate ∧ k' = kTemp ∧ t = kTable then
      match r with
      | [40] :: r => (tabs.lookup k3).bind fun t => (parts 0 [] r).bind fun ps => (columns [] ps).map fun cols => .create true t cols
      | _ => none
    else if k = kInsert ∧ k' = kInto ∧ k3 = kSelect then
      (tabs.lookup t).bind fun t => (select r).map fun x => .copy t x.2 x.1
    else none
  | _ => none

/-- A semicolon at the end is no part of the statement. -/
def noSemi (ts : List Bytes) : List Bytes := if ts.getLast? = some [59] then ts.dropLast else ts

/-- A statement, from its text. -/
def read (s : Bytes) : Option Stmt :=
  let ts := noSemi (toks false [] s)
  match readToks ts with
  | some x => some x
  | none => Sql2c.readToks ts

def readAll : List Bytes → Option (List Stmt)
  | [] => some []
  | s :: ss => (read s).bind fun x => (readAll ss).map (x :: ·)

theorem read_of {s : Bytes} {ts : List Bytes} {x : Stmt} (h : toks false [] s = ts)
    (h' : (match readToks (noSemi ts) with | some x => some x | none => Sql2c.readToks (noSemi ts)) = some x) : read s = some x := by
  unfold read
  rw [h]
  exact h'

theorem readAll_cons {s : Bytes} {ss : List Bytes} {x : Stmt} {xs : List Stmt} (h : read s = some x) (h' : readAll ss = some xs) :
    readAll (s :: ss) = some (x :: xs) := by
  simp only [readAll, h, h', Option.bind_some, Option.map_some]

/-! ## The strings (codes of their characters) and their tokens -/

/-- db.c 311-314, statement 1 of db_upgrade_v1. -/
def s1_1 : List Nat := [65, 76, 84, 69, 82, 32, 84, 65, 66, 76, 69, 32, 115, 117, 98, 115, 99, 114, 105, 98, 101, 114, 32, 65, 68, 68, 32, 67, 79, 76, 85, 77, 78, 32, 108, 97, 115, 116, 95, 108, 117, 95, 115, 101, 101, 110, 32, 84, 73, 77, 69, 83, 84, 65, 77, 80, 32, 100, 101, 102, 97, 117, 108, 116, 32, 78, 85, 76, 76]
/-- ALTER TABLE subscriber ADD COLUMN last_lu_seen TIMESTAMP default NULL -/
def t1_1 : List (List Nat) := [[65, 76, 84, 69, 82], [84, 65, 66, 76, 69], [115, 117, 98, 115, 99, 114, 105, 98, 101, 114], [65, 68, 68], [67, 79, 76, 85, 77, 78], [108, 97, 115, 116, 95, 108, 117, 95, 115, 101, 101, 110], [84, 73, 77, 69, 83, 84, 65, 77, 80], [100, 101, 102, 97, 117, 108, 116], [78, 85, 76, 76]]
/-- db.c 311-314, statement 2 of db_upgrade_v1. -/
def s1_2 : List Nat := [80, 82, 65, 71, 77, 65, 32, 117, 115, 101, 114, 95, 118, 101, 114, 115, 105, 111, 110, 32, 61, 32, 49]
/-- PRAGMA user_version = 1 -/
def t1_2 : List (List Nat) := [[80, 82, 65, 71, 77, 65], [117, 115, 101, 114, 95, 118, 101, 114, 115, 105, 111, 110], [61], [49]]
/-- db.c 327-330, statement 1 of db_upgrade_v2. -/
def s2_1 : List Nat := [65, 76, 84, 69, 82, 32, 84, 65, 66, 76, 69, 32, 115, 117, 98, 115, 99, 114, 105, 98, 101, 114, 32, 65, 68, 68, 32, 67, 79, 76, 85, 77, 78, 32, 105, 109, 101, 105, 32, 86, 65, 82, 67, 72, 65, 82, 40, 49, 52, 41]
/-- ALTER TABLE subscriber ADD COLUMN imei VARCHAR ( 14 ) -/
def t2_1 : List (List Nat) := [[65, 76, 84, 69, 82], [84, 65, 66, 76, 69], [115, 117, 98, 115, 99, 114, 105, 98, 101, 114], [65, 68, 68], [67, 79, 76, 85, 77, 78], [105, 109, 101, 105], [86, 65, 82, 67, 72, 65, 82], [40], [49, 52], [41]]
/-- db.c 327-330, statement 2 of db_upgrade_v2. -/
def s2_2 : List Nat := [80, 82, 65, 71, 77, 65, 32, 117, 115, 101, 114, 95, 118, 101, 114, 115, 105, 111, 110, 32, 61, 32, 50]
/-- PRAGMA user_version = 2 -/
def t2_2 : List (List Nat) := [[80, 82, 65, 71, 77, 65], [117, 115, 101, 114, 95, 118, 101, 114, 115, 105, 111, 110], [61], [50]]
/-- db.c 346-450, statement 1 of db_upgrade_v3. -/
def s3_1 : List Nat := [66, 69, 71, 73, 78, 32, 84, 82, 65, 78, 83, 65, 67, 84, 73, 79, 78]
/-- BEGIN TRANSACTION -/
def t3_1 : List (List Nat) := [[66, 69, 71, 73, 78], [84, 82, 65, 78, 83, 65, 67, 84, 73, 79, 78]]
/-- db.c 346-450, statement 2 of db_upgrade_v3. -/
def s3_2 : List Nat := [67, 82, 69, 65, 84, 69, 32, 84, 69, 77, 80, 79, 82, 65, 82, 89, 32, 84, 65, 66, 76, 69, 32, 115, 117, 98, 115, 99, 114, 105, 98, 101, 114, 95, 98, 97, 99, 107, 117, 112, 40, 10, 45, 45, 32, 79, 115, 109, 111, 72, 76, 82, 39, 115, 32, 68, 66, 32, 115, 99, 104, 101, 109, 101, 32, 105, 115, 32, 109, 111, 100, 101, 108, 108, 101, 100, 32, 114, 111, 117, 103, 104, 108, 121, 32, 97, 102, 116, 101, 114, 32, 84, 83, 32, 50, 51, 46, 48, 48, 56, 32, 118, 101, 114, 115, 105, 111, 110, 32, 49, 51, 46, 51, 46, 48, 10, 9, 105, 100, 9, 9, 73, 78, 84, 69, 71, 69, 82, 32, 80, 82, 73, 77, 65, 82, 89, 32, 75, 69, 89, 44, 10, 9, 45, 45, 32, 67, 104, 97, 112, 116, 101, 114, 32, 50, 46, 49, 46, 49, 46, 49, 10, 9, 105, 109, 115, 105, 9, 9, 86, 65, 82, 67, 72, 65, 82, 40, 49, 53, 41, 32, 85, 78, 73, 81, 85, 69, 32, 78, 79, 84, 32, 78, 85, 76, 76, 44, 10, 9, 45, 45, 32, 67, 104, 97, 112, 116, 101, 114, 32, 50, 46, 49, 46, 50, 10, 9, 109, 115, 105, 115, 100, 110, 9, 9, 86, 65, 82, 67, 72, 65, 82, 40, 49, 53, 41, 32, 85, 78, 73, 81, 85, 69, 44, 10, 9, 45, 45, 32, 67, 104, 97, 112, 116, 101, 114, 32, 50, 46, 50, 46, 51, 58, 32, 77, 111, 115, 116, 32, 114, 101, 99, 101, 110, 116, 32, 47, 32, 99, 117, 114, 114, 101, 110, 116, 32, 73, 77, 69, 73, 83, 86, 10, 9, 105, 109, 101, 105, 115, 118, 9, 9, 86, 65, 82, 67, 72, 65, 82, 44, 10, 9, 45, 45, 32, 67, 104, 97, 112, 116, 101, 114, 32, 50, 46, 49, 46, 57, 58, 32, 77, 111, 115, 116, 32, 114, 101, 99, 101, 110, 116, 32, 47, 32, 99, 117, 114, 114, 101, 110, 116, 32, 73, 77, 69, 73, 10, 9, 105, 109, 101, 105, 9, 9, 86, 65, 82, 67, 72, 65, 82, 40, 49, 52, 41, 44, 10, 9, 45, 45, 32, 67, 104, 97, 112, 116, 101, 114, 32, 50, 46, 52, 46, 53, 10, 9, 118, 108, 114, 95, 110, 117, 109, 98, 101, 114, 9, 86, 65, 82, 67, 72, 65, 82, 40, 49, 53, 41, 44, 10, 9, 45, 45, 32, 67, 104, 97, 112, 116, 101, 114, 32, 50, 46, 52, 46, 54, 10, 9, 109, 115, 99, 95, 110, 117, 109, 98, 101, 114, 9, 86, 65, 82, 67, 72, 65, 82, 40, 49, 53, 41, 44, 10, 9, 45, 45, 32, 67, 104, 97, 112, 116, 101, 114, 32, 50, 46, 52, 46, 56, 46, 49, 10, 9, 115, 103, 115, 110, 95, 110, 117, 109, 98, 101, 114, 9, 86, 65, 82, 67, 72, 65, 82, 40, 49, 53, 41, 44, 10, 9, 45, 45, 32, 67, 104, 97, 112, 116, 101, 114, 32, 50, 46, 49, 51, 46, 49, 48, 10, 9, 115, 103, 115, 110, 95, 97, 100, 100, 114, 101, 115, 115, 9, 86, 65, 82, 67, 72, 65, 82, 44, 10, 9, 45, 45, 32, 67, 104, 97, 112, 116, 101, 114, 32, 50, 46, 52, 46, 56, 46, 50, 10, 9, 103, 103, 115, 110, 95, 110, 117, 109, 98, 101, 114, 9, 86, 65, 82, 67, 72, 65, 82, 40, 49, 53, 41, 44, 10, 9, 45, 45, 32, 67, 104, 97, 112, 116, 101, 114, 32, 50, 46, 52, 46, 57, 46, 50, 10, 9, 103, 109, 108, 99, 95, 110, 117, 109, 98, 101, 114, 9, 86, 65, 82, 67, 72, 65, 82, 40, 49, 53, 41, 44, 10, 9, 45, 45, 32, 67, 104, 97, 112, 116, 101, 114, 32, 50, 46, 52, 46, 50, 51, 10, 9, 115, 109, 115, 99, 95, 110, 117, 109, 98, 101, 114, 9, 86, 65, 82, 67, 72, 65, 82, 40, 49, 53, 41, 44, 10, 9, 45, 45, 32, 67, 104, 97, 112, 116, 101, 114, 32, 50, 46, 52, 46, 50, 52, 10, 9, 112, 101, 114, 105, 111, 100, 105, 99, 95, 108, 117, 95, 116, 109, 114, 9, 73, 78, 84, 69, 71, 69, 82, 44, 10, 9, 45, 45, 32, 67, 104, 97, 112, 116, 101, 114, 32, 50, 46, 49, 51, 46, 49, 49, 53, 10, 9, 112, 101, 114, 105, 111, 100, 105, 99, 95, 114, 97, 117, 95, 116, 97, 117, 95, 116, 109, 114, 32, 73, 78, 84, 69, 71, 69, 82, 44, 10, 9, 45, 45, 32, 67, 104, 97, 112, 116, 101, 114, 32, 50, 46, 49, 46, 49, 46, 50, 58, 32, 110, 101, 116, 119, 111, 114, 107, 32, 97, 99, 99, 101, 115, 115, 32, 109, 111, 100, 101, 10, 9, 110, 97, 109, 95, 99, 115, 9, 9, 66, 79, 79, 76, 69, 65, 78, 32, 78, 79, 84, 32, 78, 85, 76, 76, 32, 68, 69, 70, 65, 85, 76, 84, 32, 49, 44, 10, 9, 110, 97, 109, 95, 112, 115, 9, 9, 66, 79, 79, 76, 69, 65, 78, 32, 78, 79, 84, 32, 78, 85, 76, 76, 32, 68, 69, 70, 65, 85, 76, 84, 32, 49, 44, 10, 9, 45, 45, 32, 67, 104, 97, 112, 116, 101, 114, 32, 50, 46, 49, 46, 56, 10, 9, 108, 109, 115, 105, 9, 9, 73, 78, 84, 69, 71, 69, 82, 44, 10, 9, 45, 45, 32, 84, 104, 101, 32, 98, 101, 108, 111, 119, 32, 112, 117, 114, 103, 101, 100, 32, 102, 108, 97, 103, 115, 32, 109, 105, 103, 104, 116, 32, 110, 111, 116, 32, 101, 118, 101, 110, 32, 98, 101, 32, 115, 116, 111, 114, 101, 100, 32, 110, 111, 110, 45, 118, 111, 108, 97, 116, 105, 108, 101, 44, 10, 9, 45, 45, 32, 114, 101, 102, 101, 114, 32, 116, 111, 32, 84, 83, 32, 50, 51, 46, 48, 49, 50, 32, 67, 104, 97, 112, 116, 101, 114, 32, 51, 46, 54, 46, 49, 46, 52, 10, 9, 45, 45, 32, 67, 104, 97, 112, 116, 101, 114, 32, 50, 46, 55, 46, 53, 10, 9, 109, 115, 95, 112, 117, 114, 103, 101, 100, 95, 99, 115, 9, 66, 79, 79, 76, 69, 65, 78, 32, 78, 79, 84, 32, 78, 85, 76, 76, 32, 68, 69, 70, 65, 85, 76, 84, 32, 48, 44, 10, 9, 45, 45, 32, 67, 104, 97, 112, 116, 101, 114, 32, 50, 46, 55, 46, 54, 10, 9, 109, 115, 95, 112, 117, 114, 103, 101, 100, 95, 112, 115, 9, 66, 79, 79, 76, 69, 65, 78, 32, 78, 79, 84, 32, 78, 85, 76, 76, 32, 68, 69, 70, 65, 85, 76, 84, 32, 48, 44, 10, 9, 45, 45, 32, 84, 105, 109, 101, 115, 116, 97, 109, 112, 32, 111, 102, 32, 108, 97, 115, 116, 32, 108, 111, 99, 97, 116, 105, 111, 110, 32, 117, 112, 100, 97, 116, 101, 32, 115, 101, 101, 110, 32, 102, 114, 111, 109, 32, 115, 117, 98, 115, 99, 114, 105, 98, 101, 114, 10, 9, 45, 45, 32, 84, 104, 101, 32, 118, 97, 108, 117, 101, 32, 105, 115, 32, 97, 32, 115, 116, 114, 105, 110, 103, 32, 119, 104, 105, 99, 104, 32, 101, 110, 99, 111, 100, 101, 115, 32, 97, 32, 85, 84, 67, 32, 116, 105, 109, 101, 115, 116, 97, 109, 112, 32, 105, 110, 32, 103, 114, 97, 110, 117, 108, 97, 114, 105, 116, 121, 32, 111, 102, 32, 115, 101, 99, 111, 110, 100, 115, 46, 10, 9, 108, 97, 115, 116, 95, 108, 117, 95, 115, 101, 101, 110, 32, 84, 73, 77, 69, 83, 84, 65, 77, 80, 32, 100, 101, 102, 97, 117, 108, 116, 32, 78, 85, 76, 76, 10, 41, 10]
/-- CREATE TEMPORARY TABLE subscriber_backup ( id INTEGER PRIMARY KEY , imsi VARCHAR ( 15 ) UNIQUE NOT NULL , msisdn VARCHAR ( 15 ) UNIQUE , imeisv VARCHAR , imei VARCHAR ( 14 ) , vlr_number VARCHAR ( 15 ) , msc_number VARCHAR ( 15 ) , sgsn_number VARCHAR ( 15 ) , sgsn_address VARCHAR , ggsn_number VARCHAR ( 15 ) , gmlc_number VARCHAR ( 15 ) , smsc_number VARCHAR ( 15 ) , periodic_lu_tmr INTEGER , periodic_rau_tau_tmr INTEGER , nam_cs BOOLEAN NOT NULL DEFAULT 1 , nam_ps BOOLEAN NOT NULL DEFAULT 1 , lmsi INTEGER , ms_purged_cs BOOLEAN NOT NULL DEFAULT 0 , ms_purged_ps BOOLEAN NOT NULL DEFAULT 0 , last_lu_seen TIMESTAMP default NULL ) -/
def t3_2 : List (List Nat) := [[67, 82, 69, 65, 84, 69], [84, 69, 77, 80, 79, 82, 65, 82, 89], [84, 65, 66, 76, 69], [115, 117, 98, 115, 99, 114, 105, 98, 101, 114, 95, 98, 97, 99, 107, 117, 112], [40], [105, 100], [73, 78, 84, 69, 71, 69, 82], [80, 82, 73, 77, 65, 82, 89], [75, 69, 89], [44], [105, 109, 115, 105], [86, 65, 82, 67, 72, 65, 82], [40], [49, 53], [41], [85, 78, 73, 81, 85, 69], [78, 79, 84], [78, 85, 76, 76], [44], [109, 115, 105, 115, 100, 110], [86, 65, 82, 67, 72, 65, 82], [40], [49, 53], [41], [85, 78, 73, 81, 85, 69], [44], [105, 109, 101, 105, 115, 118], [86, 65, 82, 67, 72, 65, 82], [44], [105, 109, 101, 105], [86, 65, 82, 67, 72, 65, 82], [40], [49, 52], [41], [44], [118, 108, 114, 95, 110, 117, 109, 98, 101, 114], [86, 65, 82, 67, 72, 65, 82], [40], [49, 53], [41], [44], [109, 115, 99, 95, 110, 117, 109, 98, 101, 114], [86, 65, 82, 67, 72, 65, 82], [40], [49, 53], [41], [44], [115, 103, 115, 110, 95, 110, 117, 109, 98, 101, 114], [86, 65, 82, 67, 72, 65, 82], [40], [49, 53], [41], [44], [115, 103, 115, 110, 95, 97, 100, 100, 114, 101, 115, 115], [86, 65, 82, 67, 72, 65, 82], [44], [103, 103, 115, 110, 95, 110, 117, 109, 98, 101, 114], [86, 65, 82, 67, 72, 65, 82], [40], [49, 53], [41], [44], [103, 109, 108, 99, 95, 110, 117, 109, 98, 101, 114], [86, 65, 82, 67, 72, 65, 82], [40], [49, 53], [41], [44], [115, 109, 115, 99, 95, 110, 117, 109, 98, 101, 114], [86, 65, 82, 67, 72, 65, 82], [40], [49, 53], [41], [44], [112, 101, 114, 105, 111, 100, 105, 99, 95, 108, 117, 95, 116, 109, 114], [73, 78, 84, 69, 71, 69, 82], [44], [112, 101, 114, 105, 111, 100, 105, 99, 95, 114, 97, 117, 95, 116, 97, 117, 95, 116, 109, 114], [73, 78, 84, 69, 71, 69, 82], [44], [110, 97, 109, 95, 99, 115], [66, 79, 79, 76, 69, 65, 78], [78, 79, 84], [78, 85, 76, 76], [68, 69, 70, 65, 85, 76, 84], [49], [44], [110, 97, 109, 95, 112, 115], [66, 79, 79, 76, 69, 65, 78], [78, 79, 84], [78, 85, 76, 76], [68, 69, 70, 65, 85, 76, 84], [49], [44], [108, 109, 115, 105], [73, 78, 84, 69, 71, 69, 82], [44], [109, 115, 95, 112, 117, 114, 103, 101, 100, 95, 99, 115], [66, 79, 79, 76, 69, 65, 78], [78, 79, 84], [78, 85, 76, 76], [68, 69, 70, 65, 85, 76, 84], [48], [44], [109, 115, 95, 112, 117, 114, 103, 101, 100, 95, 112, 115], [66, 79, 79, 76, 69, 65, 78], [78, 79, 84], [78, 85, 76, 76], [68, 69, 70, 65, 85, 76, 84], [48], [44], [108, 97, 115, 116, 95, 108, 117, 95, 115, 101, 101, 110], [84, 73, 77, 69, 83, 84, 65, 77, 80], [100, 101, 102, 97, 117, 108, 116], [78, 85, 76, 76], [41]]
/-- db.c 346-450, statement 3 of db_upgrade_v3. -/
def s3_3 : List Nat := [73, 78, 83, 69, 82, 84, 32, 73, 78, 84, 79, 32, 115, 117, 98, 115, 99, 114, 105, 98, 101, 114, 95, 98, 97, 99, 107, 117, 112, 32, 83, 69, 76, 69, 67, 84, 32, 105, 100, 44, 105, 109, 115, 105, 44, 109, 115, 105, 115, 100, 110, 44, 105, 109, 101, 105, 115, 118, 44, 105, 109, 101, 105, 44, 118, 108, 114, 95, 110, 117, 109, 98, 101, 114, 44, 104, 108, 114, 95, 110, 117, 109, 98, 101, 114, 44, 115, 103, 115, 110, 95, 110, 117, 109, 98, 101, 114, 44, 115, 103, 115, 110, 95, 97, 100, 100, 114, 101, 115, 115, 44, 103, 103, 115, 110, 95, 110, 117, 109, 98, 101, 114, 44, 103, 109, 108, 99, 95, 110, 117, 109, 98, 101, 114, 44, 115, 109, 115, 99, 95, 110, 117, 109, 98, 101, 114, 44, 112, 101, 114, 105, 111, 100, 105, 99, 95, 108, 117, 95, 116, 109, 114, 44, 112, 101, 114, 105, 111, 100, 105, 99, 95, 114, 97, 117, 95, 116, 97, 117, 95, 116, 109, 114, 44, 110, 97, 109, 95, 99, 115, 44, 110, 97, 109, 95, 112, 115, 44, 108, 109, 115, 105, 44, 109, 115, 95, 112, 117, 114, 103, 101, 100, 95, 99, 115, 44, 109, 115, 95, 112, 117, 114, 103, 101, 100, 95, 112, 115, 44, 108, 97, 115, 116, 95, 108, 117, 95, 115, 101, 101, 110, 32, 70, 82, 79, 77, 32, 115, 117, 98, 115, 99, 114, 105, 98, 101, 114]
/-- INSERT INTO subscriber_backup SELECT id , imsi , msisdn , imeisv , imei , vlr_number , hlr_number , sgsn_number , sgsn_address , ggsn_number , gmlc_number , smsc_number , periodic_lu_tmr , periodic_rau_tau_tmr , nam_cs , nam_ps , lmsi , ms_purged_cs , ms_purged_ps , last_lu_seen FROM subscriber -/
def t3_3 : List (List Nat) := [[73, 78, 83, 69, 82, 84], [73, 78, 84, 79], [115, 117, 98, 115, 99, 114, 105, 98, 101, 114, 95, 98, 97, 99, 107, 117, 112], [83, 69, 76, 69, 67, 84], [105, 100], [44], [105, 109, 115, 105], [44], [109, 115, 105, 115, 100, 110], [44], [105, 109, 101, 105, 115, 118], [44], [105, 109, 101, 105], [44], [118, 108, 114, 95, 110, 117, 109, 98, 101, 114], [44], [104, 108, 114, 95, 110, 117, 109, 98, 101, 114], [44], [115, 103, 115, 110, 95, 110, 117, 109, 98, 101, 114], [44], [115, 103, 115, 110, 95, 97, 100, 100, 114, 101, 115, 115], [44], [103, 103, 115, 110, 95, 110, 117, 109, 98, 101, 114], [44], [103, 109, 108, 99, 95, 110, 117, 109, 98, 101, 114], [44], [115, 109, 115, 99, 95, 110, 117, 109, 98, 101, 114], [44], [112, 101, 114, 105, 111, 100, 105, 99, 95, 108, 117, 95, 116, 109, 114], [44], [112, 101, 114, 105, 111, 100, 105, 99, 95, 114, 97, 117, 95, 116, 97, 117, 95, 116, 109, 114], [44], [110, 97, 109, 95, 99, 115], [44], [110, 97, 109, 95, 112, 115], [44], [108, 109, 115, 105], [44], [109, 115, 95, 112, 117, 114, 103, 101, 100, 95, 99, 115], [44], [109, 115, 95, 112, 117, 114, 103, 101, 100, 95, 112, 115], [44], [108, 97, 115, 116, 95, 108, 117, 95, 115, 101, 101, 110], [70, 82, 79, 77], [115, 117, 98, 115, 99, 114, 105, 98, 101, 114]]
/-- db.c 346-450, statement 4 of db_upgrade_v3. -/
def s3_4 : List Nat := [68, 82, 79, 80, 32, 84, 65, 66, 76, 69, 32, 115, 117, 98, 115, 99, 114, 105, 98, 101, 114]
/-- DROP TABLE subscriber -/
def t3_4 : List (List Nat) := [[68, 82, 79, 80], [84, 65, 66, 76, 69], [115, 117, 98, 115, 99, 114, 105, 98, 101, 114]]
/-- db.c 346-450, statement 5 of db_upgrade_v3. -/
def s3_5 : List Nat := [67, 82, 69, 65, 84, 69, 32, 84, 65, 66, 76, 69, 32, 115, 117, 98, 115, 99, 114, 105, 98, 101, 114, 40, 10, 45, 45, 32, 79, 115, 109, 111, 72, 76, 82, 39, 115, 32, 68, 66, 32, 115, 99, 104, 101, 109, 101, 32, 105, 115, 32, 109, 111, 100, 101, 108, 108, 101, 100, 32, 114, 111, 117, 103, 104, 108, 121, 32, 97, 102, 116, 101, 114, 32, 84, 83, 32, 50, 51, 46, 48, 48, 56, 32, 118, 101, 114, 115, 105, 111, 110, 32, 49, 51, 46, 51, 46, 48, 10, 9, 105, 100, 9, 9, 73, 78, 84, 69, 71, 69, 82, 32, 80, 82, 73, 77, 65, 82, 89, 32, 75, 69, 89, 44, 10, 9, 45, 45, 32, 67, 104, 97, 112, 116, 101, 114, 32, 50, 46, 49, 46, 49, 46, 49, 10, 9, 105, 109, 115, 105, 9, 9, 86, 65, 82, 67, 72, 65, 82, 40, 49, 53, 41, 32, 85, 78, 73, 81, 85, 69, 32, 78, 79, 84, 32, 78, 85, 76, 76, 44, 10, 9, 45, 45, 32, 67, 104, 97, 112, 116, 101, 114, 32, 50, 46, 49, 46, 50, 10, 9, 109, 115, 105, 115, 100, 110, 9, 9, 86, 65, 82, 67, 72, 65, 82, 40, 49, 53, 41, 32, 85, 78, 73, 81, 85, 69, 44, 10, 9, 45, 45, 32, 67, 104, 97, 112, 116, 101, 114, 32, 50, 46, 50, 46, 51, 58, 32, 77, 111, 115, 116, 32, 114, 101, 99, 101, 110, 116, 32, 47, 32, 99, 117, 114, 114, 101, 110, 116, 32, 73, 77, 69, 73, 83, 86, 10, 9, 105, 109, 101, 105, 115, 118, 9, 9, 86, 65, 82, 67, 72, 65, 82, 44, 10, 9, 45, 45, 32, 67, 104, 97, 112, 116, 101, 114, 32, 50, 46, 49, 46, 57, 58, 32, 77, 111, 115, 116, 32, 114, 101, 99, 101, 110, 116, 32, 47, 32, 99, 117, 114, 114, 101, 110, 116, 32, 73, 77, 69, 73, 10, 9, 105, 109, 101, 105, 9, 9, 86, 65, 82, 67, 72, 65, 82, 40, 49, 52, 41, 44, 10, 9, 45, 45, 32, 67, 104, 97, 112, 116, 101, 114, 32, 50, 46, 52, 46, 53, 10, 9, 118, 108, 114, 95, 110, 117, 109, 98, 101, 114, 9, 86, 65, 82, 67, 72, 65, 82, 40, 49, 53, 41, 44, 10, 9, 45, 45, 32, 67, 104, 97, 112, 116, 101, 114, 32, 50, 46, 52, 46, 54, 10, 9, 109, 115, 99, 95, 110, 117, 109, 98, 101, 114, 9, 86, 65, 82, 67, 72, 65, 82, 40, 49, 53, 41, 44, 10, 9, 45, 45, 32, 67, 104, 97, 112, 116, 101, 114, 32, 50, 46, 52, 46, 56, 46, 49, 10, 9, 115, 103, 115, 110, 95, 110, 117, 109, 98, 101, 114, 9, 86, 65, 82, 67, 72, 65, 82, 40, 49, 53, 41, 44, 10, 9, 45, 45, 32, 67, 104, 97, 112, 116, 101, 114, 32, 50, 46, 49, 51, 46, 49, 48, 10, 9, 115, 103, 115, 110, 95, 97, 100, 100, 114, 101, 115, 115, 9, 86, 65, 82, 67, 72, 65, 82, 44, 10, 9, 45, 45, 32, 67, 104, 97, 112, 116, 101, 114, 32, 50, 46, 52, 46, 56, 46, 50, 10, 9, 103, 103, 115, 110, 95, 110, 117, 109, 98, 101, 114, 9, 86, 65, 82, 67, 72, 65, 82, 40, 49, 53, 41, 44, 10, 9, 45, 45, 32, 67, 104, 97, 112, 116, 101, 114, 32, 50, 46, 52, 46, 57, 46, 50, 10, 9, 103, 109, 108, 99, 95, 110, 117, 109, 98, 101, 114, 9, 86, 65, 82, 67, 72, 65, 82, 40, 49, 53, 41, 44, 10, 9, 45, 45, 32, 67, 104, 97, 112, 116, 101, 114, 32, 50, 46, 52, 46, 50, 51, 10, 9, 115, 109, 115, 99, 95, 110, 117, 109, 98, 101, 114, 9, 86, 65, 82, 67, 72, 65, 82, 40, 49, 53, 41, 44, 10, 9, 45, 45, 32, 67, 104, 97, 112, 116, 101, 114, 32, 50, 46, 52, 46, 50, 52, 10, 9, 112, 101, 114, 105, 111, 100, 105, 99, 95, 108, 117, 95, 116, 109, 114, 9, 73, 78, 84, 69, 71, 69, 82, 44, 10, 9, 45, 45, 32, 67, 104, 97, 112, 116, 101, 114, 32, 50, 46, 49, 51, 46, 49, 49, 53, 10, 9, 112, 101, 114, 105, 111, 100, 105, 99, 95, 114, 97, 117, 95, 116, 97, 117, 95, 116, 109, 114, 32, 73, 78, 84, 69, 71, 69, 82, 44, 10, 9, 45, 45, 32, 67, 104, 97, 112, 116, 101, 114, 32, 50, 46, 49, 46, 49, 46, 50, 58, 32, 110, 101, 116, 119, 111, 114, 107, 32, 97, 99, 99, 101, 115, 115, 32, 109, 111, 100, 101, 10, 9, 110, 97, 109, 95, 99, 115, 9, 9, 66, 79, 79, 76, 69, 65, 78, 32, 78, 79, 84, 32, 78, 85, 76, 76, 32, 68, 69, 70, 65, 85, 76, 84, 32, 49, 44, 10, 9, 110, 97, 109, 95, 112, 115, 9, 9, 66, 79, 79, 76, 69, 65, 78, 32, 78, 79, 84, 32, 78, 85, 76, 76, 32, 68, 69, 70, 65, 85, 76, 84, 32, 49, 44, 10, 9, 45, 45, 32, 67, 104, 97, 112, 116, 101, 114, 32, 50, 46, 49, 46, 56, 10, 9, 108, 109, 115, 105, 9, 9, 73, 78, 84, 69, 71, 69, 82, 44, 10, 9, 45, 45, 32, 84, 104, 101, 32, 98, 101, 108, 111, 119, 32, 112, 117, 114, 103, 101, 100, 32, 102, 108, 97, 103, 115, 32, 109, 105, 103, 104, 116, 32, 110, 111, 116, 32, 101, 118, 101, 110, 32, 98, 101, 32, 115, 116, 111, 114, 101, 100, 32, 110, 111, 110, 45, 118, 111, 108, 97, 116, 105, 108, 101, 44, 10, 9, 45, 45, 32, 114, 101, 102, 101, 114, 32, 116, 111, 32, 84, 83, 32, 50, 51, 46, 48, 49, 50, 32, 67, 104, 97, 112, 116, 101, 114, 32, 51, 46, 54, 46, 49, 46, 52, 10, 9, 45, 45, 32, 67, 104, 97, 112, 116, 101, 114, 32, 50, 46, 55, 46, 53, 10, 9, 109, 115, 95, 112, 117, 114, 103, 101, 100, 95, 99, 115, 9, 66, 79, 79, 76, 69, 65, 78, 32, 78, 79, 84, 32, 78, 85, 76, 76, 32, 68, 69, 70, 65, 85, 76, 84, 32, 48, 44, 10, 9, 45, 45, 32, 67, 104, 97, 112, 116, 101, 114, 32, 50, 46, 55, 46, 54, 10, 9, 109, 115, 95, 112, 117, 114, 103, 101, 100, 95, 112, 115, 9, 66, 79, 79, 76, 69, 65, 78, 32, 78, 79, 84, 32, 78, 85, 76, 76, 32, 68, 69, 70, 65, 85, 76, 84, 32, 48, 44, 10, 9, 45, 45, 32, 84, 105, 109, 101, 115, 116, 97, 109, 112, 32, 111, 102, 32, 108, 97, 115, 116, 32, 108, 111, 99, 97, 116, 105, 111, 110, 32, 117, 112, 100, 97, 116, 101, 32, 115, 101, 101, 110, 32, 102, 114, 111, 109, 32, 115, 117, 98, 115, 99, 114, 105, 98, 101, 114, 10, 9, 45, 45, 32, 84, 104, 101, 32, 118, 97, 108, 117, 101, 32, 105, 115, 32, 97, 32, 115, 116, 114, 105, 110, 103, 32, 119, 104, 105, 99, 104, 32, 101, 110, 99, 111, 100, 101, 115, 32, 97, 32, 85, 84, 67, 32, 116, 105, 109, 101, 115, 116, 97, 109, 112, 32, 105, 110, 32, 103, 114, 97, 110, 117, 108, 97, 114, 105, 116, 121, 32, 111, 102, 32, 115, 101, 99, 111, 110, 100, 115, 46, 10, 9, 108, 97, 115, 116, 95, 108, 117, 95, 115, 101, 101, 110, 32, 84, 73, 77, 69, 83, 84, 65, 77, 80, 32, 100, 101, 102, 97, 117, 108, 116, 32, 78, 85, 76, 76, 10, 41, 10]
/-- CREATE TABLE subscriber ( id INTEGER PRIMARY KEY , imsi VARCHAR ( 15 ) UNIQUE NOT NULL , msisdn VARCHAR ( 15 ) UNIQUE , imeisv VARCHAR , imei VARCHAR ( 14 ) , vlr_number VARCHAR ( 15 ) , msc_number VARCHAR ( 15 ) , sgsn_number VARCHAR ( 15 ) , sgsn_address VARCHAR , ggsn_number VARCHAR ( 15 ) , gmlc_number VARCHAR ( 15 ) , smsc_number VARCHAR ( 15 ) , periodic_lu_tmr INTEGER , periodic_rau_tau_tmr INTEGER , nam_cs BOOLEAN NOT NULL DEFAULT 1 , nam_ps BOOLEAN NOT NULL DEFAULT 1 , lmsi INTEGER , ms_purged_cs BOOLEAN NOT NULL DEFAULT 0 , ms_purged_ps BOOLEAN NOT NULL DEFAULT 0 , last_lu_seen TIMESTAMP default NULL ) -/
def t3_5 : List (List Nat) := [[67, 82, 69, 65, 84, 69], [84, 65, 66, 76, 69], [115, 117, 98, 115, 99, 114, 105, 98, 101, 114], [40], [105, 100], [73, 78, 84, 69, 71, 69, 82], [80, 82, 73, 77, 65, 82, 89], [75, 69, 89], [44], [105, 109, 115, 105], [86, 65, 82, 67, 72, 65, 82], [40], [49, 53], [41], [85, 78, 73, 81, 85, 69], [78, 79, 84], [78, 85, 76, 76], [44], [109, 115, 105, 115, 100, 110], [86, 65, 82, 67, 72, 65, 82], [40], [49, 53], [41], [85, 78, 73, 81, 85, 69], [44], [105, 109, 101, 105, 115, 118], [86, 65, 82, 67, 72, 65, 82], [44], [105, 109, 101, 105], [86, 65, 82, 67, 72, 65, 82], [40], [49, 52], [41], [44], [118, 108, 114, 95, 110, 117, 109, 98, 101, 114], [86, 65, 82, 67, 72, 65, 82], [40], [49, 53], [41], [44], [109, 115, 99, 95, 110, 117, 109, 98, 101, 114], [86, 65, 82, 67, 72, 65, 82], [40], [49, 53], [41], [44], [115, 103, 115, 110, 95, 110, 117, 109, 98, 101, 114], [86, 65, 82, 67, 72, 65, 82], [40], [49, 53], [41], [44], [115, 103, 115, 110, 95, 97, 100, 100, 114, 101, 115, 115], [86, 65, 82, 67, 72, 65, 82], [44], [103, 103, 115, 110, 95, 110, 117, 109, 98, 101, 114], [86, 65, 82, 67, 72, 65, 82], [40], [49, 53], [41], [44], [103, 109, 108, 99, 95, 110, 117, 109, 98, 101, 114], [86, 65, 82, 67, 72, 65, 82], [40], [49, 53], [41], [44], [115, 109, 115, 99, 95, 110, 117, 109, 98, 101, 114], [86, 65, 82, 67, 72, 65, 82], [40], [49, 53], [41], [44], [112, 101, 114, 105, 111, 100, 105, 99, 95, 108, 117, 95, 116, 109, 114], [73, 78, 84, 69, 71, 69, 82], [44], [112, 101, 114, 105, 111, 100, 105, 99, 95, 114, 97, 117, 95, 116, 97, 117, 95, 116, 109, 114], [73, 78, 84, 69, 71, 69, 82], [44], [110, 97, 109, 95, 99, 115], [66, 79, 79, 76, 69, 65, 78], [78, 79, 84], [78, 85, 76, 76], [68, 69, 70, 65, 85, 76, 84], [49], [44], [110, 97, 109, 95, 112, 115], [66, 79, 79, 76, 69, 65, 78], [78, 79, 84], [78, 85, 76, 76], [68, 69, 70, 65, 85, 76, 84], [49], [44], [108, 109, 115, 105], [73, 78, 84, 69, 71, 69, 82], [44], [109, 115, 95, 112, 117, 114, 103, 101, 100, 95, 99, 115], [66, 79, 79, 76, 69, 65, 78], [78, 79, 84], [78, 85, 76, 76], [68, 69, 70, 65, 85, 76, 84], [48], [44], [109, 115, 95, 112, 117, 114, 103, 101, 100, 95, 112, 115], [66, 79, 79, 76, 69, 65, 78], [78, 79, 84], [78, 85, 76, 76], [68, 69, 70, 65, 85, 76, 84], [48], [44], [108, 97, 115, 116, 95, 108, 117, 95, 115, 101, 101, 110], [84, 73, 77, 69, 83, 84, 65, 77, 80], [100, 101, 102, 97, 117, 108, 116], [78, 85, 76, 76], [41]]
/-- db.c 346-450, statement 6 of db_upgrade_v3. -/
def s3_6 : List Nat := [73, 78, 83, 69, 82, 84, 32, 73, 78, 84, 79, 32, 115, 117, 98, 115, 99, 114, 105, 98, 101, 114, 32, 83, 69, 76, 69, 67, 84, 32, 105, 100, 44, 105, 109, 115, 105, 44, 109, 115, 105, 115, 100, 110, 44, 105, 109, 101, 105, 115, 118, 44, 105, 109, 101, 105, 44, 118, 108, 114, 95, 110, 117, 109, 98, 101, 114, 44, 109, 115, 99, 95, 110, 117, 109, 98, 101, 114, 44, 115, 103, 115, 110, 95, 110, 117, 109, 98, 101, 114, 44, 115, 103, 115, 110, 95, 97, 100, 100, 114, 101, 115, 115, 44, 103, 103, 115, 110, 95, 110, 117, 109, 98, 101, 114, 44, 103, 109, 108, 99, 95, 110, 117, 109, 98, 101, 114, 44, 115, 109, 115, 99, 95, 110, 117, 109, 98, 101, 114, 44, 112, 101, 114, 105, 111, 100, 105, 99, 95, 108, 117, 95, 116, 109, 114, 44, 112, 101, 114, 105, 111, 100, 105, 99, 95, 114, 97, 117, 95, 116, 97, 117, 95, 116, 109, 114, 44, 110, 97, 109, 95, 99, 115, 44, 110, 97, 109, 95, 112, 115, 44, 108, 109, 115, 105, 44, 109, 115, 95, 112, 117, 114, 103, 101, 100, 95, 99, 115, 44, 109, 115, 95, 112, 117, 114, 103, 101, 100, 95, 112, 115, 44, 108, 97, 115, 116, 95, 108, 117, 95, 115, 101, 101, 110, 32, 70, 82, 79, 77, 32, 115, 117, 98, 115, 99, 114, 105, 98, 101, 114, 95, 98, 97, 99, 107, 117, 112]
/-- INSERT INTO subscriber SELECT id , imsi , msisdn , imeisv , imei , vlr_number , msc_number , sgsn_number , sgsn_address , ggsn_number , gmlc_number , smsc_number , periodic_lu_tmr , periodic_rau_tau_tmr , nam_cs , nam_ps , lmsi , ms_purged_cs , ms_purged_ps , last_lu_seen FROM subscriber_backup -/
def t3_6 : List (List Nat) := [[73, 78, 83, 69, 82, 84], [73, 78, 84, 79], [115, 117, 98, 115, 99, 114, 105, 98, 101, 114], [83, 69, 76, 69, 67, 84], [105, 100], [44], [105, 109, 115, 105], [44], [109, 115, 105, 115, 100, 110], [44], [105, 109, 101, 105, 115, 118], [44], [105, 109, 101, 105], [44], [118, 108, 114, 95, 110, 117, 109, 98, 101, 114], [44], [109, 115, 99, 95, 110, 117, 109, 98, 101, 114], [44], [115, 103, 115, 110, 95, 110, 117, 109, 98, 101, 114], [44], [115, 103, 115, 110, 95, 97, 100, 100, 114, 101, 115, 115], [44], [103, 103, 115, 110, 95, 110, 117, 109, 98, 101, 114], [44], [103, 109, 108, 99, 95, 110, 117, 109, 98, 101, 114], [44], [115, 109, 115, 99, 95, 110, 117, 109, 98, 101, 114], [44], [112, 101, 114, 105, 111, 100, 105, 99, 95, 108, 117, 95, 116, 109, 114], [44], [112, 101, 114, 105, 111, 100, 105, 99, 95, 114, 97, 117, 95, 116, 97, 117, 95, 116, 109, 114], [44], [110, 97, 109, 95, 99, 115], [44], [110, 97, 109, 95, 112, 115], [44], [108, 109, 115, 105], [44], [109, 115, 95, 112, 117, 114, 103, 101, 100, 95, 99, 115], [44], [109, 115, 95, 112, 117, 114, 103, 101, 100, 95, 112, 115], [44], [108, 97, 115, 116, 95, 108, 117, 95, 115, 101, 101, 110], [70, 82, 79, 77], [115, 117, 98, 115, 99, 114, 105, 98, 101, 114, 95, 98, 97, 99, 107, 117, 112]]
/-- db.c 346-450, statement 7 of db_upgrade_v3. -/
def s3_7 : List Nat := [68, 82, 79, 80, 32, 84, 65, 66, 76, 69, 32, 115, 117, 98, 115, 99, 114, 105, 98, 101, 114, 95, 98, 97, 99, 107, 117, 112]
/-- DROP TABLE subscriber_backup -/
def t3_7 : List (List Nat) := [[68, 82, 79, 80], [84, 65, 66, 76, 69], [115, 117, 98, 115, 99, 114, 105, 98, 101, 114, 95, 98, 97, 99, 107, 117, 112]]
/-- db.c 346-450, statement 8 of db_upgrade_v3. -/
def s3_8 : List Nat := [67, 79, 77, 77, 73, 84]
/-- COMMIT -/
def t3_8 : List (List Nat) := [[67, 79, 77, 77, 73, 84]]
/-- db.c 346-450, statement 9 of db_upgrade_v3. -/
def s3_9 : List Nat := [80, 82, 65, 71, 77, 65, 32, 117, 115, 101, 114, 95, 118, 101, 114, 115, 105, 111, 110, 32, 61, 32, 51]
/-- PRAGMA user_version = 3 -/
def t3_9 : List (List Nat) := [[80, 82, 65, 71, 77, 65], [117, 115, 101, 114, 95, 118, 101, 114, 115, 105, 111, 110], [61], [51]]
/-- db.c 463-466, statement 1 of db_upgrade_v4. -/
def s4_1 : List Nat := [65, 76, 84, 69, 82, 32, 84, 65, 66, 76, 69, 32, 115, 117, 98, 115, 99, 114, 105, 98, 101, 114, 32, 65, 68, 68, 32, 67, 79, 76, 85, 77, 78, 32, 108, 97, 115, 116, 95, 108, 117, 95, 115, 101, 101, 110, 95, 112, 115, 32, 84, 73, 77, 69, 83, 84, 65, 77, 80, 32, 100, 101, 102, 97, 117, 108, 116, 32, 78, 85, 76, 76]
/-- ALTER TABLE subscriber ADD COLUMN last_lu_seen_ps TIMESTAMP default NULL -/
def t4_1 : List (List Nat) := [[65, 76, 84, 69, 82], [84, 65, 66, 76, 69], [115, 117, 98, 115, 99, 114, 105, 98, 101, 114], [65, 68, 68], [67, 79, 76, 85, 77, 78], [108, 97, 115, 116, 95, 108, 117, 95, 115, 101, 101, 110, 95, 112, 115], [84, 73, 77, 69, 83, 84, 65, 77, 80], [100, 101, 102, 97, 117, 108, 116], [78, 85, 76, 76]]
/-- db.c 463-466, statement 2 of db_upgrade_v4. -/
def s4_2 : List Nat := [80, 82, 65, 71, 77, 65, 32, 117, 115, 101, 114, 95, 118, 101, 114, 115, 105, 111, 110, 32, 61, 32, 52]
/-- PRAGMA user_version = 4 -/
def t4_2 : List (List Nat) := [[80, 82, 65, 71, 77, 65], [117, 115, 101, 114, 95, 118, 101, 114, 115, 105, 111, 110], [61], [52]]
/-- db.c 479-483, statement 1 of db_upgrade_v5. -/
def s5_1 : List Nat := [65, 76, 84, 69, 82, 32, 84, 65, 66, 76, 69, 32, 115, 117, 98, 115, 99, 114, 105, 98, 101, 114, 32, 65, 68, 68, 32, 67, 79, 76, 85, 77, 78, 32, 118, 108, 114, 95, 118, 105, 97, 95, 112, 114, 111, 120, 121, 32, 86, 65, 82, 67, 72, 65, 82]
/-- ALTER TABLE subscriber ADD COLUMN vlr_via_proxy VARCHAR -/
def t5_1 : List (List Nat) := [[65, 76, 84, 69, 82], [84, 65, 66, 76, 69], [115, 117, 98, 115, 99, 114, 105, 98, 101, 114], [65, 68, 68], [67, 79, 76, 85, 77, 78], [118, 108, 114, 95, 118, 105, 97, 95, 112, 114, 111, 120, 121], [86, 65, 82, 67, 72, 65, 82]]
/-- db.c 479-483, statement 2 of db_upgrade_v5. -/
def s5_2 : List Nat := [65, 76, 84, 69, 82, 32, 84, 65, 66, 76, 69, 32, 115, 117, 98, 115, 99, 114, 105, 98, 101, 114, 32, 65, 68, 68, 32, 67, 79, 76, 85, 77, 78, 32, 115, 103, 115, 110, 95, 118, 105, 97, 95, 112, 114, 111, 120, 121, 32, 86, 65, 82, 67, 72, 65, 82]
/-- ALTER TABLE subscriber ADD COLUMN sgsn_via_proxy VARCHAR -/
def t5_2 : List (List Nat) := [[65, 76, 84, 69, 82], [84, 65, 66, 76, 69], [115, 117, 98, 115, 99, 114, 105, 98, 101, 114], [65, 68, 68], [67, 79, 76, 85, 77, 78], [115, 103, 115, 110, 95, 118, 105, 97, 95, 112, 114, 111, 120, 121], [86, 65, 82, 67, 72, 65, 82]]
/-- db.c 479-483, statement 3 of db_upgrade_v5. -/
def s5_3 : List Nat := [80, 82, 65, 71, 77, 65, 32, 117, 115, 101, 114, 95, 118, 101, 114, 115, 105, 111, 110, 32, 61, 32, 53]
/-- PRAGMA user_version = 5 -/
def t5_3 : List (List Nat) := [[80, 82, 65, 71, 77, 65], [117, 115, 101, 114, 95, 118, 101, 114, 115, 105, 111, 110], [61], [53]]
/-- db.c 496-506, statement 1 of db_upgrade_v6. -/
def s6_1 : List Nat := [67, 82, 69, 65, 84, 69, 32, 84, 65, 66, 76, 69, 32, 105, 110, 100, 32, 40, 10, 9, 45, 45, 32, 51, 71, 32, 97, 117, 116, 104, 32, 73, 78, 68, 32, 112, 111, 111, 108, 32, 116, 111, 32, 98, 101, 32, 117, 115, 101, 100, 32, 102, 111, 114, 32, 116, 104, 105, 115, 32, 86, 76, 82, 10, 9, 105, 110, 100, 32, 32, 32, 32, 32, 73, 78, 84, 69, 71, 69, 82, 32, 80, 82, 73, 77, 65, 82, 89, 32, 75, 69, 89, 44, 10, 9, 45, 45, 32, 86, 76, 82, 32, 105, 100, 101, 110, 116, 105, 102, 105, 99, 97, 116, 105, 111, 110, 44, 32, 117, 115, 117, 97, 108, 108, 121, 32, 116, 104, 101, 32, 71, 83, 85, 80, 32, 115, 111, 117, 114, 99, 101, 95, 110, 97, 109, 101, 10, 9, 118, 108, 114, 32, 32, 32, 32, 32, 84, 69, 88, 84, 32, 78, 79, 84, 32, 78, 85, 76, 76, 44, 10, 9, 85, 78, 73, 81, 85, 69, 32, 40, 118, 108, 114, 41, 10, 41]
/-- CREATE TABLE ind ( ind INTEGER PRIMARY KEY , vlr TEXT NOT NULL , UNIQUE ( vlr ) ) -/
def t6_1 : List (List Nat) := [[67, 82, 69, 65, 84, 69], [84, 65, 66, 76, 69], [105, 110, 100], [40], [105, 110, 100], [73, 78, 84, 69, 71, 69, 82], [80, 82, 73, 77, 65, 82, 89], [75, 69, 89], [44], [118, 108, 114], [84, 69, 88, 84], [78, 79, 84], [78, 85, 76, 76], [44], [85, 78, 73, 81, 85, 69], [40], [118, 108, 114], [41], [41]]
/-- db.c 496-506, statement 2 of db_upgrade_v6. -/
def s6_2 : List Nat := [80, 82, 65, 71, 77, 65, 32, 117, 115, 101, 114, 95, 118, 101, 114, 115, 105, 111, 110, 32, 61, 32, 54]
/-- PRAGMA user_version = 6 -/
def t6_2 : List (List Nat) := [[80, 82, 65, 71, 77, 65], [117, 115, 101, 114, 95, 118, 101, 114, 115, 105, 111, 110], [61], [54]]
/-- db.c 522-546, statement 1 of db_upgrade_v7. -/
def s7_1 : List Nat := [66, 69, 71, 73, 78, 32, 84, 82, 65, 78, 83, 65, 67, 84, 73, 79, 78]
/-- BEGIN TRANSACTION -/
def t7_1 : List (List Nat) := [[66, 69, 71, 73, 78], [84, 82, 65, 78, 83, 65, 67, 84, 73, 79, 78]]
/-- db.c 522-546, statement 2 of db_upgrade_v7. -/
def s7_2 : List Nat := [65, 76, 84, 69, 82, 32, 84, 65, 66, 76, 69, 32, 97, 117, 99, 95, 51, 103, 32, 82, 69, 78, 65, 77, 69, 32, 84, 79, 32, 111, 108, 100, 95, 97, 117, 99, 95, 51, 103]
/-- ALTER TABLE auc_3g RENAME TO old_auc_3g -/
def t7_2 : List (List Nat) := [[65, 76, 84, 69, 82], [84, 65, 66, 76, 69], [97, 117, 99, 95, 51, 103], [82, 69, 78, 65, 77, 69], [84, 79], [111, 108, 100, 95, 97, 117, 99, 95, 51, 103]]
/-- db.c 522-546, statement 3 of db_upgrade_v7. -/
def s7_3 : List Nat := [67, 82, 69, 65, 84, 69, 32, 84, 65, 66, 76, 69, 32, 97, 117, 99, 95, 51, 103, 32, 40, 10, 9, 115, 117, 98, 115, 99, 114, 105, 98, 101, 114, 95, 105, 100, 9, 73, 78, 84, 69, 71, 69, 82, 32, 80, 82, 73, 77, 65, 82, 89, 32, 75, 69, 89, 44, 9, 45, 45, 32, 115, 117, 98, 115, 99, 114, 105, 98, 101, 114, 46, 105, 100, 10, 9, 97, 108, 103, 111, 95, 105, 100, 95, 51, 103, 9, 73, 78, 84, 69, 71, 69, 82, 32, 78, 79, 84, 32, 78, 85, 76, 76, 44, 9, 45, 45, 32, 101, 110, 117, 109, 32, 111, 115, 109, 111, 95, 97, 117, 116, 104, 95, 97, 108, 103, 111, 32, 118, 97, 108, 117, 101, 10, 9, 107, 9, 9, 86, 65, 82, 67, 72, 65, 82, 40, 54, 52, 41, 32, 78, 79, 84, 32, 78, 85, 76, 76, 44, 9, 45, 45, 32, 104, 101, 120, 32, 115, 116, 114, 105, 110, 103, 58, 32, 115, 117, 98, 115, 99, 114, 105, 98, 101, 114, 39, 115, 32, 115, 101, 99, 114, 101, 116, 32, 107, 101, 121, 32, 40, 49, 50, 56, 47, 50, 53, 54, 98, 105, 116, 41, 10, 9, 111, 112, 9, 9, 86, 65, 82, 67, 72, 65, 82, 40, 54, 52, 41, 44, 9, 9, 45, 45, 32, 104, 101, 120, 32, 115, 116, 114, 105, 110, 103, 58, 32, 111, 112, 101, 114, 97, 116, 111, 114, 39, 115, 32, 115, 101, 99, 114, 101, 116, 32, 107, 101, 121, 32, 40, 49, 50, 56, 47, 50, 53, 54, 98, 105, 116, 41, 10, 9, 111, 112, 99, 9, 9, 86, 65, 82, 67, 72, 65, 82, 40, 54, 52, 41, 44, 9, 9, 45, 45, 32, 104, 101, 120, 32, 115, 116, 114, 105, 110, 103, 58, 32, 100, 101, 114, 105, 118, 101, 100, 32, 102, 114, 111, 109, 32, 79, 80, 32, 97, 110, 100, 32, 75, 32, 40, 49, 50, 56, 47, 50, 53, 54, 98, 105, 116, 41, 10, 9, 115, 113, 110, 9, 9, 73, 78, 84, 69, 71, 69, 82, 32, 78, 79, 84, 32, 78, 85, 76, 76, 32, 68, 69, 70, 65, 85, 76, 84, 32, 48, 44, 9, 45, 45, 32, 115, 101, 113, 117, 101, 110, 99, 101, 32, 110, 117, 109, 98, 101, 114, 32, 111, 102, 32, 107, 101, 121, 32, 117, 115, 97, 103, 101, 10, 9, 45, 45, 32, 110, 114, 32, 111, 102, 32, 105, 110, 100, 101, 120, 32, 98, 105, 116, 115, 32, 97, 116, 32, 108, 111, 119, 101, 114, 32, 83, 81, 78, 32, 101, 110, 100, 10, 9, 105, 110, 100, 95, 98, 105, 116, 108, 101, 110, 9, 73, 78, 84, 69, 71, 69, 82, 32, 78, 79, 84, 32, 78, 85, 76, 76, 32, 68, 69, 70, 65, 85, 76, 84, 32, 53, 10, 41, 59]
/-- CREATE TABLE auc_3g ( subscriber_id INTEGER PRIMARY KEY , algo_id_3g INTEGER NOT NULL , k VARCHAR ( 64 ) NOT NULL , op VARCHAR ( 64 ) , opc VARCHAR ( 64 ) , sqn INTEGER NOT NULL DEFAULT 0 , ind_bitlen INTEGER NOT NULL DEFAULT 5 ) ; -/
def t7_3 : List (List Nat) := [[67, 82, 69, 65, 84, 69], [84, 65, 66, 76, 69], [97, 117, 99, 95, 51, 103], [40], [115, 117, 98, 115, 99, 114, 105, 98, 101, 114, 95, 105, 100], [73, 78, 84, 69, 71, 69, 82], [80, 82, 73, 77, 65, 82, 89], [75, 69, 89], [44], [97, 108, 103, 111, 95, 105, 100, 95, 51, 103], [73, 78, 84, 69, 71, 69, 82], [78, 79, 84], [78, 85, 76, 76], [44], [107], [86, 65, 82, 67, 72, 65, 82], [40], [54, 52], [41], [78, 79, 84], [78, 85, 76, 76], [44], [111, 112], [86, 65, 82, 67, 72, 65, 82], [40], [54, 52], [41], [44], [111, 112, 99], [86, 65, 82, 67, 72, 65, 82], [40], [54, 52], [41], [44], [115, 113, 110], [73, 78, 84, 69, 71, 69, 82], [78, 79, 84], [78, 85, 76, 76], [68, 69, 70, 65, 85, 76, 84], [48], [44], [105, 110, 100, 95, 98, 105, 116, 108, 101, 110], [73, 78, 84, 69, 71, 69, 82], [78, 79, 84], [78, 85, 76, 76], [68, 69, 70, 65, 85, 76, 84], [53], [41], [59]]
/-- db.c 522-546, statement 4 of db_upgrade_v7. -/
def s7_4 : List Nat := [73, 78, 83, 69, 82, 84, 32, 73, 78, 84, 79, 32, 97, 117, 99, 95, 51, 103, 32, 83, 69, 76, 69, 67, 84, 32, 115, 117, 98, 115, 99, 114, 105, 98, 101, 114, 95, 105, 100, 44, 32, 97, 108, 103, 111, 95, 105, 100, 95, 51, 103, 44, 32, 107, 44, 32, 111, 112, 44, 32, 111, 112, 99, 44, 115, 113, 110, 44, 32, 105, 110, 100, 95, 98, 105, 116, 108, 101, 110, 32, 70, 82, 79, 77, 32, 111, 108, 100, 95, 97, 117, 99, 95, 51, 103]
/-- INSERT INTO auc_3g SELECT subscriber_id , algo_id_3g , k , op , opc , sqn , ind_bitlen FROM old_auc_3g -/
def t7_4 : List (List Nat) := [[73, 78, 83, 69, 82, 84], [73, 78, 84, 79], [97, 117, 99, 95, 51, 103], [83, 69, 76, 69, 67, 84], [115, 117, 98, 115, 99, 114, 105, 98, 101, 114, 95, 105, 100], [44], [97, 108, 103, 111, 95, 105, 100, 95, 51, 103], [44], [107], [44], [111, 112], [44], [111, 112, 99], [44], [115, 113, 110], [44], [105, 110, 100, 95, 98, 105, 116, 108, 101, 110], [70, 82, 79, 77], [111, 108, 100, 95, 97, 117, 99, 95, 51, 103]]
/-- db.c 522-546, statement 5 of db_upgrade_v7. -/
def s7_5 : List Nat := [68, 82, 79, 80, 32, 84, 65, 66, 76, 69, 32, 111, 108, 100, 95, 97, 117, 99, 95, 51, 103]
/-- DROP TABLE old_auc_3g -/
def t7_5 : List (List Nat) := [[68, 82, 79, 80], [84, 65, 66, 76, 69], [111, 108, 100, 95, 97, 117, 99, 95, 51, 103]]
/-- db.c 522-546, statement 6 of db_upgrade_v7. -/
def s7_6 : List Nat := [80, 82, 65, 71, 77, 65, 32, 117, 115, 101, 114, 95, 118, 101, 114, 115, 105, 111, 110, 32, 61, 32, 55]
/-- PRAGMA user_version = 7 -/
def t7_6 : List (List Nat) := [[80, 82, 65, 71, 77, 65], [117, 115, 101, 114, 95, 118, 101, 114, 115, 105, 111, 110], [61], [55]]
/-- db.c 522-546, statement 7 of db_upgrade_v7. -/
def s7_7 : List Nat := [67, 79, 77, 77, 73, 84]
/-- COMMIT -/
def t7_7 : List (List Nat) := [[67, 79, 77, 77, 73, 84]]

/-- The statements of db_upgrade_path (db.c 557-565) at version `v`: db_upgrade_v1 (311-314); db_upgrade_v2 (327-330); db_upgrade_v3 (346-450); db_upgrade_v4 (463-466); db_upgrade_v5 (479-483); db_upgrade_v6 (496-506); db_upgrade_v7 (522-546). -/
def text : Nat → List Bytes
  | 0 => [bytes s1_1, bytes s1_2]
  | 1 => [bytes s2_1, bytes s2_2]
  | 2 => [bytes s3_1, bytes s3_2, bytes s3_3, bytes s3_4, bytes s3_5, bytes s3_6, bytes s3_7, bytes s3_8, bytes s3_9]
  | 3 => [bytes s4_1, bytes s4_2]
  | 4 => [bytes s5_1, bytes s5_2, bytes s5_3]
  | 5 => [bytes s6_1, bytes s6_2]
  | 6 => [bytes s7_1, bytes s7_2, bytes s7_3, bytes s7_4, bytes s7_5, bytes s7_6, bytes s7_7]
  | _ => []

/-! ## Reading them -/

theorem toks1_1 : toks false [] (bytes s1_1) = t1_1.map bytes := by decide +kernel
theorem read1_1 : read (bytes s1_1) = some (.addCol .subscriber .lastLuSeen) := read_of toks1_1 (by decide +kernel)
theorem toks1_2 : toks false [] (bytes s1_2) = t1_2.map bytes := by decide +kernel
theorem read1_2 : read (bytes s1_2) = some (.pragma 1) := read_of toks1_2 (by decide +kernel)
theorem toks2_1 : toks false [] (bytes s2_1) = t2_1.map bytes := by decide +kernel
theorem read2_1 : read (bytes s2_1) = some (.addCol .subscriber .imei) := read_of toks2_1 (by decide +kernel)
theorem toks2_2 : toks false [] (bytes s2_2) = t2_2.map bytes := by decide +kernel
theorem read2_2 : read (bytes s2_2) = some (.pragma 2) := read_of toks2_2 (by decide +kernel)
theorem toks3_1 : toks false [] (bytes s3_1) = t3_1.map bytes := by decide +kernel
theorem read3_1 : read (bytes s3_1) = some (.begin) := read_of toks3_1 (by decide +kernel)
theorem toks3_2 : toks false [] (bytes s3_2) = t3_2.map bytes := by decide +kernel
theorem read3_2 : read (bytes s3_2) = some (.create true .subscriberBackup subscrV3) := read_of toks3_2 (by decide +kernel)
theorem toks3_3 : toks false [] (bytes s3_3) = t3_3.map bytes := by decide +kernel
theorem read3_3 : read (bytes s3_3) = some (.copy .subscriberBackup .subscriber selV2) := read_of toks3_3 (by decide +kernel)
theorem toks3_4 : toks false [] (bytes s3_4) = t3_4.map bytes := by decide +kernel
theorem read3_4 : read (bytes s3_4) = some (.drop .subscriber) := read_of toks3_4 (by decide +kernel)
theorem toks3_5 : toks false [] (bytes s3_5) = t3_5.map bytes := by decide +kernel
theorem read3_5 : read (bytes s3_5) = some (.create false .subscriber subscrV3) := read_of toks3_5 (by decide +kernel)
theorem toks3_6 : toks false [] (bytes s3_6) = t3_6.map bytes := by decide +kernel
theorem read3_6 : read (bytes s3_6) = some (.copy .subscriber .subscriberBackup selV3) := read_of toks3_6 (by decide +kernel)
theorem toks3_7 : toks false [] (bytes s3_7) = t3_7.map bytes := by decide +kernel
theorem read3_7 : read (bytes s3_7) = some (.drop .subscriberBackup) := read_of toks3_7 (by decide +kernel)
theorem toks3_8 : toks false [] (bytes s3_8) = t3_8.map bytes := by decide +kernel
theorem read3_8 : read (bytes s3_8) = some (.commit) := read_of toks3_8 (by decide +kernel)
theorem toks3_9 : toks false [] (bytes s3_9) = t3_9.map bytes := by decide +kernel
theorem read3_9 : read (bytes s3_9) = some (.pragma 3) := read_of toks3_9 (by decide +kernel)
theorem toks4_1 : toks false [] (bytes s4_1) = t4_1.map bytes := by decide +kernel
theorem read4_1 : read (bytes s4_1) = some (.addCol .subscriber .lastLuSeenPs) := read_of toks4_1 (by decide +kernel)
theorem toks4_2 : toks false [] (bytes s4_2) = t4_2.map bytes := by decide +kernel
theorem read4_2 : read (bytes s4_2) = some (.pragma 4) := read_of toks4_2 (by decide +kernel)
theorem toks5_1 : toks false [] (bytes s5_1) = t5_1.map bytes := by decide +kernel
theorem read5_1 : read (bytes s5_1) = some (.addCol .subscriber .vlrViaProxy) := read_of toks5_1 (by decide +kernel)
theorem toks5_2 : toks false [] (bytes s5_2) = t5_2.map bytes := by decide +kernel
theorem read5_2 : read (bytes s5_2) = some (.addCol .subscriber .sgsnViaProxy) := read_of toks5_2 (by decide +kernel)
theorem toks5_3 : toks false [] (bytes s5_3) = t5_3.map bytes := by decide +kernel
theorem read5_3 : read (bytes s5_3) = some (.pragma 5) := read_of toks5_3 (by decide +kernel)
theorem toks6_1 : toks false [] (bytes s6_1) = t6_1.map bytes := by decide +kernel
theorem read6_1 : read (bytes s6_1) = some (.create false .ind indCols) := read_of toks6_1 (by decide +kernel)
theorem toks6_2 : toks false [] (bytes s6_2) = t6_2.map bytes := by decide +kernel
theorem read6_2 : read (bytes s6_2) = some (.pragma 6) := read_of toks6_2 (by decide +kernel)
theorem toks7_1 : toks false [] (bytes s7_1) = t7_1.map bytes := by decide +kernel
theorem read7_1 : read (bytes s7_1) = some (.begin) := read_of toks7_1 (by decide +kernel)
theorem toks7_2 : toks false [] (bytes s7_2) = t7_2.map bytes := by decide +kernel
theorem read7_2 : read (bytes s7_2) = some (.rename .auc3g .oldAuc3g) := read_of toks7_2 (by decide +kernel)
theorem toks7_3 : toks false [] (bytes s7_3) = t7_3.map bytes := by decide +kernel
theorem read7_3 : read (bytes s7_3) = some (.create false .auc3g auc3gCols) := read_of toks7_3 (by decide +kernel)
theorem toks7_4 : toks false [] (bytes s7_4) = t7_4.map bytes := by decide +kernel
theorem read7_4 : read (bytes s7_4) = some (.copy .auc3g .oldAuc3g [.subscriberId, .algoId3g, .k, .op, .opc, .sqn, .indBitlen]) := read_of toks7_4 (by decide +kernel)
theorem toks7_5 : toks false [] (bytes s7_5) = t7_5.map bytes := by decide +kernel
theorem read7_5 : read (bytes s7_5) = some (.drop .oldAuc3g) := read_of toks7_5 (by decide +kernel)
theorem toks7_6 : toks false [] (bytes s7_6) = t7_6.map bytes := by decide +kernel
theorem read7_6 : read (bytes s7_6) = some (.pragma 7) := read_of toks7_6 (by decide +kernel)
theorem toks7_7 : toks false [] (bytes s7_7) = t7_7.map bytes := by decide +kernel
theorem read7_7 : read (bytes s7_7) = some (.commit) := read_of toks7_7 (by decide +kernel)

/-- The strings in db.c are read by SQLite as the statements of `DbOpen`, for every version. -/
theorem upgrade_read (v : Nat) : readAll (text v) = some (upgradePath v) := by
  match v with
  | 0 => exact readAll_cons read1_1 (readAll_cons read1_2 rfl)
  | 1 => exact readAll_cons read2_1 (readAll_cons read2_2 rfl)
  | 2 => exact readAll_cons read3_1 (readAll_cons read3_2 (readAll_cons read3_3 (readAll_cons read3_4 (readAll_cons read3_5 (readAll_cons read3_6 (readAll_cons read3_7 (readAll_cons read3_8 (readAll_cons read3_9 rfl))))))))
  | 3 => exact readAll_cons read4_1 (readAll_cons read4_2 rfl)
  | 4 => exact readAll_cons read5_1 (readAll_cons read5_2 (readAll_cons read5_3 rfl))
  | 5 => exact readAll_cons read6_1 (readAll_cons read6_2 rfl)
  | 6 => exact readAll_cons read7_1 (readAll_cons read7_2 (readAll_cons read7_3 (readAll_cons read7_4 (readAll_cons read7_5 (readAll_cons read7_6 (readAll_cons read7_7 rfl))))))
  | _ + 7 => rfl

end Verif.Sql2c.Up
