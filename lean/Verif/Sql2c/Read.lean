import Verif.Sql2c.Props
import Verif.DbOpen.Props
/-!
# The statements of `sql/hlr.sql` are those that `DbOpen` runs

A reader for the statements that occur in `sql/hlr.sql`: CREATE TABLE, CREATE UNIQUE INDEX idx_subscr_imsi and PRAGMA user_version.  With it the list of
statements that `stmts` puts into the program becomes the program `DbOpen.bootstrap`.  It models SQLite's parser on such statements; types and default
values are read and left out, as they are in `DbOpen`.
-/
namespace Verif.Sql2c
open Verif Verif.DbOpen

/-- A finished word. -/
def flush (cur : Bytes) : List Bytes := if cur = [] then [] else [cur]

/-- The tokens of a statement (SQLite: comments run from two dashes to the end of the line; `( ) , =` stand alone).  Keywords are expected as they are
written in sql/hlr.sql. -/
def toks : Bool → Bytes → Bytes → List Bytes
  | _, cur, [] => flush cur
  | true, _, x :: r => if x = 10 then toks false [] r else toks true [] r
  | false, cur, x :: r =>
    if x = 45 ∧ r.head? = some 45 then flush cur ++ toks true [] r
    else if x = 32 ∨ x = 9 ∨ x = 10 then flush cur ++ toks false [] r
    else if x = 40 ∨ x = 41 ∨ x = 44 ∨ x = 61 then flush cur ++ [x] :: toks false [] r
    else toks false (cur ++ [x]) r

/-- CREATE -/
def kCreate : Bytes := [67, 82, 69, 65, 84, 69]
/-- TABLE -/
def kTable : Bytes := [84, 65, 66, 76, 69]
/-- UNIQUE -/
def kUnique : Bytes := [85, 78, 73, 81, 85, 69]
/-- INDEX -/
def kIndex : Bytes := [73, 78, 68, 69, 88]
/-- ON -/
def kOn : Bytes := [79, 78]
/-- PRAGMA -/
def kPragma : Bytes := [80, 82, 65, 71, 77, 65]
/-- PRIMARY -/
def kPrimary : Bytes := [80, 82, 73, 77, 65, 82, 89]
/-- KEY -/
def kKey : Bytes := [75, 69, 89]
/-- NOT -/
def kNot : Bytes := [78, 79, 84]
/-- NULL -/
def kNull : Bytes := [78, 85, 76, 76]
/-- user_version -/
def kVersion : Bytes := [117, 115, 101, 114, 95, 118, 101, 114, 115, 105, 111, 110]
/-- idx_subscr_imsi -/
def kIdx : Bytes := [105, 100, 120, 95, 115, 117, 98, 115, 99, 114, 95, 105, 109, 115, 105]

/-- The names of the tables (sql/hlr.sql). -/
def tableNames : List (Bytes × T) := [
  -- subscriber
  ([115, 117, 98, 115, 99, 114, 105, 98, 101, 114], .subscriber),
  -- subscriber_apn
  ([115, 117, 98, 115, 99, 114, 105, 98, 101, 114, 95, 97, 112, 110], .subscriberApn),
  -- subscriber_multi_msisdn
  ([115, 117, 98, 115, 99, 114, 105, 98, 101, 114, 95, 109, 117, 108, 116, 105, 95, 109, 115, 105, 115, 100, 110], .subscriberMultiMsisdn),
  -- auc_2g
  ([97, 117, 99, 95, 50, 103], .auc2g),
  -- auc_3g
  ([97, 117, 99, 95, 51, 103], .auc3g),
  -- ind
  ([105, 110, 100], .ind)]

/-- The names of the columns (sql/hlr.sql). -/
def columnNames : List (Bytes × Cn) := [
  -- id
  ([105, 100], .id),
  -- imsi
  ([105, 109, 115, 105], .imsi),
  -- msisdn
  ([109, 115, 105, 115, 100, 110], .msisdn),
  -- imeisv
  ([105, 109, 101, 105, 115, 118], .imeisv),
  -- imei
  ([105, 109, 101, 105], .imei),
  -- vlr_number
  ([118, 108, 114, 95, 110, 117, 109, 98, 101, 114], .vlrNumber),
  -- hlr_number
  ([104, 108, 114, 95, 110, 117, 109, 98, 101, 114], .hlrNumber),
  -- msc_number
  ([109, 115, 99, 95, 110, 117, 109, 98, 101, 114], .mscNumber),
  -- sgsn_number
  ([115, 103, 115, 110, 95, 110, 117, 109, 98, 101, 114], .sgsnNumber),
  -- sgsn_address
  ([115, 103, 115, 110, 95, 97, 100, 100, 114, 101, 115, 115], .sgsnAddress),
  -- ggsn_number
  ([103, 103, 115, 110, 95, 110, 117, 109, 98, 101, 114], .ggsnNumber),
  -- gmlc_number
  ([103, 109, 108, 99, 95, 110, 117, 109, 98, 101, 114], .gmlcNumber),
  -- smsc_number
  ([115, 109, 115, 99, 95, 110, 117, 109, 98, 101, 114], .smscNumber),
  -- periodic_lu_tmr
  ([112, 101, 114, 105, 111, 100, 105, 99, 95, 108, 117, 95, 116, 109, 114], .periodicLuTmr),
  -- periodic_rau_tau_tmr
  ([112, 101, 114, 105, 111, 100, 105, 99, 95, 114, 97, 117, 95, 116, 97, 117, 95, 116, 109, 114], .periodicRauTauTmr),
  -- nam_cs
  ([110, 97, 109, 95, 99, 115], .namCs),
  -- nam_ps
  ([110, 97, 109, 95, 112, 115], .namPs),
  -- lmsi
  ([108, 109, 115, 105], .lmsi),
  -- ms_purged_cs
  ([109, 115, 95, 112, 117, 114, 103, 101, 100, 95, 99, 115], .msPurgedCs),
  -- ms_purged_ps
  ([109, 115, 95, 112, 117, 114, 103, 101, 100, 95, 112, 115], .msPurgedPs),
  -- last_lu_seen
  ([108, 97, 115, 116, 95, 108, 117, 95, 115, 101, 101, 110], .lastLuSeen),
  -- last_lu_seen_ps
  ([108, 97, 115, 116, 95, 108, 117, 95, 115, 101, 101, 110, 95, 112, 115], .lastLuSeenPs),
  -- vlr_via_proxy
  ([118, 108, 114, 95, 118, 105, 97, 95, 112, 114, 111, 120, 121], .vlrViaProxy),
  -- sgsn_via_proxy
  ([115, 103, 115, 110, 95, 118, 105, 97, 95, 112, 114, 111, 120, 121], .sgsnViaProxy),
  -- subscriber_id
  ([115, 117, 98, 115, 99, 114, 105, 98, 101, 114, 95, 105, 100], .subscriberId),
  -- apn
  ([97, 112, 110], .apn),
  -- algo_id_2g
  ([97, 108, 103, 111, 95, 105, 100, 95, 50, 103], .algoId2g),
  -- ki
  ([107, 105], .ki),
  -- algo_id_3g
  ([97, 108, 103, 111, 95, 105, 100, 95, 51, 103], .algoId3g),
  -- k
  ([107], .k),
  -- op
  ([111, 112], .op),
  -- opc
  ([111, 112, 99], .opc),
  -- sqn
  ([115, 113, 110], .sqn),
  -- ind_bitlen
  ([105, 110, 100, 95, 98, 105, 116, 108, 101, 110], .indBitlen),
  -- ind
  ([105, 110, 100], .ind),
  -- vlr
  ([118, 108, 114], .vlr)]

/-- The parts of a list in parentheses, up to the parenthesis that ends it; nothing may follow. -/
def parts : Nat → List Bytes → List Bytes → Option (List (List Bytes))
  | _, _, [] => none
  | 0, cur, t :: r =>
    if t = [41] then (if r = [] then some [cur] else none)
    else if t = [44] then (parts 0 [] r).map (cur :: ·)
    else if t = [40] then parts 1 (cur ++ [t]) r
    else parts 0 (cur ++ [t]) r
  | d + 1, cur, t :: r =>
    if t = [41] then parts d (cur ++ [t]) r
    else if t = [40] then parts (d + 2) (cur ++ [t]) r
    else parts (d + 1) (cur ++ [t]) r

/-- Do two words occur one after the other? -/
def has2 (x y : Bytes) : List Bytes → Bool
  | a :: c :: r => (a == x && c == y) || has2 x y (c :: r)
  | _ => false

/-- One part of CREATE TABLE, added to the columns so far: a column with its constraints, or UNIQUE (column) for an earlier column. -/
def part (cols : List Col) : List Bytes → Option (List Col)
  | [] => none
  | w :: r =>
    if w = kUnique then
      match r with
      | [[40], n, [41]] => (columnNames.lookup n).map fun cn => cols.map fun col => if col.name = cn then { col with uniq := true } else col
      | _ => none
    else (columnNames.lookup w).map fun cn =>
      cols ++ [{ name := cn, uniq := has2 kPrimary kKey r || r.contains kUnique, notNull := has2 kPrimary kKey r || has2 kNot kNull r }]

def columns : List Col → List (List Bytes) → Option (List Col)
  | cols, [] => some cols
  | cols, p :: ps => (part cols p).bind fun cols' => columns cols' ps

/-- A number. -/
def number : Nat → Bytes → Option Nat
  | n, [] => some n
  | n, x :: r => if 48 ≤ x ∧ x ≤ 57 then number (n * 10 + (x.toNat - 48)) r else none

/-- A statement, from its tokens. -/
def readToks : List Bytes → Option Stmt
  | k :: k' :: r =>
    if k = kCreate ∧ k' = kTable then
      match r with
      | n :: [40] :: r => (tableNames.lookup n).bind fun t => (parts 0 [] r).bind fun ps => (columns [] ps).map fun cols => .create false t cols
      | _ => none
    else if k = kCreate ∧ k' = kUnique then
      match r with
      | [k'', n, k3, t, [40], col, [41]] =>
        if k'' = kIndex ∧ n = kIdx ∧ k3 = kOn ∧ tableNames.lookup t = some .subscriber ∧ columnNames.lookup col = some .imsi then some .createIdx else none
      | _ => none
    else if k = kPragma ∧ k' = kVersion then
      match r with
      | [[61], d] => if d = [] then none else (number 0 d).map fun n => .pragma n
      | _ => none
    else none
  | _ => none

/-- A statement, from its text. -/
def read (s : Bytes) : Option Stmt := readToks (toks false [] s)

def readAll : List Bytes → Option (List Stmt)
  | [] => some []
  | s :: ss => (read s).bind fun x => (readAll ss).map (x :: ·)

/-! ## sql/hlr.sql

The statements and their tokens are written down so that the kernel has not to compute them again and again. -/

def bytes (l : List Nat) : Bytes := l.map (·.toUInt8)

/-- The codes of the characters of statement 1. -/
def s1 : List Nat := [67, 82, 69, 65, 84, 69, 32, 84, 65, 66, 76, 69, 32, 115, 117, 98, 115, 99, 114, 105, 98, 101, 114, 32, 40, 10, 45, 45, 32, 79, 115, 109, 111, 72, 76, 82, 39, 115, 32, 68, 66, 32, 115, 99, 104, 101, 109, 101, 32, 105, 115, 32, 109, 111, 100, 101, 108, 108, 101, 100, 32, 114, 111, 117, 103, 104, 108, 121, 32, 97, 102, 116, 101, 114, 32, 84, 83, 32, 50, 51, 46, 48, 48, 56, 32, 118, 101, 114, 115, 105, 111, 110, 32, 49, 51, 46, 51, 46, 48, 10, 9, 105, 100, 9, 9, 73, 78, 84, 69, 71, 69, 82, 32, 80, 82, 73, 77, 65, 82, 89, 32, 75, 69, 89, 44, 10, 9, 45, 45, 32, 67, 104, 97, 112, 116, 101, 114, 32, 50, 46, 49, 46, 49, 46, 49, 10, 9, 105, 109, 115, 105, 9, 9, 86, 65, 82, 67, 72, 65, 82, 40, 49, 53, 41, 32, 85, 78, 73, 81, 85, 69, 32, 78, 79, 84, 32, 78, 85, 76, 76, 44, 10, 9, 45, 45, 32, 67, 104, 97, 112, 116, 101, 114, 32, 50, 46, 49, 46, 50, 10, 9, 109, 115, 105, 115, 100, 110, 9, 9, 86, 65, 82, 67, 72, 65, 82, 40, 49, 53, 41, 32, 85, 78, 73, 81, 85, 69, 44, 10, 9, 45, 45, 32, 67, 104, 97, 112, 116, 101, 114, 32, 50, 46, 50, 46, 51, 58, 32, 77, 111, 115, 116, 32, 114, 101, 99, 101, 110, 116, 32, 47, 32, 99, 117, 114, 114, 101, 110, 116, 32, 73, 77, 69, 73, 83, 86, 10, 9, 105, 109, 101, 105, 115, 118, 9, 9, 86, 65, 82, 67, 72, 65, 82, 44, 10, 9, 45, 45, 32, 67, 104, 97, 112, 116, 101, 114, 32, 50, 46, 49, 46, 57, 58, 32, 77, 111, 115, 116, 32, 114, 101, 99, 101, 110, 116, 32, 47, 32, 99, 117, 114, 114, 101, 110, 116, 32, 73, 77, 69, 73, 10, 9, 105, 109, 101, 105, 9, 9, 86, 65, 82, 67, 72, 65, 82, 40, 49, 52, 41, 44, 10, 9, 45, 45, 32, 67, 104, 97, 112, 116, 101, 114, 32, 50, 46, 52, 46, 53, 10, 9, 118, 108, 114, 95, 110, 117, 109, 98, 101, 114, 9, 86, 65, 82, 67, 72, 65, 82, 40, 49, 53, 41, 44, 10, 9, 45, 45, 32, 67, 104, 97, 112, 116, 101, 114, 32, 50, 46, 52, 46, 54, 10, 9, 109, 115, 99, 95, 110, 117, 109, 98, 101, 114, 9, 86, 65, 82, 67, 72, 65, 82, 40, 49, 53, 41, 44, 10, 9, 45, 45, 32, 67, 104, 97, 112, 116, 101, 114, 32, 50, 46, 52, 46, 56, 46, 49, 10, 9, 115, 103, 115, 110, 95, 110, 117, 109, 98, 101, 114, 9, 86, 65, 82, 67, 72, 65, 82, 40, 49, 53, 41, 44, 10, 9, 45, 45, 32, 67, 104, 97, 112, 116, 101, 114, 32, 50, 46, 49, 51, 46, 49, 48, 10, 9, 115, 103, 115, 110, 95, 97, 100, 100, 114, 101, 115, 115, 9, 86, 65, 82, 67, 72, 65, 82, 44, 10, 9, 45, 45, 32, 67, 104, 97, 112, 116, 101, 114, 32, 50, 46, 52, 46, 56, 46, 50, 10, 9, 103, 103, 115, 110, 95, 110, 117, 109, 98, 101, 114, 9, 86, 65, 82, 67, 72, 65, 82, 40, 49, 53, 41, 44, 10, 9, 45, 45, 32, 67, 104, 97, 112, 116, 101, 114, 32, 50, 46, 52, 46, 57, 46, 50, 10, 9, 103, 109, 108, 99, 95, 110, 117, 109, 98, 101, 114, 9, 86, 65, 82, 67, 72, 65, 82, 40, 49, 53, 41, 44, 10, 9, 45, 45, 32, 67, 104, 97, 112, 116, 101, 114, 32, 50, 46, 52, 46, 50, 51, 10, 9, 115, 109, 115, 99, 95, 110, 117, 109, 98, 101, 114, 9, 86, 65, 82, 67, 72, 65, 82, 40, 49, 53, 41, 44, 10, 9, 45, 45, 32, 67, 104, 97, 112, 116, 101, 114, 32, 50, 46, 52, 46, 50, 52, 10, 9, 112, 101, 114, 105, 111, 100, 105, 99, 95, 108, 117, 95, 116, 109, 114, 9, 73, 78, 84, 69, 71, 69, 82, 44, 10, 9, 45, 45, 32, 67, 104, 97, 112, 116, 101, 114, 32, 50, 46, 49, 51, 46, 49, 49, 53, 10, 9, 112, 101, 114, 105, 111, 100, 105, 99, 95, 114, 97, 117, 95, 116, 97, 117, 95, 116, 109, 114, 32, 73, 78, 84, 69, 71, 69, 82, 44, 10, 9, 45, 45, 32, 67, 104, 97, 112, 116, 101, 114, 32, 50, 46, 49, 46, 49, 46, 50, 58, 32, 110, 101, 116, 119, 111, 114, 107, 32, 97, 99, 99, 101, 115, 115, 32, 109, 111, 100, 101, 10, 9, 110, 97, 109, 95, 99, 115, 9, 9, 66, 79, 79, 76, 69, 65, 78, 32, 78, 79, 84, 32, 78, 85, 76, 76, 32, 68, 69, 70, 65, 85, 76, 84, 32, 49, 44, 10, 9, 110, 97, 109, 95, 112, 115, 9, 9, 66, 79, 79, 76, 69, 65, 78, 32, 78, 79, 84, 32, 78, 85, 76, 76, 32, 68, 69, 70, 65, 85, 76, 84, 32, 49, 44, 10, 9, 45, 45, 32, 67, 104, 97, 112, 116, 101, 114, 32, 50, 46, 49, 46, 56, 10, 9, 108, 109, 115, 105, 9, 9, 73, 78, 84, 69, 71, 69, 82, 44, 10, 9, 45, 45, 32, 84, 104, 101, 32, 98, 101, 108, 111, 119, 32, 112, 117, 114, 103, 101, 100, 32, 102, 108, 97, 103, 115, 32, 109, 105, 103, 104, 116, 32, 110, 111, 116, 32, 101, 118, 101, 110, 32, 98, 101, 32, 115, 116, 111, 114, 101, 100, 32, 110, 111, 110, 45, 118, 111, 108, 97, 116, 105, 108, 101, 44, 10, 9, 45, 45, 32, 114, 101, 102, 101, 114, 32, 116, 111, 32, 84, 83, 32, 50, 51, 46, 48, 49, 50, 32, 67, 104, 97, 112, 116, 101, 114, 32, 51, 46, 54, 46, 49, 46, 52, 10, 9, 45, 45, 32, 67, 104, 97, 112, 116, 101, 114, 32, 50, 46, 55, 46, 53, 10, 9, 109, 115, 95, 112, 117, 114, 103, 101, 100, 95, 99, 115, 9, 66, 79, 79, 76, 69, 65, 78, 32, 78, 79, 84, 32, 78, 85, 76, 76, 32, 68, 69, 70, 65, 85, 76, 84, 32, 48, 44, 10, 9, 45, 45, 32, 67, 104, 97, 112, 116, 101, 114, 32, 50, 46, 55, 46, 54, 10, 9, 109, 115, 95, 112, 117, 114, 103, 101, 100, 95, 112, 115, 9, 66, 79, 79, 76, 69, 65, 78, 32, 78, 79, 84, 32, 78, 85, 76, 76, 32, 68, 69, 70, 65, 85, 76, 84, 32, 48, 44, 10, 9, 45, 45, 32, 84, 105, 109, 101, 115, 116, 97, 109, 112, 32, 111, 102, 32, 108, 97, 115, 116, 32, 108, 111, 99, 97, 116, 105, 111, 110, 32, 117, 112, 100, 97, 116, 101, 32, 115, 101, 101, 110, 32, 102, 114, 111, 109, 32, 115, 117, 98, 115, 99, 114, 105, 98, 101, 114, 10, 9, 45, 45, 32, 84, 104, 101, 32, 118, 97, 108, 117, 101, 32, 105, 115, 32, 97, 32, 115, 116, 114, 105, 110, 103, 32, 119, 104, 105, 99, 104, 32, 101, 110, 99, 111, 100, 101, 115, 32, 97, 32, 85, 84, 67, 32, 116, 105, 109, 101, 115, 116, 97, 109, 112, 32, 105, 110, 32, 103, 114, 97, 110, 117, 108, 97, 114, 105, 116, 121, 32, 111, 102, 32, 115, 101, 99, 111, 110, 100, 115, 46, 10, 9, 108, 97, 115, 116, 95, 108, 117, 95, 115, 101, 101, 110, 32, 84, 73, 77, 69, 83, 84, 65, 77, 80, 32, 100, 101, 102, 97, 117, 108, 116, 32, 78, 85, 76, 76, 44, 10, 9, 108, 97, 115, 116, 95, 108, 117, 95, 115, 101, 101, 110, 95, 112, 115, 32, 84, 73, 77, 69, 83, 84, 65, 77, 80, 32, 100, 101, 102, 97, 117, 108, 116, 32, 78, 85, 76, 76, 44, 10, 9, 45, 45, 32, 87, 104, 101, 110, 32, 97, 32, 76, 85, 32, 119, 97, 115, 32, 114, 101, 99, 101, 105, 118, 101, 100, 32, 118, 105, 97, 32, 97, 32, 112, 114, 111, 120, 121, 44, 32, 116, 104, 97, 116, 32, 112, 114, 111, 120, 121, 39, 115, 32, 104, 108, 114, 95, 110, 117, 109, 98, 101, 114, 32, 105, 115, 32, 115, 116, 111, 114, 101, 100, 32, 104, 101, 114, 101, 44, 10, 9, 45, 45, 32, 119, 104, 105, 108, 101, 32, 118, 108, 114, 95, 110, 117, 109, 98, 101, 114, 32, 114, 101, 102, 108, 101, 99, 116, 115, 32, 116, 104, 101, 32, 77, 83, 67, 32, 111, 110, 32, 116, 104, 101, 32, 102, 97, 114, 32, 115, 105, 100, 101, 32, 111, 102, 32, 116, 104, 97, 116, 32, 112, 114, 111, 120, 121, 46, 10, 9, 118, 108, 114, 95, 118, 105, 97, 95, 112, 114, 111, 120, 121, 9, 86, 65, 82, 67, 72, 65, 82, 44, 10, 9, 115, 103, 115, 110, 95, 118, 105, 97, 95, 112, 114, 111, 120, 121, 9, 86, 65, 82, 67, 72, 65, 82, 10, 41, 10]
/-- CREATE TABLE subscriber ( id INTEGER PRIMARY KEY , imsi VARCHAR ( 15 ) UNIQUE NOT NULL , msisdn VARCHAR ( 15 ) UNIQUE , imeisv VARCHAR , imei VARCHAR ( 14 ) , vlr_number VARCHAR ( 15 ) , msc_number VARCHAR ( 15 ) , sgsn_number VARCHAR ( 15 ) , sgsn_address VARCHAR , ggsn_number VARCHAR ( 15 ) , gmlc_number VARCHAR ( 15 ) , smsc_number VARCHAR ( 15 ) , periodic_lu_tmr INTEGER , periodic_rau_tau_tmr INTEGER , nam_cs BOOLEAN NOT NULL DEFAULT 1 , nam_ps BOOLEAN NOT NULL DEFAULT 1 , lmsi INTEGER , ms_purged_cs BOOLEAN NOT NULL DEFAULT 0 , ms_purged_ps BOOLEAN NOT NULL DEFAULT 0 , last_lu_seen TIMESTAMP default NULL , last_lu_seen_ps TIMESTAMP default NULL , vlr_via_proxy VARCHAR , sgsn_via_proxy VARCHAR ) -/
def t1 : List (List Nat) := [[67, 82, 69, 65, 84, 69], [84, 65, 66, 76, 69], [115, 117, 98, 115, 99, 114, 105, 98, 101, 114], [40], [105, 100], [73, 78, 84, 69, 71, 69, 82], [80, 82, 73, 77, 65, 82, 89], [75, 69, 89], [44], [105, 109, 115, 105], [86, 65, 82, 67, 72, 65, 82], [40], [49, 53], [41], [85, 78, 73, 81, 85, 69], [78, 79, 84], [78, 85, 76, 76], [44], [109, 115, 105, 115, 100, 110], [86, 65, 82, 67, 72, 65, 82], [40], [49, 53], [41], [85, 78, 73, 81, 85, 69], [44], [105, 109, 101, 105, 115, 118], [86, 65, 82, 67, 72, 65, 82], [44], [105, 109, 101, 105], [86, 65, 82, 67, 72, 65, 82], [40], [49, 52], [41], [44], [118, 108, 114, 95, 110, 117, 109, 98, 101, 114], [86, 65, 82, 67, 72, 65, 82], [40], [49, 53], [41], [44], [109, 115, 99, 95, 110, 117, 109, 98, 101, 114], [86, 65, 82, 67, 72, 65, 82], [40], [49, 53], [41], [44], [115, 103, 115, 110, 95, 110, 117, 109, 98, 101, 114], [86, 65, 82, 67, 72, 65, 82], [40], [49, 53], [41], [44], [115, 103, 115, 110, 95, 97, 100, 100, 114, 101, 115, 115], [86, 65, 82, 67, 72, 65, 82], [44], [103, 103, 115, 110, 95, 110, 117, 109, 98, 101, 114], [86, 65, 82, 67, 72, 65, 82], [40], [49, 53], [41], [44], [103, 109, 108, 99, 95, 110, 117, 109, 98, 101, 114], [86, 65, 82, 67, 72, 65, 82], [40], [49, 53], [41], [44], [115, 109, 115, 99, 95, 110, 117, 109, 98, 101, 114], [86, 65, 82, 67, 72, 65, 82], [40], [49, 53], [41], [44], [112, 101, 114, 105, 111, 100, 105, 99, 95, 108, 117, 95, 116, 109, 114], [73, 78, 84, 69, 71, 69, 82], [44], [112, 101, 114, 105, 111, 100, 105, 99, 95, 114, 97, 117, 95, 116, 97, 117, 95, 116, 109, 114], [73, 78, 84, 69, 71, 69, 82], [44], [110, 97, 109, 95, 99, 115], [66, 79, 79, 76, 69, 65, 78], [78, 79, 84], [78, 85, 76, 76], [68, 69, 70, 65, 85, 76, 84], [49], [44], [110, 97, 109, 95, 112, 115], [66, 79, 79, 76, 69, 65, 78], [78, 79, 84], [78, 85, 76, 76], [68, 69, 70, 65, 85, 76, 84], [49], [44], [108, 109, 115, 105], [73, 78, 84, 69, 71, 69, 82], [44], [109, 115, 95, 112, 117, 114, 103, 101, 100, 95, 99, 115], [66, 79, 79, 76, 69, 65, 78], [78, 79, 84], [78, 85, 76, 76], [68, 69, 70, 65, 85, 76, 84], [48], [44], [109, 115, 95, 112, 117, 114, 103, 101, 100, 95, 112, 115], [66, 79, 79, 76, 69, 65, 78], [78, 79, 84], [78, 85, 76, 76], [68, 69, 70, 65, 85, 76, 84], [48], [44], [108, 97, 115, 116, 95, 108, 117, 95, 115, 101, 101, 110], [84, 73, 77, 69, 83, 84, 65, 77, 80], [100, 101, 102, 97, 117, 108, 116], [78, 85, 76, 76], [44], [108, 97, 115, 116, 95, 108, 117, 95, 115, 101, 101, 110, 95, 112, 115], [84, 73, 77, 69, 83, 84, 65, 77, 80], [100, 101, 102, 97, 117, 108, 116], [78, 85, 76, 76], [44], [118, 108, 114, 95, 118, 105, 97, 95, 112, 114, 111, 120, 121], [86, 65, 82, 67, 72, 65, 82], [44], [115, 103, 115, 110, 95, 118, 105, 97, 95, 112, 114, 111, 120, 121], [86, 65, 82, 67, 72, 65, 82], [41]]
/-- The codes of the characters of statement 2. -/
def s2 : List Nat := [67, 82, 69, 65, 84, 69, 32, 84, 65, 66, 76, 69, 32, 115, 117, 98, 115, 99, 114, 105, 98, 101, 114, 95, 97, 112, 110, 32, 40, 10, 9, 115, 117, 98, 115, 99, 114, 105, 98, 101, 114, 95, 105, 100, 9, 73, 78, 84, 69, 71, 69, 82, 44, 9, 9, 45, 45, 32, 115, 117, 98, 115, 99, 114, 105, 98, 101, 114, 46, 105, 100, 10, 9, 97, 112, 110, 9, 9, 86, 65, 82, 67, 72, 65, 82, 40, 50, 53, 54, 41, 32, 78, 79, 84, 32, 78, 85, 76, 76, 10, 41, 10]
/-- CREATE TABLE subscriber_apn ( subscriber_id INTEGER , apn VARCHAR ( 256 ) NOT NULL ) -/
def t2 : List (List Nat) := [[67, 82, 69, 65, 84, 69], [84, 65, 66, 76, 69], [115, 117, 98, 115, 99, 114, 105, 98, 101, 114, 95, 97, 112, 110], [40], [115, 117, 98, 115, 99, 114, 105, 98, 101, 114, 95, 105, 100], [73, 78, 84, 69, 71, 69, 82], [44], [97, 112, 110], [86, 65, 82, 67, 72, 65, 82], [40], [50, 53, 54], [41], [78, 79, 84], [78, 85, 76, 76], [41]]
/-- The codes of the characters of statement 3. -/
def s3 : List Nat := [67, 82, 69, 65, 84, 69, 32, 84, 65, 66, 76, 69, 32, 115, 117, 98, 115, 99, 114, 105, 98, 101, 114, 95, 109, 117, 108, 116, 105, 95, 109, 115, 105, 115, 100, 110, 32, 40, 10, 45, 45, 32, 67, 104, 97, 112, 116, 101, 114, 32, 50, 46, 49, 46, 51, 10, 9, 115, 117, 98, 115, 99, 114, 105, 98, 101, 114, 95, 105, 100, 9, 73, 78, 84, 69, 71, 69, 82, 44, 9, 9, 45, 45, 32, 115, 117, 98, 115, 99, 114, 105, 98, 101, 114, 46, 105, 100, 10, 9, 109, 115, 105, 115, 100, 110, 9, 9, 86, 65, 82, 67, 72, 65, 82, 40, 49, 53, 41, 32, 78, 79, 84, 32, 78, 85, 76, 76, 10, 41, 10]
/-- CREATE TABLE subscriber_multi_msisdn ( subscriber_id INTEGER , msisdn VARCHAR ( 15 ) NOT NULL ) -/
def t3 : List (List Nat) := [[67, 82, 69, 65, 84, 69], [84, 65, 66, 76, 69], [115, 117, 98, 115, 99, 114, 105, 98, 101, 114, 95, 109, 117, 108, 116, 105, 95, 109, 115, 105, 115, 100, 110], [40], [115, 117, 98, 115, 99, 114, 105, 98, 101, 114, 95, 105, 100], [73, 78, 84, 69, 71, 69, 82], [44], [109, 115, 105, 115, 100, 110], [86, 65, 82, 67, 72, 65, 82], [40], [49, 53], [41], [78, 79, 84], [78, 85, 76, 76], [41]]
/-- The codes of the characters of statement 4. -/
def s4 : List Nat := [67, 82, 69, 65, 84, 69, 32, 84, 65, 66, 76, 69, 32, 97, 117, 99, 95, 50, 103, 32, 40, 10, 9, 115, 117, 98, 115, 99, 114, 105, 98, 101, 114, 95, 105, 100, 9, 73, 78, 84, 69, 71, 69, 82, 32, 80, 82, 73, 77, 65, 82, 89, 32, 75, 69, 89, 44, 9, 45, 45, 32, 115, 117, 98, 115, 99, 114, 105, 98, 101, 114, 46, 105, 100, 10, 9, 97, 108, 103, 111, 95, 105, 100, 95, 50, 103, 9, 73, 78, 84, 69, 71, 69, 82, 32, 78, 79, 84, 32, 78, 85, 76, 76, 44, 9, 45, 45, 32, 101, 110, 117, 109, 32, 111, 115, 109, 111, 95, 97, 117, 116, 104, 95, 97, 108, 103, 111, 32, 118, 97, 108, 117, 101, 10, 9, 107, 105, 9, 9, 86, 65, 82, 67, 72, 65, 82, 40, 51, 50, 41, 32, 78, 79, 84, 32, 78, 85, 76, 76, 9, 45, 45, 32, 104, 101, 120, 32, 115, 116, 114, 105, 110, 103, 58, 32, 115, 117, 98, 115, 99, 114, 105, 98, 101, 114, 39, 115, 32, 115, 101, 99, 114, 101, 116, 32, 107, 101, 121, 32, 40, 49, 50, 56, 98, 105, 116, 41, 10, 41, 10]
/-- CREATE TABLE auc_2g ( subscriber_id INTEGER PRIMARY KEY , algo_id_2g INTEGER NOT NULL , ki VARCHAR ( 32 ) NOT NULL ) -/
def t4 : List (List Nat) := [[67, 82, 69, 65, 84, 69], [84, 65, 66, 76, 69], [97, 117, 99, 95, 50, 103], [40], [115, 117, 98, 115, 99, 114, 105, 98, 101, 114, 95, 105, 100], [73, 78, 84, 69, 71, 69, 82], [80, 82, 73, 77, 65, 82, 89], [75, 69, 89], [44], [97, 108, 103, 111, 95, 105, 100, 95, 50, 103], [73, 78, 84, 69, 71, 69, 82], [78, 79, 84], [78, 85, 76, 76], [44], [107, 105], [86, 65, 82, 67, 72, 65, 82], [40], [51, 50], [41], [78, 79, 84], [78, 85, 76, 76], [41]]
/-- The codes of the characters of statement 5. -/
def s5 : List Nat := [67, 82, 69, 65, 84, 69, 32, 84, 65, 66, 76, 69, 32, 97, 117, 99, 95, 51, 103, 32, 40, 10, 9, 115, 117, 98, 115, 99, 114, 105, 98, 101, 114, 95, 105, 100, 9, 73, 78, 84, 69, 71, 69, 82, 32, 80, 82, 73, 77, 65, 82, 89, 32, 75, 69, 89, 44, 9, 45, 45, 32, 115, 117, 98, 115, 99, 114, 105, 98, 101, 114, 46, 105, 100, 10, 9, 97, 108, 103, 111, 95, 105, 100, 95, 51, 103, 9, 73, 78, 84, 69, 71, 69, 82, 32, 78, 79, 84, 32, 78, 85, 76, 76, 44, 9, 45, 45, 32, 101, 110, 117, 109, 32, 111, 115, 109, 111, 95, 97, 117, 116, 104, 95, 97, 108, 103, 111, 32, 118, 97, 108, 117, 101, 10, 9, 107, 9, 9, 86, 65, 82, 67, 72, 65, 82, 40, 54, 52, 41, 32, 78, 79, 84, 32, 78, 85, 76, 76, 44, 9, 45, 45, 32, 104, 101, 120, 32, 115, 116, 114, 105, 110, 103, 58, 32, 115, 117, 98, 115, 99, 114, 105, 98, 101, 114, 39, 115, 32, 115, 101, 99, 114, 101, 116, 32, 107, 101, 121, 32, 40, 49, 50, 56, 47, 50, 53, 54, 98, 105, 116, 41, 10, 9, 111, 112, 9, 9, 86, 65, 82, 67, 72, 65, 82, 40, 54, 52, 41, 44, 9, 9, 45, 45, 32, 104, 101, 120, 32, 115, 116, 114, 105, 110, 103, 58, 32, 111, 112, 101, 114, 97, 116, 111, 114, 39, 115, 32, 115, 101, 99, 114, 101, 116, 32, 107, 101, 121, 32, 40, 49, 50, 56, 47, 50, 53, 54, 98, 105, 116, 41, 10, 9, 111, 112, 99, 9, 9, 86, 65, 82, 67, 72, 65, 82, 40, 54, 52, 41, 44, 9, 9, 45, 45, 32, 104, 101, 120, 32, 115, 116, 114, 105, 110, 103, 58, 32, 100, 101, 114, 105, 118, 101, 100, 32, 102, 114, 111, 109, 32, 79, 80, 32, 97, 110, 100, 32, 75, 32, 40, 49, 50, 56, 47, 50, 53, 54, 98, 105, 116, 41, 10, 9, 115, 113, 110, 9, 9, 73, 78, 84, 69, 71, 69, 82, 32, 78, 79, 84, 32, 78, 85, 76, 76, 32, 68, 69, 70, 65, 85, 76, 84, 32, 48, 44, 9, 45, 45, 32, 115, 101, 113, 117, 101, 110, 99, 101, 32, 110, 117, 109, 98, 101, 114, 32, 111, 102, 32, 107, 101, 121, 32, 117, 115, 97, 103, 101, 10, 9, 45, 45, 32, 110, 114, 32, 111, 102, 32, 105, 110, 100, 101, 120, 32, 98, 105, 116, 115, 32, 97, 116, 32, 108, 111, 119, 101, 114, 32, 83, 81, 78, 32, 101, 110, 100, 10, 9, 105, 110, 100, 95, 98, 105, 116, 108, 101, 110, 9, 73, 78, 84, 69, 71, 69, 82, 32, 78, 79, 84, 32, 78, 85, 76, 76, 32, 68, 69, 70, 65, 85, 76, 84, 32, 53, 10, 41, 10]
/-- CREATE TABLE auc_3g ( subscriber_id INTEGER PRIMARY KEY , algo_id_3g INTEGER NOT NULL , k VARCHAR ( 64 ) NOT NULL , op VARCHAR ( 64 ) , opc VARCHAR ( 64 ) , sqn INTEGER NOT NULL DEFAULT 0 , ind_bitlen INTEGER NOT NULL DEFAULT 5 ) -/
def t5 : List (List Nat) := [[67, 82, 69, 65, 84, 69], [84, 65, 66, 76, 69], [97, 117, 99, 95, 51, 103], [40], [115, 117, 98, 115, 99, 114, 105, 98, 101, 114, 95, 105, 100], [73, 78, 84, 69, 71, 69, 82], [80, 82, 73, 77, 65, 82, 89], [75, 69, 89], [44], [97, 108, 103, 111, 95, 105, 100, 95, 51, 103], [73, 78, 84, 69, 71, 69, 82], [78, 79, 84], [78, 85, 76, 76], [44], [107], [86, 65, 82, 67, 72, 65, 82], [40], [54, 52], [41], [78, 79, 84], [78, 85, 76, 76], [44], [111, 112], [86, 65, 82, 67, 72, 65, 82], [40], [54, 52], [41], [44], [111, 112, 99], [86, 65, 82, 67, 72, 65, 82], [40], [54, 52], [41], [44], [115, 113, 110], [73, 78, 84, 69, 71, 69, 82], [78, 79, 84], [78, 85, 76, 76], [68, 69, 70, 65, 85, 76, 84], [48], [44], [105, 110, 100, 95, 98, 105, 116, 108, 101, 110], [73, 78, 84, 69, 71, 69, 82], [78, 79, 84], [78, 85, 76, 76], [68, 69, 70, 65, 85, 76, 84], [53], [41]]
/-- The codes of the characters of statement 6. -/
def s6 : List Nat := [67, 82, 69, 65, 84, 69, 32, 84, 65, 66, 76, 69, 32, 105, 110, 100, 32, 40, 10, 9, 45, 45, 32, 51, 71, 32, 97, 117, 116, 104, 32, 73, 78, 68, 32, 112, 111, 111, 108, 32, 116, 111, 32, 98, 101, 32, 117, 115, 101, 100, 32, 102, 111, 114, 32, 116, 104, 105, 115, 32, 86, 76, 82, 10, 9, 105, 110, 100, 32, 32, 32, 32, 32, 73, 78, 84, 69, 71, 69, 82, 32, 80, 82, 73, 77, 65, 82, 89, 32, 75, 69, 89, 44, 10, 9, 45, 45, 32, 86, 76, 82, 32, 105, 100, 101, 110, 116, 105, 102, 105, 99, 97, 116, 105, 111, 110, 44, 32, 117, 115, 117, 97, 108, 108, 121, 32, 116, 104, 101, 32, 71, 83, 85, 80, 32, 115, 111, 117, 114, 99, 101, 95, 110, 97, 109, 101, 10, 9, 118, 108, 114, 32, 32, 32, 32, 32, 84, 69, 88, 84, 32, 78, 79, 84, 32, 78, 85, 76, 76, 44, 10, 9, 85, 78, 73, 81, 85, 69, 32, 40, 118, 108, 114, 41, 10, 41, 10]
/-- CREATE TABLE ind ( ind INTEGER PRIMARY KEY , vlr TEXT NOT NULL , UNIQUE ( vlr ) ) -/
def t6 : List (List Nat) := [[67, 82, 69, 65, 84, 69], [84, 65, 66, 76, 69], [105, 110, 100], [40], [105, 110, 100], [73, 78, 84, 69, 71, 69, 82], [80, 82, 73, 77, 65, 82, 89], [75, 69, 89], [44], [118, 108, 114], [84, 69, 88, 84], [78, 79, 84], [78, 85, 76, 76], [44], [85, 78, 73, 81, 85, 69], [40], [118, 108, 114], [41], [41]]
/-- The codes of the characters of statement 7. -/
def s7 : List Nat := [67, 82, 69, 65, 84, 69, 32, 85, 78, 73, 81, 85, 69, 32, 73, 78, 68, 69, 88, 32, 105, 100, 120, 95, 115, 117, 98, 115, 99, 114, 95, 105, 109, 115, 105, 32, 79, 78, 32, 115, 117, 98, 115, 99, 114, 105, 98, 101, 114, 32, 40, 105, 109, 115, 105, 41, 10]
/-- CREATE UNIQUE INDEX idx_subscr_imsi ON subscriber ( imsi ) -/
def t7 : List (List Nat) := [[67, 82, 69, 65, 84, 69], [85, 78, 73, 81, 85, 69], [73, 78, 68, 69, 88], [105, 100, 120, 95, 115, 117, 98, 115, 99, 114, 95, 105, 109, 115, 105], [79, 78], [115, 117, 98, 115, 99, 114, 105, 98, 101, 114], [40], [105, 109, 115, 105], [41]]
/-- The codes of the characters of statement 8. -/
def s8 : List Nat := [45, 45, 32, 83, 101, 116, 32, 72, 76, 82, 32, 100, 97, 116, 97, 98, 97, 115, 101, 32, 115, 99, 104, 101, 109, 97, 32, 118, 101, 114, 115, 105, 111, 110, 32, 110, 117, 109, 98, 101, 114, 10, 45, 45, 32, 78, 111, 116, 101, 58, 32, 84, 104, 105, 115, 32, 99, 111, 110, 115, 116, 97, 110, 116, 32, 105, 115, 32, 99, 117, 114, 114, 101, 110, 116, 108, 121, 32, 100, 117, 112, 108, 105, 99, 97, 116, 101, 100, 32, 105, 110, 32, 115, 114, 99, 47, 100, 98, 46, 99, 32, 97, 110, 100, 32, 109, 117, 115, 116, 32, 98, 101, 32, 107, 101, 112, 116, 32, 105, 110, 32, 115, 121, 110, 99, 33, 10, 80, 82, 65, 71, 77, 65, 32, 117, 115, 101, 114, 95, 118, 101, 114, 115, 105, 111, 110, 32, 61, 32, 55, 10]
/-- PRAGMA user_version = 7 -/
def t8 : List (List Nat) := [[80, 82, 65, 71, 77, 65], [117, 115, 101, 114, 95, 118, 101, 114, 115, 105, 111, 110], [61], [55]]

theorem split_hlr : split none hlrSql = [s1, s2, s3, s4, s5, s6, s7, s8].map bytes := by decide +kernel

theorem stmts_hlr : stmts hlrSql = some ([s1, s2, s3, s4, s5, s6, s7, s8].map bytes) := by
  have h := compile_split hlrSql hlrSql_wf.plain hlrSql_wf.single none []
  rw [split_hlr, List.nil_append] at h
  exact h

theorem toks1 : toks false [] (bytes s1) = t1.map bytes := by decide +kernel
theorem toks2 : toks false [] (bytes s2) = t2.map bytes := by decide +kernel
theorem toks3 : toks false [] (bytes s3) = t3.map bytes := by decide +kernel
theorem toks4 : toks false [] (bytes s4) = t4.map bytes := by decide +kernel
theorem toks5 : toks false [] (bytes s5) = t5.map bytes := by decide +kernel
theorem toks6 : toks false [] (bytes s6) = t6.map bytes := by decide +kernel
theorem toks7 : toks false [] (bytes s7) = t7.map bytes := by decide +kernel
theorem toks8 : toks false [] (bytes s8) = t8.map bytes := by decide +kernel
theorem read1 : readToks (t1.map bytes) = some (.create false .subscriber subscrV7) := by decide +kernel
theorem read2 : readToks (t2.map bytes) = some (.create false .subscriberApn apnCols) := by decide +kernel
theorem read3 : readToks (t3.map bytes) = some (.create false .subscriberMultiMsisdn multiMsisdnCols) := by decide +kernel
theorem read4 : readToks (t4.map bytes) = some (.create false .auc2g auc2gCols) := by decide +kernel
theorem read5 : readToks (t5.map bytes) = some (.create false .auc3g auc3gCols) := by decide +kernel
theorem read6 : readToks (t6.map bytes) = some (.create false .ind indCols) := by decide +kernel
theorem read7 : readToks (t7.map bytes) = some (.createIdx) := by decide +kernel
theorem read8 : readToks (t8.map bytes) = some (.pragma 7) := by decide +kernel

/-- The file of the project, after the script and the compiler, is read by SQLite as the program of `DbOpen`. -/
theorem bootstrap_read : (stmts hlrSql).bind readAll = some bootstrap := by
  rw [stmts_hlr]
  simp only [Option.bind_some, List.map_cons, List.map_nil, readAll, read, toks1, toks2, toks3, toks4, toks5, toks6, toks7, toks8,
    read1, read2, read3, read4, read5, read6, read7, read8, Option.map_some, bootstrap]

/-- **C88.** From the SQL file to the database: the statements of the file get into the program as they are, and running them on an empty database file
gives the tables, columns and constraints of version 7, without rows. -/
theorem c88_new_database : ∃ ss prog, stmts hlrSql = some ss ∧ Spec.Statements hlrSql ss ∧ readAll ss = some prog
    ∧ ∀ f, Empty f → ∃ f', runAll prog { durable := f } = some { durable := f' } ∧ Layout 7 f' ∧ f'.idx = true
      ∧ ∀ t x, f'.tables t = some x → x.rows = [] := by
  obtain ⟨ss, h1, h2⟩ := c88_statements_partial hlrSql hlrSql_wf
  have h3 := bootstrap_read
  rw [h1] at h3
  refine ⟨ss, bootstrap, h1, h2, h3, fun f hf => ?_⟩
  obtain ⟨f', a, b, c, d, -⟩ := bootstrap_empty hf
  exact ⟨f', a, b, c, d⟩

/-- There is an empty file. -/
example : Empty {} := ⟨rfl, rfl, fun _ => rfl⟩

/-- The reader does tell statements apart: a missing NOT NULL, another version, an unknown word. -/
example : read (b "CREATE TABLE ind (ind INTEGER PRIMARY KEY, vlr TEXT, UNIQUE (vlr))\n")
      = some (.create false .ind [key .ind, { name := .vlr, uniq := true }])
    ∧ read (b "PRAGMA user_version = 6\n") = some (.pragma 6) ∧ read (b "DROP TABLE ind\n") = none := by decide +kernel

end Verif.Sql2c
