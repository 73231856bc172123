import Verif.DbOpen.Model
/-!
# Specification for C18–C20

What a database of schema version 0 … 7 looks like, what "keeps the data" means, and
when a file can never be opened again.  Nothing here refers to the upgrade
statements.
-/
namespace Verif.DbOpen

/-- Columns of table subscriber in a version `k` database, as documented in
sql/hlr.sql and tests/db_upgrade (order does not matter). -/
def subscriberCols (k : Nat) : List Col :=
  [key .id, key .imsi, { name := .msisdn, uniq := true }, pl .imeisv, pl .vlrNumber,
   pl (if k < 3 then .hlrNumber else .mscNumber), pl .sgsnNumber, pl .sgsnAddress,
   pl .ggsnNumber, pl .gmlcNumber, pl .smscNumber, pl .periodicLuTmr, pl .periodicRauTauTmr,
   nn .namCs, nn .namPs, pl .lmsi, nn .msPurgedCs, nn .msPurgedPs]
  ++ (if 1 ≤ k then [pl .lastLuSeen] else [])
  ++ (if 2 ≤ k then [pl .imei] else [])
  ++ (if 4 ≤ k then [pl .lastLuSeenPs] else [])
  ++ (if 5 ≤ k then [pl .vlrViaProxy, pl .sgsnViaProxy] else [])

/-- Tables of a version `k` database. -/
def schema (k : Nat) : T → Option (List Col)
  | .subscriber => some (subscriberCols k)
  | .subscriberApn => some [pl .subscriberId, nn .apn]
  | .subscriberMultiMsisdn => some [pl .subscriberId, nn .msisdn]
  | .auc2g => some [key .subscriberId, nn .algoId2g, nn .ki]
  | .auc3g => some [key .subscriberId, nn .algoId3g, nn .k, pl .op, pl .opc, nn .sqn, nn .indBitlen]
  | .ind => if 6 ≤ k then some [key .ind, key .vlr] else none
  | .subscriberBackup => none
  | .oldAuc3g => none

/-- A table has the given columns, complete rows, and meets its constraints. -/
structure TabOk (cols : List Col) (x : Table) : Prop where
  perm : x.cols.Perm cols
  arity : ∀ r ∈ x.rows, r.length = x.cols.length
  ok : ∀ col ∈ cols, colOk col (x.values col.name)

/-- The tables are exactly those of a schema. -/
def TabsOk (sch : T → Option (List Col)) (ts : T → Option Table) : Prop :=
  ∀ t, (sch t = none → ts t = none) ∧
    ∀ cols, sch t = some cols → ∃ x, ts t = some x ∧ TabOk cols x

/-- A sound database of schema version `k`, with any content. -/
def Layout (k : Nat) (f : File) : Prop := f.version = k ∧ TabsOk (schema k) f.tables

/-- An empty database file. -/
def Empty (f : File) : Prop := f.version = 0 ∧ f.idx = false ∧ ∀ t, f.tables t = none

/-- The values of column `c` of table `t`, row by row, if there is such a column. -/
def column (f : File) (t : T) (c : Cn) : Option (List Val) :=
  (f.tables t).bind (fun x => if x.cols.any (·.name == c) then some (x.values c) else none)

/-- `f'` has all the data of `f`: every column of every table has the same values row
by row (hlr_number may have been renamed msc_number), and columns `f` does not have
are NULL throughout (again apart from these two names). -/
structure Keeps (f f' : File) : Prop where
  old : ∀ t c vs, column f t c = some vs →
    column f' t c = some vs ∨
      (t = .subscriber ∧ c = .hlrNumber ∧ column f' .subscriber .mscNumber = some vs)
  new : ∀ t c vs, column f t c = none → column f' t c = some vs →
    (t = .subscriber ∧ (c = .mscNumber ∨ c = .hlrNumber)) ∨ ∀ v ∈ vs, v = .null

/-- The file can never be opened again, whatever happens. -/
def Stuck (f : File) : Prop :=
  ∀ allow s, (dbOpen allow f s).1 ≠ .opened ∧ (dbOpen allow f s).2 = f

/-- The tables are already those of version `k`, the version number still says
`k - 1`.  In the step to version 5, only one of the two new columns may be there. -/
def Between (k : Nat) (f : File) : Prop :=
  1 ≤ k ∧ k ≤ 6 ∧ f.version + 1 = k ∧
    (TabsOk (schema k) f.tables ∨
      (k = 5 ∧ TabsOk (fun t => if t = .subscriber
        then some (subscriberCols 4 ++ [pl .vlrViaProxy]) else schema 4 t) f.tables))

end Verif.DbOpen
