import Verif.Base
/-!
# The HLR database: tables, SQL statements, and the functions of `db_hlr.c`

The database is four tables (sql/hlr.sql).  Every function of `src/db_hlr.c` is a
program over atomic SQL statements.  A `Script` decides the fate of each
statement: it is executed (`ok`), it fails without effect (`ioerr`), or the
process dies before executing it (`crash`).
-/
namespace Verif.Db
open Verif

/-! ## Tables -/

/-- Row of table `subscriber` (sql/hlr.sql 1-52), restricted to the columns the
code reads or writes.  `imeisv`, `msc_number`, `sgsn_address`, `ggsn_number`,
`gmlc_number`, `smsc_number`, the periodic timers and `lmsi` are never written by
the code and are left out.  Timestamps are seconds since the epoch instead of the
`datetime()` text.  (`tables subscriber_apn`, `subscriber_multi_msisdn` unused.) -/
structure SubRow where
  id : Int
  imsi : Bytes
  msisdn : Option Bytes := none
  imei : Option Bytes := none
  vlr : Option Bytes := none
  sgsn : Option Bytes := none
  namCs : Bool := true
  namPs : Bool := true
  purgedCs : Bool := false
  purgedPs : Bool := false
  lastLu : Option Int := none
  lastLuPs : Option Int := none
  vlrViaProxy : Option Bytes := none
  sgsnViaProxy : Option Bytes := none
deriving DecidableEq, Repr

/-- libosmocore `enum osmo_auth_algo` (crypt/auth.h). -/
inductive Algo where
  | none | comp128v1 | comp128v2 | comp128v3 | xor3g | milenage | xor2g | tuak
  | other (n : Nat)
deriving DecidableEq, Repr

/-- Row of table `auc_2g` (sql/hlr.sql 65-69). -/
structure Auc2 where
  id : Int
  algo : Algo
  ki : Bytes
deriving DecidableEq, Repr

/-- Row of table `auc_3g` (sql/hlr.sql 71-80). -/
structure Auc3 where
  id : Int
  algo : Algo
  k : Bytes
  op : Option Bytes
  opc : Option Bytes
  sqn : Nat := 0
  indBitlen : Nat := 5
deriving DecidableEq, Repr

/-- Row of table `ind` (sql/hlr.sql 82-88). -/
structure IndRow where
  ind : Nat
  vlr : Bytes
deriving DecidableEq, Repr

/-- The database file. -/
structure Db where
  subs : List SubRow := []
  auc2 : List Auc2 := []
  auc3 : List Auc3 := []
  inds : List IndRow := []
deriving DecidableEq, Repr

/-! ## Statement execution with failures and crashes -/

/-- Fate of one SQL statement. -/
inductive Fault where
  | ok | ioerr | crash
deriving DecidableEq, Repr

/-- Fates of the statements to come; an exhausted script means everything works. -/
abbrev Script := List Fault

/-- Database plus the remaining script. -/
structure World where
  db : Db
  script : Script := []
deriving DecidableEq, Repr

/-- A database program: returns `none` if the process died on the way. -/
def DbM (α : Type) := World → Option α × World

def DbM.pure (a : α) : DbM α := fun w => (some a, w)

def DbM.bind (m : DbM α) (f : α → DbM β) : DbM β := fun w =>
  match m w with
  | (some a, w') => f a w'
  | (none, w') => (none, w')

instance : Monad DbM where
  pure := DbM.pure
  bind := DbM.bind

/-- Execute one atomic SQL statement `f`; `err` is what the caller sees when the
statement fails. -/
def stmt (f : Db → α × Db) (err : α) : DbM α := fun w =>
  match w.script with
  | [] => (some (f w.db).1, { db := (f w.db).2, script := [] })
  | .ok :: s => (some (f w.db).1, { db := (f w.db).2, script := s })
  | .ioerr :: s => (some err, { db := w.db, script := s })
  | .crash :: s => (none, { db := w.db, script := s })

/-- Result of an INSERT/UPDATE/DELETE: `SQLITE_DONE` with the number of changed
rows (`sqlite3_changes()`), `SQLITE_CONSTRAINT_UNIQUE` (or `_PRIMARYKEY`), or
another error. -/
inductive WRes where
  | done (changes : Nat)
  | unique
  | error
deriving DecidableEq, Repr

/-- Result of a SELECT: `SQLITE_ROW`, `SQLITE_DONE`, or an error. -/
inductive RRes (α : Type) where
  | row (a : α)
  | done
  | error
deriving DecidableEq, Repr

/-! ## The SQL statements (src/db.c 53-99) -/

/-- SQLite: an `INTEGER PRIMARY KEY` left out of an INSERT gets the largest
existing id plus one (1 for an empty table).  The behaviour at 2^63-1 is not
modelled. -/
def newId (ids : List Int) : Int := ids.foldl max 0 + 1

/-- DB_STMT_SUBSCR_CREATE (db.c 80).  UNIQUE(imsi) from hlr.sql 5. -/
def sqlCreate (imsi : Bytes) (cs ps : Bool) (d : Db) : WRes × Db :=
  if d.subs.any (·.imsi == imsi) then (.unique, d)
  else (.done 1, { d with subs := d.subs ++
    [{ id := newId (d.subs.map (·.id)), imsi := imsi, namCs := cs, namPs := ps }] })

/-- DB_STMT_DEL_BY_ID (db.c 81). -/
def sqlDelById (id : Int) (d : Db) : WRes × Db :=
  (.done (d.subs.countP (·.id == id)), { d with subs := d.subs.filter (·.id != id) })

/-- UPDATE subscriber SET … WHERE cond; every matching row counts as changed. -/
def sqlUpdSub (cond : SubRow → Bool) (f : SubRow → SubRow) (d : Db) : WRes × Db :=
  (.done (d.subs.countP cond),
   { d with subs := d.subs.map (fun r => if cond r then f r else r) })

/-- DB_STMT_SET_MSISDN_BY_IMSI (db.c 82).  UNIQUE(msisdn) from hlr.sql 7: the
statement fails if another row owns the number. -/
def sqlSetMsisdn (imsi msisdn : Bytes) (d : Db) : WRes × Db :=
  if d.subs.any (·.imsi == imsi)
      && d.subs.any (fun r => r.imsi != imsi && r.msisdn == some msisdn) then (.unique, d)
  else sqlUpdSub (·.imsi == imsi) (fun r => { r with msisdn := some msisdn }) d

/-- DB_STMT_DELETE_MSISDN_BY_IMSI (db.c 83). -/
def sqlDelMsisdn (imsi : Bytes) : Db → WRes × Db :=
  sqlUpdSub (·.imsi == imsi) (fun r => { r with msisdn := none })

/-- DB_STMT_AUC_2G_DELETE (db.c 87). -/
def sqlDelAuc2 (id : Int) (d : Db) : WRes × Db :=
  (.done (d.auc2.countP (·.id == id)), { d with auc2 := d.auc2.filter (·.id != id) })

/-- DB_STMT_AUC_3G_DELETE (db.c 91). -/
def sqlDelAuc3 (id : Int) (d : Db) : WRes × Db :=
  (.done (d.auc3.countP (·.id == id)), { d with auc3 := d.auc3.filter (·.id != id) })

/-- DB_STMT_AUC_2G_INSERT (db.c 84-86); `subscriber_id` is the primary key. -/
def sqlInsAuc2 (r : Auc2) (d : Db) : WRes × Db :=
  if d.auc2.any (·.id == r.id) then (.unique, d)
  else (.done 1, { d with auc2 := d.auc2 ++ [r] })

/-- DB_STMT_AUC_3G_INSERT (db.c 88-90); `sqn` takes its default 0. -/
def sqlInsAuc3 (r : Auc3) (d : Db) : WRes × Db :=
  if d.auc3.any (·.id == r.id) then (.unique, d)
  else (.done 1, { d with auc3 := d.auc3 ++ [r] })

/-- DB_STMT_AUC_UPD_SQN (db.c 75). -/
def sqlUpdSqn (id : Int) (sqn : Nat) (d : Db) : WRes × Db :=
  (.done (d.auc3.countP (·.id == id)),
   { d with auc3 := d.auc3.map (fun r => if r.id == id then { r with sqn := sqn } else r) })

/-- DB_STMT_IND_ADD (db.c 96): PRIMARY KEY auto-assigned, UNIQUE(vlr). -/
def sqlIndAdd (vlr : Bytes) (d : Db) : WRes × Db :=
  if d.inds.any (·.vlr == vlr) then (.unique, d)
  else (.done 1, { d with inds := d.inds ++
    [{ ind := (d.inds.map (·.ind)).foldl max 0 + 1, vlr := vlr }] })

/-- DB_STMT_IND_DEL (db.c 98). -/
def sqlIndDel (vlr : Bytes) (d : Db) : WRes × Db :=
  (.done (d.inds.countP (·.vlr == vlr)), { d with inds := d.inds.filter (·.vlr != vlr) })

/-- SELECT … FROM subscriber WHERE cond, first row (db.c 62-65, 94-95). -/
def sqlSel (cond : SubRow → Bool) (d : Db) : RRes SubRow × Db :=
  (match d.subs.find? cond with | some r => .row r | none => .done, d)

/-- DB_STMT_IND_SELECT (db.c 97). -/
def sqlIndSel (vlr : Bytes) (d : Db) : RRes Nat × Db :=
  (match d.inds.find? (·.vlr == vlr) with | some r => .row r.ind | none => .done, d)

/-! ## The functions of src/db_hlr.c

A failing `db_bind_*` returns `-EIO` before the statement is executed, exactly
like a failing statement; both are represented by the `ioerr` fate. -/

/-- db_subscr_create (db_hlr.c 51-83); `nam_cs`/`nam_ps` are the two bits of
`flags`. -/
def subscrCreate (imsi : Bytes) (cs ps : Bool) : DbM Int :=
  if !imsiValid imsi then pure (-EINVAL)
  else do
    match ← stmt (sqlCreate imsi cs ps) .error with
    | .done _ => pure 0
    | .unique => pure (-EEXIST)
    | .error => pure (-EIO)

/-- The common tail "verify execution result" of the UPDATE functions:
0 rows -> -ENOENT, 1 row -> 0, else -EIO; a failed statement -> -EIO. -/
def updRc : WRes → Int
  | .done 0 => -ENOENT
  | .done 1 => 0
  | .done _ => -EIO
  | .unique => -EIO
  | .error => -EIO

/-- db_subscr_update_msisdn_by_imsi (db_hlr.c 157-206); `none` is NULL. -/
def updateMsisdn (imsi : Bytes) (msisdn : Option Bytes) : DbM Int :=
  match msisdn with
  | some m =>
    if !msisdnValid m then pure (-EINVAL)
    else do pure (updRc (← stmt (sqlSetMsisdn imsi m) .error))
  | none => do pure (updRc (← stmt (sqlDelMsisdn imsi) .error))

/-- `struct sub_auth_data_str` (include/osmocom/hlr/db.h 127-142). `other` is an
unknown `type`. -/
inductive AudStr where
  | gsm (algo : Algo) (ki : Bytes)
  | umts (algo : Algo) (k opc : Bytes) (opcIsOp : Bool) (indBitlen : Nat)
  | other
deriving DecidableEq, Repr

/-- OSMO_MILENAGE_IND_BITLEN_MAX (libosmocore crypt/auth.h). -/
def indBitlenMax : Nat := 28

/-- The validation switch of db_subscr_update_aud_by_id for 2G
(db_hlr.c 236-261). -/
def aud2Valid (algo : Algo) (ki : Bytes) : Bool :=
  match algo with
  | .none => true
  | .comp128v1 | .comp128v2 | .comp128v3 | .xor2g => isHexStr 32 32 ki
  | _ => false

/-- The validation switch of db_subscr_update_aud_by_id for 3G
(db_hlr.c 268-303). -/
def aud3Valid (algo : Algo) (k opc : Bytes) (indBitlen : Nat) : Bool :=
  match algo with
  | .none => true
  | .milenage | .xor3g =>
    isHexStr 32 64 k && isHexStr 32 64 opc && decide (indBitlen ≤ indBitlenMax)
  | _ => false

/-- Return code after the DELETE (db_hlr.c 317-348): `Sum.inl rc` means "return
rc now", `Sum.inr ()` means go on with the INSERT. -/
def audAfterDelete (isNone : Bool) : WRes → Sum Int Unit
  | .done 0 => if isNone then .inl (-ENOENT) else .inr ()
  | .done 1 => if isNone then .inl 0 else .inr ()
  | .done _ => .inl (-EIO)
  | .unique => .inl (-EIO)
  | .error => .inl (-EIO)

/-- Return code of the INSERT (db_hlr.c 384-396). -/
def audAfterInsert : WRes → Int
  | .done _ => 0
  | .unique => -EIO
  | .error => -EIO

/-- The row bound to DB_STMT_AUC_3G_INSERT (db_hlr.c 366-379): `opc` is stored in
column `op` or `opc`; `sqn` is not mentioned and takes its default 0. -/
def mkAuc3 (id : Int) (algo : Algo) (k opc : Bytes) (isOp : Bool) (bl : Nat) : Auc3 :=
  { id := id, algo := algo, k := k
    op := if isOp then some opc else none
    opc := if isOp then none else some opc
    sqn := 0, indBitlen := bl }

/-- db_subscr_update_aud_by_id (db_hlr.c 220-397): validate, DELETE the old row,
then (unless the algorithm is NONE) INSERT the new one.  Two separate
auto-committed statements. -/
def updateAud (id : Int) : AudStr → DbM Int
  | .gsm algo ki =>
    if !aud2Valid algo ki then pure (-EINVAL)
    else do
      match audAfterDelete (algo == .none) (← stmt (sqlDelAuc2 id) .error) with
      | .inl rc => pure rc
      | .inr () =>
        pure (audAfterInsert (← stmt (sqlInsAuc2 { id := id, algo := algo, ki := ki }) .error))
  | .umts algo k opc isOp bl =>
    if !aud3Valid algo k opc bl then pure (-EINVAL)
    else do
      match audAfterDelete (algo == .none) (← stmt (sqlDelAuc3 id) .error) with
      | .inl rc => pure rc
      | .inr () =>
        pure (audAfterInsert (← stmt (sqlInsAuc3 (mkAuc3 id algo k opc isOp bl)) .error))
  | .other => pure (-EINVAL)

/-- db_subscr_delete_by_id (db_hlr.c 94-148): DELETE the subscriber row, then
remove 2G and 3G keys.  If there was no subscriber row but there were keys, the
result is 0. -/
def subscrDelete (id : Int) : DbM Int := do
  match ← stmt (sqlDelById id) .error with
  | .error => pure (-EIO)
  | .unique => pure (-EIO)
  | .done n =>
    let ret : Int := if n = 0 then -ENOENT else if n = 1 then 0 else -EIO
    let rc2 ← updateAud id (.gsm .none [])
    let ret := if ret == -ENOENT && rc2 == 0 then 0 else ret
    let rc3 ← updateAud id (.umts .none [] [] false 0)
    let ret := if ret == -ENOENT && rc3 == 0 then 0 else ret
    pure ret

/-- db_subscr_update_imei_by_imsi (db_hlr.c 406-444); DB_STMT_UPD_IMEI_BY_IMSI
(db.c 68). `none` is NULL. -/
def updateImei (imsi : Bytes) (imei : Option Bytes) : DbM Int :=
  if (match imei with | some i => !imeiValid i | none => false) then pure (-EINVAL)
  else do
    pure (updRc (← stmt (sqlUpdSub (·.imsi == imsi) (fun r => { r with imei := imei })) .error))

/-- db_subscr_nam (db_hlr.c 776-821); statements db.c 78-79. -/
def subscrNam (imsi : Bytes) (val isPs : Bool) : DbM Int := do
  pure (updRc (← stmt (sqlUpdSub (·.imsi == imsi)
    (fun r => if isPs then { r with namPs := val } else { r with namCs := val })) .error))

/-- db_subscr_purge (db_hlr.c 933-979); statements db.c 76-77. -/
def subscrPurge (imsi : Bytes) (val isPs : Bool) : DbM Int := do
  pure (updRc (← stmt (sqlUpdSub (·.imsi == imsi)
    (fun r => if isPs then { r with purgedPs := val } else { r with purgedCs := val })) .error))

/-- db_subscr_lu (db_hlr.c 831-923): two separate UPDATE statements (db.c 66-67,
92-93).  `number` and `viaProxy` are the C strings bound to the statement; `now`
is the clock, `none` if `osmo_clock_gettime()` fails (then `-errno`, modelled as
-EINVAL, is returned). -/
def subscrLu (id : Int) (number : Bytes) (isPs : Bool) (viaProxy : Option Bytes)
    (now : Option Int) : DbM Int := do
  let rc := updRc (← stmt (sqlUpdSub (·.id == id)
    (fun r => if isPs then { r with sgsn := some number, sgsnViaProxy := viaProxy }
              else { r with vlr := some number, vlrViaProxy := viaProxy })) .error)
  if rc ≠ 0 then pure rc
  else match now with
  | none => pure (-EINVAL)
  | some t =>
    pure (updRc (← stmt (sqlUpdSub (·.id == id)
      (fun r => if isPs then { r with lastLuPs := some t } else { r with lastLu := some t })) .error))

/-- db_sel (db_hlr.c 471-531): `(rc, row)`.  The C code copies the columns to
fixed-size buffers; see `HlrSubscr.ofRow`. -/
def dbSel (cond : SubRow → Bool) : DbM (Int × Option SubRow) := do
  match ← stmt (sqlSel cond) .error with
  | .row r => pure (0, some r)
  | .done => pure (-ENOENT, none)
  | .error => pure (-EIO, none)

/-- db_subscr_get_by_imsi (db_hlr.c 565-580). -/
def getByImsi (imsi : Bytes) : DbM (Int × Option SubRow) := dbSel (·.imsi == imsi)

/-- db_subscr_get_by_msisdn (db_hlr.c 616-631).  SQL: NULL never equals. -/
def getByMsisdn (m : Bytes) : DbM (Int × Option SubRow) := dbSel (·.msisdn == some m)

/-- db_subscr_get_by_id (db_hlr.c 728-743). -/
def getById (id : Int) : DbM (Int × Option SubRow) := dbSel (·.id == id)

/-- db_subscr_get_by_imei (db_hlr.c 752-765). -/
def getByImei (i : Bytes) : DbM (Int × Option SubRow) := dbSel (·.imei == some i)

/-- SQLITE_IOERR, as an example of a positive SQLite result code. -/
def SQLITE_IOERR : Int := 10

/-- db_subscr_exists_by_imsi (db_hlr.c 538-556).  On a database error the code
returns the (positive) SQLite result code, not -EIO as documented. -/
def existsByImsi (imsi : Bytes) : DbM Int := do
  match ← stmt (sqlSel (·.imsi == imsi)) .error with
  | .row _ => pure 0
  | .done => pure (-ENOENT)
  | .error => pure SQLITE_IOERR

/-- db_subscr_exists_by_msisdn (db_hlr.c 587-607). -/
def existsByMsisdn (m : Bytes) : DbM Int := do
  match ← stmt (sqlSel (·.msisdn == some m)) .error with
  | .row _ => pure 0
  | .done => pure (-ENOENT)
  | .error => pure SQLITE_IOERR

/-- The subscriber as returned to callers (`struct hlr_subscriber`, db.h 91-117):
text columns are copied with `osmo_strlcpy` into fixed buffers, NULL becomes the
empty string. -/
structure HlrSubscr where
  id : Int
  imsi : Bytes
  msisdn : Bytes
  imei : Bytes
  vlrNumber : Bytes
  sgsnNumber : Bytes
  namCs : Bool
  namPs : Bool
  purgedCs : Bool
  purgedPs : Bool
  lastLu : Int
  lastLuPs : Int
  vlrViaProxy : Option Bytes
  sgsnViaProxy : Option Bytes
deriving DecidableEq, Repr

/-- The copying part of db_sel (db_hlr.c 491-514); `copy_sqlite3_text_to_buf`
(db.h).  A missing timestamp is 0.  The two via-proxy names stay raw here. -/
def HlrSubscr.ofRow (r : SubRow) : HlrSubscr :=
  { id := r.id
    imsi := strlcpy 16 r.imsi
    msisdn := strlcpy 16 (r.msisdn.getD [])
    imei := strlcpy 16 (r.imei.getD [])
    vlrNumber := strlcpy 32 (r.vlr.getD [])
    sgsnNumber := strlcpy 32 (r.sgsn.getD [])
    namCs := r.namCs, namPs := r.namPs
    purgedCs := r.purgedCs, purgedPs := r.purgedPs
    lastLu := r.lastLu.getD 0, lastLuPs := r.lastLuPs.getD 0
    vlrViaProxy := r.vlrViaProxy, sgsnViaProxy := r.sgsnViaProxy }

/-- _db_ind_get (db_hlr.c 1013-1033). -/
def indGet (vlr : Bytes) : DbM (Int × Nat) := do
  match ← stmt (sqlIndSel vlr) .error with
  | .row i => pure (0, i)
  | .done => pure (-ENOENT, 0)
  | .error => pure (-EIO, 0)

/-- The name check of _db_ind (db_hlr.c 1041-1054): `raw` is
`ipa_name.val[0..len)`; it must have at least two bytes and end in NUL. -/
def indNameOk (raw : Bytes) : Bool := 2 ≤ raw.length && raw.getLast? == some 0

/-- db_ind (db_hlr.c 1035-1077): `(rc, ind)`. -/
def dbInd (raw : Bytes) : DbM (Int × Nat) :=
  if !indNameOk raw then pure (-ENOTSUP, 0)
  else do
    let r ← indGet (cstr raw)
    if r.1 = 0 then pure r
    else do
      match ← stmt (sqlIndAdd (cstr raw)) .error with
      | .done _ => indGet (cstr raw)
      | .unique => pure (-EIO, 0)
      | .error => pure (-EIO, 0)

/-- db_ind_del (db_hlr.c 1079-1082, 1005-1011): the result of the statement is
ignored. -/
def dbIndDel (raw : Bytes) : DbM Int :=
  if !indNameOk raw then pure (-ENOTSUP)
  else do
    let _ ← stmt (sqlIndDel (cstr raw)) .error
    pure 0

/-- db_update_sqn (src/db_auc.c 37-74).  SQLite stores the 64-bit pattern. -/
def updateSqn (id : Int) (sqn : Nat) : DbM Int := do
  pure (updRc (← stmt (sqlUpdSqn id sqn) .error))

/-! ## Histories -/

/-- One call of the database API. -/
inductive Op where
  | create (imsi : Bytes) (cs ps : Bool)
  | delete (id : Int)
  | msisdn (imsi : Bytes) (m : Option Bytes)
  | aud (id : Int) (a : AudStr)
  | imei (imsi : Bytes) (i : Option Bytes)
  | nam (imsi : Bytes) (val isPs : Bool)
  | purge (imsi : Bytes) (val isPs : Bool)
  | lu (id : Int) (number : Bytes) (isPs : Bool) (viaProxy : Option Bytes) (now : Option Int)
  | ind (raw : Bytes)
  | indDel (raw : Bytes)
  | sqn (id : Int) (sqn : Nat)
deriving DecidableEq, Repr

/-- Execute one API call; the result value of `db_ind` is dropped, its return
code kept. -/
def Op.run : Op → DbM Int
  | .create imsi cs ps => subscrCreate imsi cs ps
  | .delete id => subscrDelete id
  | .msisdn imsi m => updateMsisdn imsi m
  | .aud id a => updateAud id a
  | .imei imsi i => updateImei imsi i
  | .nam imsi v ps => subscrNam imsi v ps
  | .purge imsi v ps => subscrPurge imsi v ps
  | .lu id n ps p t => subscrLu id n ps p t
  | .ind raw => do let r ← dbInd raw; pure r.1
  | .indDel raw => dbIndDel raw
  | .sqn id s => updateSqn id s

/-- Run one call on a database under a script: `(rc or crash, database after)`. -/
def exec (m : DbM α) (d : Db) (s : Script) : Option α × Db :=
  ((m { db := d, script := s }).1, (m { db := d, script := s }).2.db)

/-- A history: calls, each with the fates of its statements.  After a crash the
process restarts and the history goes on with the next call. -/
def runHist (d : Db) : List (Op × Script) → Db
  | [] => d
  | (op, s) :: rest => runHist (exec op.run d s).2 rest

end Verif.Db
