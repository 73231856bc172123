import Verif.Prov.Text
/-!
# Importing an OsmoNITB database (`osmo-hlr-db-tool import-nitb-db`)

src/hlr_db_tool.c 196-467 and src/dbd_decode_binary.c.  The HLR database is written with the
functions of `Verif.Db.Model`, so that every statement on it may fail or be the last one before
the process dies.  The OsmoNITB database is only read.
-/
namespace Verif.Import
open Verif Verif.Db Verif.Prov

/-! ## The OsmoNITB database

The tables are those of OsmoNITB; they are not in /repo and known only from the queries in
hlr_db_tool.c 217-231. -/

/-- A row of `Subscriber`: the columns the query reads.  `imsi` is the IMSI as text (the code
reads the column as a number), `expire` the result of `STRFTIME('%s', expire_lu)`, `none` for
NULL. -/
structure NSub where
  id : Int
  imsi : Bytes
  ext : Option Bytes := none
  authorized : Int := 1
  expire : Option Int := none
deriving DecidableEq, Repr

/-- A row of `Equipment`; `updated` is a time. -/
structure Equip where
  id : Int
  imei : Bytes
  updated : Nat
deriving DecidableEq, Repr

/-- A row of `EquipmentWatch`: the subscriber was seen with the equipment, last at `updated`
(a column the query does not read). -/
structure Watch where
  sub : Int
  equip : Int
  updated : Nat
deriving DecidableEq, Repr

/-- A row of `authkeys`; `blob` is `a3a8_ki`, `none` for NULL. -/
structure NKey where
  sub : Int
  algo : Int
  blob : Option Bytes
deriving DecidableEq, Repr

/-- The OsmoNITB database.  `subs` are in the order of their ids, as the query delivers them
(`ORDER by s.id`). -/
structure Nitb where
  subs : List NSub := []
  equips : List Equip := []
  watches : List Watch := []
  keys : List NKey := []
deriving DecidableEq, Repr

/-- What may go wrong in reading the OsmoNITB database: it cannot be opened, a statement cannot
be prepared (also on the HLR database, hlr_db_tool.c 437-446), reading fails after `rows`
subscribers, or reading the keys of some subscribers fails. -/
structure Reads where
  openOk : Bool := true
  prepOk : Bool := true
  rows : Option Nat := none
  keyErr : Int → Bool := fun _ => false

/-- The equipment a subscriber was seen with: the join of `Equipment` and `EquipmentWatch`
(hlr_db_tool.c 222-224). -/
def seenWith (N : Nitb) (id : Int) : List Equip :=
  N.equips.filter (fun e => N.watches.any (fun w => w.equip == e.id && w.sub == id))

/-- `SELECT imei, …, MAX(Equipment.updated) … GROUP BY` (hlr_db_tool.c 221-225): SQLite takes
the other columns from the row with the maximum.  Of several such rows the first one is taken
here; SQLite leaves it open. -/
def latest : List Equip → Option Equip
  | [] => none
  | e :: es =>
    match latest es with
    | none => some e
    | some f => if f.updated > e.updated then some f else some e

/-- `sqlite3_column_int()`: the lower 32 bits of the 64-bit value. -/
def int32 (v : Int) : Int := (v + 2 ^ 31) % 2 ^ 32 - 2 ^ 31

/-- `copy_sqlite3_text_to_buf()` (db.h 188-192) to a buffer of 16 bytes; NULL becomes the empty
string. -/
def textCol (t : Option Bytes) : Bytes := strlcpy 16 (t.getD [])

/-- `snprintf(imsi_str, 32, "%" PRId64, sqlite3_column_int64(stmt, 0))` (hlr_db_tool.c 364-366):
the IMSI through a 64-bit number.  The text is converted by `atoll`-like rules by SQLite,
when it is stored (column type NUMERIC) or read. -/
def imsiStr (t : Bytes) : Bytes :=
  if atoll t < 0 then 45 :: Mslookup.Mdns.decGo 20 (-(atoll t)).toNat
  else Mslookup.Mdns.decGo 20 (atoll t).toNat

/-! ## Keys -/

/-- The loop of `_dbd_decode_binary()` (dbd_decode_binary.c 31-36); `none` if it reads beyond
the end of the blob. -/
def decodeLoop (e : UInt8) : Bytes → Option Bytes
  | [] => none
  | c :: s =>
    if c = 0 then some []
    else if c = 1 then
      match s with
      | [] => none
      | c' :: s' => (decodeLoop e s').map ((c' - 1 + e) :: ·)
    else (decodeLoop e s).map ((c + e) :: ·)

/-- `_dbd_decode_binary()` (dbd_decode_binary.c 26-38): `none` if memory that is not part of the
blob is read.  (`sqlite3_column_blob()` returns NULL for an empty blob.) -/
def decodeBinary : Bytes → Option Bytes
  | [] => none
  | e :: s => decodeLoop e s

/-- The integer read into `aud2g.algo` (hlr_db_tool.c 314) as the `enum osmo_auth_algo` of
libosmocore (crypt/auth.h). -/
def algoOf (v : Int) : Algo :=
  if v = 0 then .none else if v = 1 then .comp128v1 else if v = 2 then .comp128v2
  else if v = 3 then .comp128v3 else if v = 4 then .xor3g else if v = 5 then .milenage
  else if v = 6 then .xor2g else if v = 7 then .tuak else .other v.toNat

/-- How a part of the import ends: properly, or in undefined behaviour. -/
inductive End where
  | ok
  | ub
deriving DecidableEq, Repr

/-- import_nitb_subscr_aud (hlr_db_tool.c 292-349).  `db_bind_int()` takes the id as an `int`
(db.c 158).  Only the first key is used (316-322).  After a blob that is too large the
parameter is unbound and the statement finds no further rows (327-334).  The key buffer has 128
bytes (304). -/
def importKeys (N : Nitb) (F : Reads) (nid hid : Int) : DbM End :=
  if F.keyErr nid then pure .ok
  else match N.keys.filter (fun k => k.sub == int32 nid) with
  | [] => pure .ok
  | k :: _ =>
    match k.blob with
    | none => pure .ub
    | some blob =>
      if blob.length > 4096 then pure .ok
      else match decodeBinary blob with
      | none => pure .ub
      | some ki => do
        let _ ← updateAud hid (.gsm (algoOf (int32 k.algo)) (strlcpy 128 (hexdump ki)))
        pure .ok

/-- db_subscr_update_lu_by_imsi (hlr_db_tool.c 256-290): a zero time is not bound, and
`datetime(NULL)` is NULL. -/
def updateLuByImsi (imsi : Bytes) (t : Int) : DbM Int := do
  pure (updRc (← stmt (sqlUpdSub (·.imsi == imsi)
    (fun r => { r with lastLu := if t = 0 then none else some t })) .error))

/-- The column `STRFTIME('%s', s.expire_lu)` as an `int`; NULL reads as 0. -/
def expireCol (n : NSub) : Int := int32 (n.expire.getD 0)

/-- The column `SUBSTR(e.imei,0,15)`: SQLite counts from 1, so that these are the first 14
characters. -/
def imeiCol (N : Nitb) (n : NSub) : Bytes :=
  textCol ((latest (seenWith N n.id)).map (fun e => e.imei.take 14))

/-- `if (strlen(subscr.imei) == 14) db_subscr_update_imei_by_imsi()` (hlr_db_tool.c 392-393). -/
def setImei (imsi imei : Bytes) : DbM Int :=
  if imei.length = 14 then updateImei imsi (some imei) else pure 0

/-- From looking up "the just created id" on (hlr_db_tool.c 397-412).  The assertion in 410
compares the buffer of 16 bytes with the IMSI asked for. -/
def importTail (N : Nitb) (F : Reads) (n : NSub) (r : Int × Option SubRow) : DbM End :=
  match r.2 with
  | none => pure .ok
  | some row =>
    if strlcpy 16 row.imsi ≠ imsiStr n.imsi then pure .ub
    else importKeys N F n.id row.id

/-- import_nitb_subscr (hlr_db_tool.c 351-413): all results but that of the last lookup are
ignored.  The subtraction in 386 overflows for the smallest numbers. -/
def importSub (N : Nitb) (F : Reads) (n : NSub) : DbM End := do
  let _ ← subscrCreate (imsiStr n.imsi) true true
  if expireCol n - 3660 < -2 ^ 31 then pure .ub
  else do
    let _ ← updateMsisdn (imsiStr n.imsi) (some (textCol n.ext))
    let _ ← setImei (imsiStr n.imsi) (imeiCol N n)
    let _ ← updateLuByImsi (imsiStr n.imsi) (expireCol n - 3660)
    let _ ← subscrNam (imsiStr n.imsi) (int32 n.authorized != 0) true
    let _ ← subscrNam (imsiStr n.imsi) (int32 n.authorized != 0) false
    let r ← getByImsi (imsiStr n.imsi)
    importTail N F n r

/-- The loop over the subscribers (hlr_db_tool.c 450-453): "On failure, carry on with the
rest." -/
def importSubs (N : Nitb) (F : Reads) : List NSub → DbM End
  | [] => pure .ok
  | n :: ns => do
    match ← importSub N F n with
    | .ub => pure .ub
    | .ok => importSubs N F ns

/-- How the tool ends: with an exit status, or in undefined behaviour. -/
inductive Exit where
  | status (n : Nat)
  | ub
deriving DecidableEq, Repr

def End.exit : End → Exit
  | .ok => .status 0
  | .ub => .ub

/-- import_nitb_db and the exit status (hlr_db_tool.c 415-467, 523): an error in reading the
subscribers ends the loop and leaves `ret` at 0.  The HLR database has been opened already. -/
def importNitb (N : Nitb) (F : Reads) : DbM Exit :=
  if !F.openOk || !F.prepOk then pure (.status 1)
  else do
    let e ← importSubs N F (match F.rows with | none => N.subs | some k => N.subs.take k)
    pure e.exit

end Verif.Import
