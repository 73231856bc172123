import Verif.Auc.Model
/-! # The database tests of the project, replayed on the model

Generated from `tests/db/db_test.err`: every call of a function of `db_hlr.c` and `db_auc.c` in
that file, with the return code and the printed subscriber or key data recorded there.  Log lines
are left out, and so are the four `sqlite3_prepare_v2`/`step` results of the raw SQL statements,
which are applied to the table directly.  These are tests of the model against the behaviour
recorded from the real program: `#guard` evaluates them during the build and fails it if a result
differs. -/
namespace Verif.Db.Transcript
open Verif Verif.Db Verif.Auc

/-- The calls db_test.c makes. -/
inductive Op where
  | create (imsi : Bytes) (cs ps : Bool)
  | selImsi (x : Bytes) | selMsisdn (x : Bytes) | selImei (x : Bytes) | selId (x : Int)
  | exImsi (x : Bytes) | exMsisdn (x : Bytes)
  | msisdn (imsi : Bytes) (x : Option Bytes) | imei (imsi : Bytes) (x : Option Bytes)
  | nam (imsi : Bytes) (v ps : Bool) | purge (imsi : Bytes) (v ps : Bool)
  | lu (id : Int) (name : Bytes) (ps : Bool)
  | del (id : Int) | sqn (id : Int) (n : Nat)
  | auth (imsi : Bytes) | auc (imsi : Bytes) | aud (id : Int) (a : AudStr)
  | ind (raw : Bytes) | indDel (raw : Bytes)
  | raw_ki (x : Bytes) | raw_k (x : Bytes) | raw_op (x : Bytes) | raw_opc (x : Bytes)

/-- Text for printing. -/
def txt (x : Bytes) : String := String.ofList (x.map (fun c => Char.ofNat c.toNat))

/-- One line of the dump, for a text that is not empty. -/
def ps (name : String) (x : Bytes) : List String :=
  if x.isEmpty then [] else ["  ." ++ name ++ " = '" ++ txt x ++ "',"]

/-- db_test.c 146-179, `dump_subscr`; the columns the model leaves out are empty in all tests. -/
def dumpSubscr (s : HlrSubscr) : List String :=
  ["struct hlr_subscriber {", "  .id = " ++ toString s.id ++ ","] ++ ps "imsi" s.imsi
  ++ ps "msisdn" s.msisdn ++ ps "imei" s.imei ++ ps "vlr_number" s.vlrNumber
  ++ ps "sgsn_number" s.sgsnNumber
  ++ (if s.namCs then [] else ["  .nam_cs = false,"])
  ++ (if s.namPs then [] else ["  .nam_ps = false,"])
  ++ (if s.purgedCs then ["  .ms_purged_cs = true,"] else [])
  ++ (if s.purgedPs then ["  .ms_purged_ps = true,"] else []) ++ ["}"]

/-- osmo_hexdump_nospc (libosmocore). -/
def hexdump (x : Bytes) : String :=
  String.ofList (x.flatMap (fun c => [Nat.digitChar (c.toNat / 16), Nat.digitChar (c.toNat % 16)]))

/-- osmo_auth_alg_name (libosmocore). -/
def algName : Algo → String
  | .none => "None" | .comp128v1 => "COMP128v1" | .comp128v2 => "COMP128v2"
  | .comp128v3 => "COMP128v3" | .xor3g => "XOR-3G" | .milenage => "MILENAGE"
  | .xor2g => "XOR-2G" | .tuak => "TUAK" | .other _ => "?"

/-- db_test.c 182-222, `dump_aud` of the 2G data; AMF is not modelled, it is 0000. -/
def dump2 : Option Aud2 → List String
  | none => ["2G: none"]
  | some a => ["2G: struct osmo_sub_auth_data2 {", "  .type = GSM,",
      "  .algo = " ++ algName a.algo ++ ",", "  .u.gsm.ki = '" ++ hexdump a.ki ++ "',", "}"]

/-- db_test.c 182-222, `dump_aud` of the 3G data. -/
def dump3 : Option Aud3 → List String
  | none => ["3G: none"]
  | some a => ["3G: struct osmo_sub_auth_data2 {", "  .type = UMTS,",
      "  .algo = " ++ algName a.algo ++ ",", "  .u.umts.opc = '" ++ hexdump a.opc ++ "',",
      "  .u.umts.opc_is_op = " ++ (if a.isOp then "1" else "0") ++ ",",
      "  .u.umts.k = '" ++ hexdump a.k ++ "',", "  .u.umts.amf = '0000',"]
      ++ (if a.sqn = 0 then [] else ["  .u.umts.sqn = " ++ toString a.sqn ++ ",",
          "  .u.umts.sqn = 0x" ++ String.ofList (Nat.toDigits 16 a.sqn) ++ ","])
      ++ (if a.bl = 0 then [] else ["  .u.umts.ind_bitlen = " ++ toString a.bl ++ ","]) ++ ["}"]

/-- The result of a function that returns only a code. -/
def code (m : DbM Int) : DbM (Int × List String) := do pure (← m, [])

/-- The result of a lookup: the code and, if it is 0, the dump. -/
def look (m : DbM (Int × Option SubRow)) : DbM (Int × List String) := do
  let r ← m
  pure (r.1, match r.2 with | some row => dumpSubscr (HlrSubscr.ofRow row) | none => [])

/-- A statement given to SQLite directly (db_test.c 224-233). -/
def raw (f : Db → Db) : DbM (Int × List String) := stmt (fun d => ((0, []), f d)) (0, [])

/-- A vector of the stubbed auc_compute_vectors(). -/
def stubVec : Vec := { rand := [], umts := none, kc := [], sres := [] }

/-- A call.  db_test.c 122-128 replaces auc_compute_vectors() by a function that returns the
number of vectors and changes nothing, so what is left of db_get_auc() is reading the keys and
storing the sequence number. -/
def perform : Op → DbM (Int × List String)
  | .create i c p => code (subscrCreate i c p)
  | .selImsi x => look (getByImsi x)
  | .selMsisdn x => look (getByMsisdn x)
  | .selImei x => look (getByImei x)
  | .selId x => look (getById x)
  | .exImsi x => code (existsByImsi x)
  | .exMsisdn x => code (existsByMsisdn x)
  | .msisdn i x => code (updateMsisdn i x)
  | .imei i x => code (updateImei i x)
  | .nam i v p => code (subscrNam i v p)
  | .purge i v p => code (subscrPurge i v p)
  | .lu i n p => code (subscrLu i n p none (some 1))
  | .del i => code (subscrDelete i)
  | .sqn i n => code (updateSqn i n)
  | .aud i a => code (updateAud i a)
  | .auth i => do
    match ← getAuthData i with
    | .err rc => pure (rc, [])
    | .keys _ a2 a3 => pure (0, dump2 a2 ++ dump3 a3)
  | .auc i => do
    match ← getAuthData i with
    | .err rc => pure (rc, [])
    | .keys id _ a3 =>
      match ← aucFinish id (some [stubVec, stubVec, stubVec], a3) with
      | .vecs l => pure (l.length, [])
      | .err rc => pure (rc, [])
      | .ub => pure (-1000, [])
  | .ind r => do
    let x ← dbInd r
    pure (x.1, [toString x.2])
  | .indDel r => code (dbIndDel r)
  | .raw_ki x => raw (fun d => { d with auc2 := d.auc2.map (fun r => { r with ki := x }) })
  | .raw_k x => raw (fun d => { d with auc3 := d.auc3.map (fun r => { r with k := x }) })
  | .raw_op x => raw (fun d => { d with auc3 := d.auc3.map (fun r => { r with op := some x }) })
  | .raw_opc x => raw (fun d => { d with auc3 := d.auc3.map (fun r => { r with opc := some x }) })

/-- The first call whose result is not the recorded one. -/
def replay : Nat → Db → List (Op × Int × String) → Option (Nat × Int × String)
  | _, _, [] => none
  | n, d, (o, rc, t) :: l =>
    match exec (perform o) d [] with
    | (some (rc', t'), d') =>
      if rc' = rc ∧ "\n".intercalate t' = t then replay (n + 1) d' l
      else some (n, rc', "\n".intercalate t')
    | (none, _) => some (n, -1, "died")

/-- `test_subscr_create_update_sel_delete` in tests/db/db_test.c and db_test.err. -/
def test_subscr_create_update_sel_delete : List (Op × Int × String) :=
  [(.create (b "123456789000000") true true, 0, ""),
   (.selImsi (b "123456789000000"), 0, "struct hlr_subscriber {\n  .id = 1,\n  .imsi = '123456789000000',\n}"),
   (.create (b "123456789000001") true true, 0, ""),
   (.selImsi (b "123456789000001"), 0, "struct hlr_subscriber {\n  .id = 2,\n  .imsi = '123456789000001',\n}"),
   (.create (b "123456789000002") true true, 0, ""),
   (.selImsi (b "123456789000002"), 0, "struct hlr_subscriber {\n  .id = 3,\n  .imsi = '123456789000002',\n}"),
   (.create (b "123456789000000") true true, -17, ""),
   (.selImsi (b "123456789000000"), 0, "struct hlr_subscriber {\n  .id = 1,\n  .imsi = '123456789000000',\n}"),
   (.create (b "123456789000001") true true, -17, ""),
   (.create (b "123456789000001") true true, -17, ""),
   (.selImsi (b "123456789000001"), 0, "struct hlr_subscriber {\n  .id = 2,\n  .imsi = '123456789000001',\n}"),
   (.create (b "123456789000002") true true, -17, ""),
   (.create (b "123456789000002") true true, -17, ""),
   (.selImsi (b "123456789000002"), 0, "struct hlr_subscriber {\n  .id = 3,\n  .imsi = '123456789000002',\n}"),
   (.create (b "123456789 000003") true true, -22, ""),
   (.selImsi (b "123456789000003"), -2, ""),
   (.create (b "123456789000002123456") true true, -22, ""),
   (.selImsi (b "123456789000002123456"), -2, ""),
   (.create (b "foobar123") true true, -22, ""),
   (.selImsi (b "foobar123"), -2, ""),
   (.create (b "123") true true, -22, ""),
   (.selImsi (b "123"), -2, ""),
   (.create (b "123456") true true, 0, ""),
   (.selImsi (b "123456"), 0, "struct hlr_subscriber {\n  .id = 4,\n  .imsi = '123456',\n}"),
   (.exImsi (b "123456789000000"), 0, ""),
   (.exImsi (b "999999999"), -2, ""),
   (.selImsi (b "123456789000000"), 0, "struct hlr_subscriber {\n  .id = 1,\n  .imsi = '123456789000000',\n}"),
   (.msisdn (b "123456789000000") (some (b "54321")), 0, ""),
   (.selImsi (b "123456789000000"), 0, "struct hlr_subscriber {\n  .id = 1,\n  .imsi = '123456789000000',\n  .msisdn = '54321',\n}"),
   (.selMsisdn (b "54321"), 0, "struct hlr_subscriber {\n  .id = 1,\n  .imsi = '123456789000000',\n  .msisdn = '54321',\n}"),
   (.msisdn (b "123456789000000") (some (b "54321012345678912345678")), -22, ""),
   (.selImsi (b "123456789000000"), 0, "struct hlr_subscriber {\n  .id = 1,\n  .imsi = '123456789000000',\n  .msisdn = '54321',\n}"),
   (.selMsisdn (b "54321"), 0, "struct hlr_subscriber {\n  .id = 1,\n  .imsi = '123456789000000',\n  .msisdn = '54321',\n}"),
   (.selMsisdn (b "54321012345678912345678"), -2, ""),
   (.msisdn (b "123456789000000") (some (b "543 21")), -22, ""),
   (.selImsi (b "123456789000000"), 0, "struct hlr_subscriber {\n  .id = 1,\n  .imsi = '123456789000000',\n  .msisdn = '54321',\n}"),
   (.selMsisdn (b "543 21"), -2, ""),
   (.msisdn (b "123456789000000") (some (b "foobar123")), -22, ""),
   (.selImsi (b "123456789000000"), 0, "struct hlr_subscriber {\n  .id = 1,\n  .imsi = '123456789000000',\n  .msisdn = '54321',\n}"),
   (.selMsisdn (b "foobar123"), -2, ""),
   (.msisdn (b "123456789000000") (some (b "5")), 0, ""),
   (.selImsi (b "123456789000000"), 0, "struct hlr_subscriber {\n  .id = 1,\n  .imsi = '123456789000000',\n  .msisdn = '5',\n}"),
   (.selMsisdn (b "5"), 0, "struct hlr_subscriber {\n  .id = 1,\n  .imsi = '123456789000000',\n  .msisdn = '5',\n}"),
   (.selMsisdn (b "54321"), -2, ""),
   (.msisdn (b "123456789000000") (some (b "543210123456789")), 0, ""),
   (.selImsi (b "123456789000000"), 0, "struct hlr_subscriber {\n  .id = 1,\n  .imsi = '123456789000000',\n  .msisdn = '543210123456789',\n}"),
   (.selMsisdn (b "543210123456789"), 0, "struct hlr_subscriber {\n  .id = 1,\n  .imsi = '123456789000000',\n  .msisdn = '543210123456789',\n}"),
   (.msisdn (b "123456789000000") (some (b "5432101234567891")), -22, ""),
   (.selImsi (b "123456789000000"), 0, "struct hlr_subscriber {\n  .id = 1,\n  .imsi = '123456789000000',\n  .msisdn = '543210123456789',\n}"),
   (.selMsisdn (b "5432101234567891"), -2, ""),
   (.exMsisdn (b "543210123456789"), 0, ""),
   (.exMsisdn (b "5432101234567891"), -2, ""),
   (.msisdn (b "999999999") (some (b "99")), -2, ""),
   (.selMsisdn (b "99"), -2, ""),
   (.msisdn (b "foobar") (some (b "99")), -2, ""),
   (.selMsisdn (b "99"), -2, ""),
   (.imei (b "123456789000000") (some (b "12345678901234")), 0, ""),
   (.selImei (b "12345678901234"), 0, "struct hlr_subscriber {\n  .id = 1,\n  .imsi = '123456789000000',\n  .msisdn = '543210123456789',\n  .imei = '12345678901234',\n}"),
   (.imei (b "123456789000000") (some (b "123456789012345")), -22, ""),
   (.selImei (b "12345678901234"), 0, "struct hlr_subscriber {\n  .id = 1,\n  .imsi = '123456789000000',\n  .msisdn = '543210123456789',\n  .imei = '12345678901234',\n}"),
   (.selImei (b "123456789012345"), -2, ""),
   (.imei (b "123456789000000") (some (b "12345678901234")), 0, ""),
   (.selImei (b "12345678901234"), 0, "struct hlr_subscriber {\n  .id = 1,\n  .imsi = '123456789000000',\n  .msisdn = '543210123456789',\n  .imei = '12345678901234',\n}"),
   (.imei (b "123456789000000") none, 0, ""),
   (.selImei (b "12345678901234"), -2, ""),
   (.nam (b "123456789000000") false true, 0, ""),
   (.selImsi (b "123456789000000"), 0, "struct hlr_subscriber {\n  .id = 1,\n  .imsi = '123456789000000',\n  .msisdn = '543210123456789',\n  .nam_ps = false,\n}"),
   (.nam (b "123456789000000") false false, 0, ""),
   (.selImsi (b "123456789000000"), 0, "struct hlr_subscriber {\n  .id = 1,\n  .imsi = '123456789000000',\n  .msisdn = '543210123456789',\n  .nam_cs = false,\n  .nam_ps = false,\n}"),
   (.nam (b "123456789000000") true false, 0, ""),
   (.selImsi (b "123456789000000"), 0, "struct hlr_subscriber {\n  .id = 1,\n  .imsi = '123456789000000',\n  .msisdn = '543210123456789',\n  .nam_ps = false,\n}"),
   (.nam (b "123456789000000") true true, 0, ""),
   (.selImsi (b "123456789000000"), 0, "struct hlr_subscriber {\n  .id = 1,\n  .imsi = '123456789000000',\n  .msisdn = '543210123456789',\n}"),
   (.nam (b "123456789000000") false true, 0, ""),
   (.selImsi (b "123456789000000"), 0, "struct hlr_subscriber {\n  .id = 1,\n  .imsi = '123456789000000',\n  .msisdn = '543210123456789',\n  .nam_ps = false,\n}"),
   (.nam (b "123456789000000") false true, 0, ""),
   (.selImsi (b "123456789000000"), 0, "struct hlr_subscriber {\n  .id = 1,\n  .imsi = '123456789000000',\n  .msisdn = '543210123456789',\n  .nam_ps = false,\n}"),
   (.nam (b "123456789000000") false false, 0, ""),
   (.selImsi (b "123456789000000"), 0, "struct hlr_subscriber {\n  .id = 1,\n  .imsi = '123456789000000',\n  .msisdn = '543210123456789',\n  .nam_cs = false,\n  .nam_ps = false,\n}"),
   (.nam (b "123456789000000") false false, 0, ""),
   (.selImsi (b "123456789000000"), 0, "struct hlr_subscriber {\n  .id = 1,\n  .imsi = '123456789000000',\n  .msisdn = '543210123456789',\n  .nam_cs = false,\n  .nam_ps = false,\n}"),
   (.nam (b "123456789000000") true true, 0, ""),
   (.selImsi (b "123456789000000"), 0, "struct hlr_subscriber {\n  .id = 1,\n  .imsi = '123456789000000',\n  .msisdn = '543210123456789',\n  .nam_cs = false,\n}"),
   (.nam (b "123456789000000") true true, 0, ""),
   (.selImsi (b "123456789000000"), 0, "struct hlr_subscriber {\n  .id = 1,\n  .imsi = '123456789000000',\n  .msisdn = '543210123456789',\n  .nam_cs = false,\n}"),
   (.nam (b "123456789000000") true false, 0, ""),
   (.selImsi (b "123456789000000"), 0, "struct hlr_subscriber {\n  .id = 1,\n  .imsi = '123456789000000',\n  .msisdn = '543210123456789',\n}"),
   (.nam (b "123456789000000") true false, 0, ""),
   (.selImsi (b "123456789000000"), 0, "struct hlr_subscriber {\n  .id = 1,\n  .imsi = '123456789000000',\n  .msisdn = '543210123456789',\n}"),
   (.nam (b "999999999") false true, -2, ""),
   (.nam (b "999999999") false false, -2, ""),
   (.selImsi (b "999999999"), -2, ""),
   (.nam (b "foobar") false true, -2, ""),
   (.nam (b "foobar") false false, -2, ""),
   (.lu (1) (b "5952") true, 0, ""),
   (.selId (1), 0, "struct hlr_subscriber {\n  .id = 1,\n  .imsi = '123456789000000',\n  .msisdn = '543210123456789',\n  .sgsn_number = '5952',\n}"),
   (.lu (1) (b "712") false, 0, ""),
   (.selId (1), 0, "struct hlr_subscriber {\n  .id = 1,\n  .imsi = '123456789000000',\n  .msisdn = '543210123456789',\n  .vlr_number = '712',\n  .sgsn_number = '5952',\n}"),
   (.lu (1) (b "111") true, 0, ""),
   (.selId (1), 0, "struct hlr_subscriber {\n  .id = 1,\n  .imsi = '123456789000000',\n  .msisdn = '543210123456789',\n  .vlr_number = '712',\n  .sgsn_number = '111',\n}"),
   (.lu (1) (b "111") true, 0, ""),
   (.selId (1), 0, "struct hlr_subscriber {\n  .id = 1,\n  .imsi = '123456789000000',\n  .msisdn = '543210123456789',\n  .vlr_number = '712',\n  .sgsn_number = '111',\n}"),
   (.lu (1) (b "222") false, 0, ""),
   (.selId (1), 0, "struct hlr_subscriber {\n  .id = 1,\n  .imsi = '123456789000000',\n  .msisdn = '543210123456789',\n  .vlr_number = '222',\n  .sgsn_number = '111',\n}"),
   (.lu (1) (b "222") false, 0, ""),
   (.selId (1), 0, "struct hlr_subscriber {\n  .id = 1,\n  .imsi = '123456789000000',\n  .msisdn = '543210123456789',\n  .vlr_number = '222',\n  .sgsn_number = '111',\n}"),
   (.lu (1) (b "") true, 0, ""),
   (.selId (1), 0, "struct hlr_subscriber {\n  .id = 1,\n  .imsi = '123456789000000',\n  .msisdn = '543210123456789',\n  .vlr_number = '222',\n}"),
   (.lu (1) (b "") false, 0, ""),
   (.selId (1), 0, "struct hlr_subscriber {\n  .id = 1,\n  .imsi = '123456789000000',\n  .msisdn = '543210123456789',\n}"),
   (.lu (1) (b "111") true, 0, ""),
   (.lu (1) (b "222") false, 0, ""),
   (.selId (1), 0, "struct hlr_subscriber {\n  .id = 1,\n  .imsi = '123456789000000',\n  .msisdn = '543210123456789',\n  .vlr_number = '222',\n  .sgsn_number = '111',\n}"),
   (.lu (1) [] true, 0, ""),
   (.selId (1), 0, "struct hlr_subscriber {\n  .id = 1,\n  .imsi = '123456789000000',\n  .msisdn = '543210123456789',\n  .vlr_number = '222',\n}"),
   (.lu (1) [] false, 0, ""),
   (.selId (1), 0, "struct hlr_subscriber {\n  .id = 1,\n  .imsi = '123456789000000',\n  .msisdn = '543210123456789',\n}"),
   (.lu (99999) (b "5952") true, -2, ""),
   (.lu (99999) (b "712") false, -2, ""),
   (.selId (99999), -2, ""),
   (.purge (b "123456789000000") true true, 0, ""),
   (.selImsi (b "123456789000000"), 0, "struct hlr_subscriber {\n  .id = 1,\n  .imsi = '123456789000000',\n  .msisdn = '543210123456789',\n  .ms_purged_ps = true,\n}"),
   (.purge (b "123456789000000") true false, 0, ""),
   (.selImsi (b "123456789000000"), 0, "struct hlr_subscriber {\n  .id = 1,\n  .imsi = '123456789000000',\n  .msisdn = '543210123456789',\n  .ms_purged_cs = true,\n  .ms_purged_ps = true,\n}"),
   (.purge (b "123456789000000") false false, 0, ""),
   (.selImsi (b "123456789000000"), 0, "struct hlr_subscriber {\n  .id = 1,\n  .imsi = '123456789000000',\n  .msisdn = '543210123456789',\n  .ms_purged_ps = true,\n}"),
   (.purge (b "123456789000000") false true, 0, ""),
   (.selImsi (b "123456789000000"), 0, "struct hlr_subscriber {\n  .id = 1,\n  .imsi = '123456789000000',\n  .msisdn = '543210123456789',\n}"),
   (.purge (b "123456789000000") true true, 0, ""),
   (.selImsi (b "123456789000000"), 0, "struct hlr_subscriber {\n  .id = 1,\n  .imsi = '123456789000000',\n  .msisdn = '543210123456789',\n  .ms_purged_ps = true,\n}"),
   (.purge (b "123456789000000") true true, 0, ""),
   (.selImsi (b "123456789000000"), 0, "struct hlr_subscriber {\n  .id = 1,\n  .imsi = '123456789000000',\n  .msisdn = '543210123456789',\n  .ms_purged_ps = true,\n}"),
   (.purge (b "123456789000000") false true, 0, ""),
   (.selImsi (b "123456789000000"), 0, "struct hlr_subscriber {\n  .id = 1,\n  .imsi = '123456789000000',\n  .msisdn = '543210123456789',\n}"),
   (.purge (b "123456789000000") false true, 0, ""),
   (.selImsi (b "123456789000000"), 0, "struct hlr_subscriber {\n  .id = 1,\n  .imsi = '123456789000000',\n  .msisdn = '543210123456789',\n}"),
   (.purge (b "123456789000000") true false, 0, ""),
   (.selImsi (b "123456789000000"), 0, "struct hlr_subscriber {\n  .id = 1,\n  .imsi = '123456789000000',\n  .msisdn = '543210123456789',\n  .ms_purged_cs = true,\n}"),
   (.purge (b "123456789000000") true false, 0, ""),
   (.selImsi (b "123456789000000"), 0, "struct hlr_subscriber {\n  .id = 1,\n  .imsi = '123456789000000',\n  .msisdn = '543210123456789',\n  .ms_purged_cs = true,\n}"),
   (.purge (b "123456789000000") false false, 0, ""),
   (.selImsi (b "123456789000000"), 0, "struct hlr_subscriber {\n  .id = 1,\n  .imsi = '123456789000000',\n  .msisdn = '543210123456789',\n}"),
   (.purge (b "123456789000000") false false, 0, ""),
   (.selImsi (b "123456789000000"), 0, "struct hlr_subscriber {\n  .id = 1,\n  .imsi = '123456789000000',\n  .msisdn = '543210123456789',\n}"),
   (.purge (b "999999999") true true, -2, ""),
   (.selImsi (b "999999999"), -2, ""),
   (.purge (b "999999999") true false, -2, ""),
   (.selImsi (b "999999999"), -2, ""),
   (.del (999), -2, ""),
   (.del (-10), -2, ""),
   (.selImsi (b "123456789000000"), 0, "struct hlr_subscriber {\n  .id = 1,\n  .imsi = '123456789000000',\n  .msisdn = '543210123456789',\n}"),
   (.del (1), 0, ""),
   (.selImsi (b "123456789000000"), -2, ""),
   (.del (1), -2, ""),
   (.selImsi (b "123456789000001"), 0, "struct hlr_subscriber {\n  .id = 2,\n  .imsi = '123456789000001',\n}"),
   (.del (2), 0, ""),
   (.selImsi (b "123456789000001"), -2, ""),
   (.selImsi (b "123456789000002"), 0, "struct hlr_subscriber {\n  .id = 3,\n  .imsi = '123456789000002',\n}"),
   (.del (3), 0, ""),
   (.selImsi (b "123456789000002"), -2, ""),
   (.selImsi (b "123456"), 0, "struct hlr_subscriber {\n  .id = 4,\n  .imsi = '123456',\n}"),
   (.del (4), 0, ""),
   (.selImsi (b "123456"), -2, ""),
   (.create (b "123456789000000") false false, 0, ""),
   (.selImsi (b "123456789000000"), 0, "struct hlr_subscriber {\n  .id = 1,\n  .imsi = '123456789000000',\n  .nam_cs = false,\n  .nam_ps = false,\n}"),
   (.create (b "123456789000001") true false, 0, ""),
   (.selImsi (b "123456789000001"), 0, "struct hlr_subscriber {\n  .id = 2,\n  .imsi = '123456789000001',\n  .nam_ps = false,\n}"),
   (.create (b "123456789000002") false true, 0, ""),
   (.selImsi (b "123456789000002"), 0, "struct hlr_subscriber {\n  .id = 3,\n  .imsi = '123456789000002',\n  .nam_cs = false,\n}"),
   (.del (1), 0, ""),
   (.del (2), 0, ""),
   (.del (3), 0, "")]

/-- `test_subscr_aud` in tests/db/db_test.c and db_test.err. -/
def test_subscr_aud : List (Op × Int × String) :=
  [(.auth (b "999999999"), -2, ""),
   (.auc (b "123456789000000"), -2, ""),
   (.create (b "123456789000000") true true, 0, ""),
   (.selImsi (b "123456789000000"), 0, "struct hlr_subscriber {\n  .id = 1,\n  .imsi = '123456789000000',\n}"),
   (.auth (b "123456789000000"), -126, ""),
   (.auc (b "123456789000000"), -126, ""),
   (.aud (1) (.gsm .comp128v1 (b "0123456789abcdef0123456789abcdef")), 0, ""),
   (.auth (b "123456789000000"), 0, "2G: struct osmo_sub_auth_data2 {\n  .type = GSM,\n  .algo = COMP128v1,\n  .u.gsm.ki = '0123456789abcdef0123456789abcdef',\n}\n3G: none"),
   (.auc (b "123456789000000"), 3, ""),
   (.aud (1) (.gsm .comp128v1 (b "0123456789abcdef0123456789abcdef")), 0, ""),
   (.auth (b "123456789000000"), 0, "2G: struct osmo_sub_auth_data2 {\n  .type = GSM,\n  .algo = COMP128v1,\n  .u.gsm.ki = '0123456789abcdef0123456789abcdef',\n}\n3G: none"),
   (.aud (1) (.gsm .comp128v2 (b "BeadedBeeAced1EbbedDefacedFacade")), 0, ""),
   (.auth (b "123456789000000"), 0, "2G: struct osmo_sub_auth_data2 {\n  .type = GSM,\n  .algo = COMP128v2,\n  .u.gsm.ki = 'beadedbeeaced1ebbeddefacedfacade',\n}\n3G: none"),
   (.aud (1) (.gsm .comp128v3 (b "DeafBeddedBabeAcceededFadedDecaf")), 0, ""),
   (.auth (b "123456789000000"), 0, "2G: struct osmo_sub_auth_data2 {\n  .type = GSM,\n  .algo = COMP128v3,\n  .u.gsm.ki = 'deafbeddedbabeacceededfadeddecaf',\n}\n3G: none"),
   (.aud (1) (.gsm .xor2g (b "CededEffacedAceFacedBadFadedBeef")), 0, ""),
   (.auth (b "123456789000000"), 0, "2G: struct osmo_sub_auth_data2 {\n  .type = GSM,\n  .algo = XOR-2G,\n  .u.gsm.ki = 'cededeffacedacefacedbadfadedbeef',\n}\n3G: none"),
   (.aud (1) (.gsm .none []), 0, ""),
   (.auth (b "123456789000000"), -126, ""),
   (.auc (b "123456789000000"), -126, ""),
   (.aud (1) (.gsm .none []), -2, ""),
   (.aud (1) (.gsm .xor2g (b "CededEffacedAceFacedBadFadedBeef")), 0, ""),
   (.auth (b "123456789000000"), 0, "2G: struct osmo_sub_auth_data2 {\n  .type = GSM,\n  .algo = XOR-2G,\n  .u.gsm.ki = 'cededeffacedacefacedbadfadedbeef',\n}\n3G: none"),
   (.aud (1) (.gsm .none (b "f000000000000f00000000000f000000")), 0, ""),
   (.auth (b "123456789000000"), -126, ""),
   (.auc (b "123456789000000"), -126, ""),
   (.aud (1) (.umts .milenage (b "C01ffedC1cadaeAc1d1f1edAcac1aB0a") (b "BeefedCafeFaceAcedAddedDecadeFee") true 5), 0, ""),
   (.auth (b "123456789000000"), 0, "2G: none\n3G: struct osmo_sub_auth_data2 {\n  .type = UMTS,\n  .algo = MILENAGE,\n  .u.umts.opc = 'beefedcafefaceacedaddeddecadefee',\n  .u.umts.opc_is_op = 1,\n  .u.umts.k = 'c01ffedc1cadaeac1d1f1edacac1ab0a',\n  .u.umts.amf = '0000',\n  .u.umts.ind_bitlen = 5,\n}"),
   (.auc (b "123456789000000"), 3, ""),
   (.aud (1) (.umts .milenage (b "C01ffedC1cadaeAc1d1f1edAcac1aB0a") (b "BeefedCafeFaceAcedAddedDecadeFee") true 5), 0, ""),
   (.auth (b "123456789000000"), 0, "2G: none\n3G: struct osmo_sub_auth_data2 {\n  .type = UMTS,\n  .algo = MILENAGE,\n  .u.umts.opc = 'beefedcafefaceacedaddeddecadefee',\n  .u.umts.opc_is_op = 1,\n  .u.umts.k = 'c01ffedc1cadaeac1d1f1edacac1ab0a',\n  .u.umts.amf = '0000',\n  .u.umts.ind_bitlen = 5,\n}"),
   (.aud (1) (.umts .milenage (b "F1bbed0afD0eF0bD0ffed0ddF1fe0b0e") (b "Deaf0ff1ceD0d0DabbedD1ced1ceF00d") true 0), 0, ""),
   (.auth (b "123456789000000"), 0, "2G: none\n3G: struct osmo_sub_auth_data2 {\n  .type = UMTS,\n  .algo = MILENAGE,\n  .u.umts.opc = 'deaf0ff1ced0d0dabbedd1ced1cef00d',\n  .u.umts.opc_is_op = 1,\n  .u.umts.k = 'f1bbed0afd0ef0bd0ffed0ddf1fe0b0e',\n  .u.umts.amf = '0000',\n}"),
   (.aud (1) (.umts .milenage (b "DeafBeddedBabeAcceededFadedDecaf") (b "BeefedCafeFaceAcedAddedDecadeFee") false 28), 0, ""),
   (.auth (b "123456789000000"), 0, "2G: none\n3G: struct osmo_sub_auth_data2 {\n  .type = UMTS,\n  .algo = MILENAGE,\n  .u.umts.opc = 'beefedcafefaceacedaddeddecadefee',\n  .u.umts.opc_is_op = 0,\n  .u.umts.k = 'deafbeddedbabeacceededfadeddecaf',\n  .u.umts.amf = '0000',\n  .u.umts.ind_bitlen = 28,\n}"),
   (.aud (1) (.umts .milenage (b "BeefedCafeFaceAcedAddedDecadeFee") (b "CededEffacedAceFacedBadFadedBeef") false 5), 0, ""),
   (.auth (b "123456789000000"), 0, "2G: none\n3G: struct osmo_sub_auth_data2 {\n  .type = UMTS,\n  .algo = MILENAGE,\n  .u.umts.opc = 'cededeffacedacefacedbadfadedbeef',\n  .u.umts.opc_is_op = 0,\n  .u.umts.k = 'beefedcafefaceacedaddeddecadefee',\n  .u.umts.amf = '0000',\n  .u.umts.ind_bitlen = 5,\n}"),
   (.aud (1) (.umts .none [] [] false 0), 0, ""),
   (.auth (b "123456789000000"), -126, ""),
   (.auc (b "123456789000000"), -126, ""),
   (.aud (1) (.umts .none [] [] false 0), -2, ""),
   (.aud (1) (.umts .milenage (b "BeefedCafeFaceAcedAddedDecadeFee") (b "CededEffacedAceFacedBadFadedBeef") false 5), 0, ""),
   (.auth (b "123456789000000"), 0, "2G: none\n3G: struct osmo_sub_auth_data2 {\n  .type = UMTS,\n  .algo = MILENAGE,\n  .u.umts.opc = 'cededeffacedacefacedbadfadedbeef',\n  .u.umts.opc_is_op = 0,\n  .u.umts.k = 'beefedcafefaceacedaddeddecadefee',\n  .u.umts.amf = '0000',\n  .u.umts.ind_bitlen = 5,\n}"),
   (.auc (b "123456789000000"), 3, ""),
   (.aud (1) (.umts .none (b "asdfasdfasdf") (b "asdfasdfasd") false 99999), 0, ""),
   (.auth (b "123456789000000"), -126, ""),
   (.auc (b "123456789000000"), -126, ""),
   (.aud (1) (.gsm .comp128v3 (b "CededEffacedAceFacedBadFadedBeef")), 0, ""),
   (.aud (1) (.umts .milenage (b "DeafBeddedBabeAcceededFadedDecaf") (b "BeefedCafeFaceAcedAddedDecadeFee") false 5), 0, ""),
   (.auth (b "123456789000000"), 0, "2G: struct osmo_sub_auth_data2 {\n  .type = GSM,\n  .algo = COMP128v3,\n  .u.gsm.ki = 'cededeffacedacefacedbadfadedbeef',\n}\n3G: struct osmo_sub_auth_data2 {\n  .type = UMTS,\n  .algo = MILENAGE,\n  .u.umts.opc = 'beefedcafefaceacedaddeddecadefee',\n  .u.umts.opc_is_op = 0,\n  .u.umts.k = 'deafbeddedbabeacceededfadeddecaf',\n  .u.umts.amf = '0000',\n  .u.umts.ind_bitlen = 5,\n}"),
   (.auc (b "123456789000000"), 3, ""),
   (.aud (1) (.gsm (.other 99999) (b "f000000000000f00000000000f000000")), -22, ""),
   (.auth (b "123456789000000"), 0, "2G: struct osmo_sub_auth_data2 {\n  .type = GSM,\n  .algo = COMP128v3,\n  .u.gsm.ki = 'cededeffacedacefacedbadfadedbeef',\n}\n3G: struct osmo_sub_auth_data2 {\n  .type = UMTS,\n  .algo = MILENAGE,\n  .u.umts.opc = 'beefedcafefaceacedaddeddecadefee',\n  .u.umts.opc_is_op = 0,\n  .u.umts.k = 'deafbeddedbabeacceededfadeddecaf',\n  .u.umts.amf = '0000',\n  .u.umts.ind_bitlen = 5,\n}"),
   (.aud (1) (.gsm .xor2g (b "f000000000000f00000000000f000000f00000000")), -22, ""),
   (.auth (b "123456789000000"), 0, "2G: struct osmo_sub_auth_data2 {\n  .type = GSM,\n  .algo = COMP128v3,\n  .u.gsm.ki = 'cededeffacedacefacedbadfadedbeef',\n}\n3G: struct osmo_sub_auth_data2 {\n  .type = UMTS,\n  .algo = MILENAGE,\n  .u.umts.opc = 'beefedcafefaceacedaddeddecadefee',\n  .u.umts.opc_is_op = 0,\n  .u.umts.k = 'deafbeddedbabeacceededfadeddecaf',\n  .u.umts.amf = '0000',\n  .u.umts.ind_bitlen = 5,\n}"),
   (.aud (1) (.gsm .xor2g (b "f00")), -22, ""),
   (.auth (b "123456789000000"), 0, "2G: struct osmo_sub_auth_data2 {\n  .type = GSM,\n  .algo = COMP128v3,\n  .u.gsm.ki = 'cededeffacedacefacedbadfadedbeef',\n}\n3G: struct osmo_sub_auth_data2 {\n  .type = UMTS,\n  .algo = MILENAGE,\n  .u.umts.opc = 'beefedcafefaceacedaddeddecadefee',\n  .u.umts.opc_is_op = 0,\n  .u.umts.k = 'deafbeddedbabeacceededfadeddecaf',\n  .u.umts.amf = '0000',\n  .u.umts.ind_bitlen = 5,\n}"),
   (.aud (1) (.gsm .milenage (b "0123456789abcdef0123456789abcdef")), -22, ""),
   (.auth (b "123456789000000"), 0, "2G: struct osmo_sub_auth_data2 {\n  .type = GSM,\n  .algo = COMP128v3,\n  .u.gsm.ki = 'cededeffacedacefacedbadfadedbeef',\n}\n3G: struct osmo_sub_auth_data2 {\n  .type = UMTS,\n  .algo = MILENAGE,\n  .u.umts.opc = 'beefedcafefaceacedaddeddecadefee',\n  .u.umts.opc_is_op = 0,\n  .u.umts.k = 'deafbeddedbabeacceededfadeddecaf',\n  .u.umts.amf = '0000',\n  .u.umts.ind_bitlen = 5,\n}"),
   (.aud (1) (.umts .milenage (b "f000000000000f00000000000f000000") (b "0f000000000000f00000000000f000000") false 5), -22, ""),
   (.auth (b "123456789000000"), 0, "2G: struct osmo_sub_auth_data2 {\n  .type = GSM,\n  .algo = COMP128v3,\n  .u.gsm.ki = 'cededeffacedacefacedbadfadedbeef',\n}\n3G: struct osmo_sub_auth_data2 {\n  .type = UMTS,\n  .algo = MILENAGE,\n  .u.umts.opc = 'beefedcafefaceacedaddeddecadefee',\n  .u.umts.opc_is_op = 0,\n  .u.umts.k = 'deafbeddedbabeacceededfadeddecaf',\n  .u.umts.amf = '0000',\n  .u.umts.ind_bitlen = 5,\n}"),
   (.aud (1) (.umts .milenage (b "000000000000f00000000000f000000") (b "f000000000000f00000000000f000000") false 5), -22, ""),
   (.auth (b "123456789000000"), 0, "2G: struct osmo_sub_auth_data2 {\n  .type = GSM,\n  .algo = COMP128v3,\n  .u.gsm.ki = 'cededeffacedacefacedbadfadedbeef',\n}\n3G: struct osmo_sub_auth_data2 {\n  .type = UMTS,\n  .algo = MILENAGE,\n  .u.umts.opc = 'beefedcafefaceacedaddeddecadefee',\n  .u.umts.opc_is_op = 0,\n  .u.umts.k = 'deafbeddedbabeacceededfadeddecaf',\n  .u.umts.amf = '0000',\n  .u.umts.ind_bitlen = 5,\n}"),
   (.aud (1) (.umts .milenage (b "f000000000000f00000000000f000000") (b "f000000000000f00000000000f000000") false 29), -22, ""),
   (.auth (b "123456789000000"), 0, "2G: struct osmo_sub_auth_data2 {\n  .type = GSM,\n  .algo = COMP128v3,\n  .u.gsm.ki = 'cededeffacedacefacedbadfadedbeef',\n}\n3G: struct osmo_sub_auth_data2 {\n  .type = UMTS,\n  .algo = MILENAGE,\n  .u.umts.opc = 'beefedcafefaceacedaddeddecadefee',\n  .u.umts.opc_is_op = 0,\n  .u.umts.k = 'deafbeddedbabeacceededfadeddecaf',\n  .u.umts.amf = '0000',\n  .u.umts.ind_bitlen = 5,\n}"),
   (.aud (1) (.umts .milenage (b "f000000000000f00000000000f000000") (b "X000000000000f00000000000f000000") false 5), -22, ""),
   (.auth (b "123456789000000"), 0, "2G: struct osmo_sub_auth_data2 {\n  .type = GSM,\n  .algo = COMP128v3,\n  .u.gsm.ki = 'cededeffacedacefacedbadfadedbeef',\n}\n3G: struct osmo_sub_auth_data2 {\n  .type = UMTS,\n  .algo = MILENAGE,\n  .u.umts.opc = 'beefedcafefaceacedaddeddecadefee',\n  .u.umts.opc_is_op = 0,\n  .u.umts.k = 'deafbeddedbabeacceededfadeddecaf',\n  .u.umts.amf = '0000',\n  .u.umts.ind_bitlen = 5,\n}"),
   (.aud (1) (.umts .milenage (b "f000000000000 f00000000000 f000000") (b "f000000000000f00000000000f000000") false 5), -22, ""),
   (.auth (b "123456789000000"), 0, "2G: struct osmo_sub_auth_data2 {\n  .type = GSM,\n  .algo = COMP128v3,\n  .u.gsm.ki = 'cededeffacedacefacedbadfadedbeef',\n}\n3G: struct osmo_sub_auth_data2 {\n  .type = UMTS,\n  .algo = MILENAGE,\n  .u.umts.opc = 'beefedcafefaceacedaddeddecadefee',\n  .u.umts.opc_is_op = 0,\n  .u.umts.k = 'deafbeddedbabeacceededfadeddecaf',\n  .u.umts.amf = '0000',\n  .u.umts.ind_bitlen = 5,\n}"),
   (.selImsi (b "123456789000000"), 0, "struct hlr_subscriber {\n  .id = 1,\n  .imsi = '123456789000000',\n}"),
   (.del (1), 0, ""),
   (.selImsi (b "123456789000000"), -2, ""),
   (.create (b "123456789000000") true true, 0, ""),
   (.selImsi (b "123456789000000"), 0, "struct hlr_subscriber {\n  .id = 1,\n  .imsi = '123456789000000',\n}"),
   (.auth (b "123456789000000"), -126, ""),
   (.auc (b "123456789000000"), -126, ""),
   (.del (1), 0, ""),
   (.selImsi (b "123456789000000"), -2, ""),
   (.auc (b "123456789000000"), -2, "")]

/-- `test_subscr_aud_invalid_len` in tests/db/db_test.c and db_test.err. -/
def test_subscr_aud_invalid_len : List (Op × Int × String) :=
  [(.create (b "123456789000000") true true, 0, ""),
   (.selImsi (b "123456789000000"), 0, "struct hlr_subscriber {\n  .id = 1,\n  .imsi = '123456789000000',\n}"),
   (.aud (1) (.gsm .comp128v1 (b "0123456789abcdef0123456789abcdef")), 0, ""),
   (.raw_ki (b "0123456789abcdef0123456789abcde"), 0, ""),
   (.auth (b "123456789000000"), -126, ""),
   (.aud (1) (.gsm .none []), 0, ""),
   (.aud (1) (.umts .milenage (b "C01ffedC1cadaeAc1d1f1edAcac1aB0a") (b "BeefedCafeFaceAcedAddedDecadeFee") true 5), 0, ""),
   (.raw_k (b "C01ffedC1cadaeAc1d1f1edAcac1aB0"), 0, ""),
   (.auth (b "123456789000000"), -5, ""),
   (.aud (1) (.umts .milenage (b "C01ffedC1cadaeAc1d1f1edAcac1aB0a") (b "BeefedCafeFaceAcedAddedDecadeFee") true 5), 0, ""),
   (.raw_op (b "BeefedCafeFaceAcedAddedDecadeFe"), 0, ""),
   (.auth (b "123456789000000"), -5, ""),
   (.aud (1) (.umts .milenage (b "C01ffedC1cadaeAc1d1f1edAcac1aB0a") (b "BeefedCafeFaceAcedAddedDecadeFee") false 5), 0, ""),
   (.raw_opc (b "BeefedCafeFaceAcedAddedDecadeFe"), 0, ""),
   (.auth (b "123456789000000"), -5, ""),
   (.del (1), 0, "")]

/-- `test_subscr_sqn` in tests/db/db_test.c and db_test.err. -/
def test_subscr_sqn : List (Op × Int × String) :=
  [(.sqn (99) 999, -2, ""),
   (.selId (99), -2, ""),
   (.sqn (9999) 99, -2, ""),
   (.selId (9999), -2, ""),
   (.create (b "123456789000000") true true, 0, ""),
   (.selImsi (b "123456789000000"), 0, "struct hlr_subscriber {\n  .id = 1,\n  .imsi = '123456789000000',\n}"),
   (.auth (b "123456789000000"), -126, ""),
   (.sqn (1) 123, -2, ""),
   (.auth (b "123456789000000"), -126, ""),
   (.sqn (1) 543, -2, ""),
   (.auth (b "123456789000000"), -126, ""),
   (.aud (1) (.umts .milenage (b "C01ffedC1cadaeAc1d1f1edAcac1aB0a") (b "BeefedCafeFaceAcedAddedDecadeFee") true 5), 0, ""),
   (.auth (b "123456789000000"), 0, "2G: none\n3G: struct osmo_sub_auth_data2 {\n  .type = UMTS,\n  .algo = MILENAGE,\n  .u.umts.opc = 'beefedcafefaceacedaddeddecadefee',\n  .u.umts.opc_is_op = 1,\n  .u.umts.k = 'c01ffedc1cadaeac1d1f1edacac1ab0a',\n  .u.umts.amf = '0000',\n  .u.umts.ind_bitlen = 5,\n}"),
   (.sqn (1) 23315, 0, ""),
   (.auth (b "123456789000000"), 0, "2G: none\n3G: struct osmo_sub_auth_data2 {\n  .type = UMTS,\n  .algo = MILENAGE,\n  .u.umts.opc = 'beefedcafefaceacedaddeddecadefee',\n  .u.umts.opc_is_op = 1,\n  .u.umts.k = 'c01ffedc1cadaeac1d1f1edacac1ab0a',\n  .u.umts.amf = '0000',\n  .u.umts.sqn = 23315,\n  .u.umts.sqn = 0x5b13,\n  .u.umts.ind_bitlen = 5,\n}"),
   (.sqn (1) 23315, 0, ""),
   (.auth (b "123456789000000"), 0, "2G: none\n3G: struct osmo_sub_auth_data2 {\n  .type = UMTS,\n  .algo = MILENAGE,\n  .u.umts.opc = 'beefedcafefaceacedaddeddecadefee',\n  .u.umts.opc_is_op = 1,\n  .u.umts.k = 'c01ffedc1cadaeac1d1f1edacac1ab0a',\n  .u.umts.amf = '0000',\n  .u.umts.sqn = 23315,\n  .u.umts.sqn = 0x5b13,\n  .u.umts.ind_bitlen = 5,\n}"),
   (.sqn (1) 423, 0, ""),
   (.auth (b "123456789000000"), 0, "2G: none\n3G: struct osmo_sub_auth_data2 {\n  .type = UMTS,\n  .algo = MILENAGE,\n  .u.umts.opc = 'beefedcafefaceacedaddeddecadefee',\n  .u.umts.opc_is_op = 1,\n  .u.umts.k = 'c01ffedc1cadaeac1d1f1edacac1ab0a',\n  .u.umts.amf = '0000',\n  .u.umts.sqn = 423,\n  .u.umts.sqn = 0x1a7,\n  .u.umts.ind_bitlen = 5,\n}"),
   (.sqn (1) 0, 0, ""),
   (.auth (b "123456789000000"), 0, "2G: none\n3G: struct osmo_sub_auth_data2 {\n  .type = UMTS,\n  .algo = MILENAGE,\n  .u.umts.opc = 'beefedcafefaceacedaddeddecadefee',\n  .u.umts.opc_is_op = 1,\n  .u.umts.k = 'c01ffedc1cadaeac1d1f1edacac1ab0a',\n  .u.umts.amf = '0000',\n  .u.umts.ind_bitlen = 5,\n}"),
   (.sqn (1) 9223372036854775807, 0, ""),
   (.auth (b "123456789000000"), 0, "2G: none\n3G: struct osmo_sub_auth_data2 {\n  .type = UMTS,\n  .algo = MILENAGE,\n  .u.umts.opc = 'beefedcafefaceacedaddeddecadefee',\n  .u.umts.opc_is_op = 1,\n  .u.umts.k = 'c01ffedc1cadaeac1d1f1edacac1ab0a',\n  .u.umts.amf = '0000',\n  .u.umts.sqn = 9223372036854775807,\n  .u.umts.sqn = 0x7fffffffffffffff,\n  .u.umts.ind_bitlen = 5,\n}"),
   (.sqn (1) 9223372036854775808, 0, ""),
   (.auth (b "123456789000000"), 0, "2G: none\n3G: struct osmo_sub_auth_data2 {\n  .type = UMTS,\n  .algo = MILENAGE,\n  .u.umts.opc = 'beefedcafefaceacedaddeddecadefee',\n  .u.umts.opc_is_op = 1,\n  .u.umts.k = 'c01ffedc1cadaeac1d1f1edacac1ab0a',\n  .u.umts.amf = '0000',\n  .u.umts.sqn = 9223372036854775808,\n  .u.umts.sqn = 0x8000000000000000,\n  .u.umts.ind_bitlen = 5,\n}"),
   (.sqn (1) 18446744073709551615, 0, ""),
   (.auth (b "123456789000000"), 0, "2G: none\n3G: struct osmo_sub_auth_data2 {\n  .type = UMTS,\n  .algo = MILENAGE,\n  .u.umts.opc = 'beefedcafefaceacedaddeddecadefee',\n  .u.umts.opc_is_op = 1,\n  .u.umts.k = 'c01ffedc1cadaeac1d1f1edacac1ab0a',\n  .u.umts.amf = '0000',\n  .u.umts.sqn = 18446744073709551615,\n  .u.umts.sqn = 0xffffffffffffffff,\n  .u.umts.ind_bitlen = 5,\n}"),
   (.selImsi (b "123456789000000"), 0, "struct hlr_subscriber {\n  .id = 1,\n  .imsi = '123456789000000',\n}"),
   (.del (1), 0, ""),
   (.selImsi (b "123456789000000"), -2, "")]

/-- `test_ind` in tests/db/db_test.c and db_test.err. -/
def test_ind : List (Op × Int × String) :=
  [(.ind (b "msc-23" ++ [0]), 0, "1"),
   (.ind (b "sgsn-11" ++ [0]), 0, "2"),
   (.ind (b "msc-42" ++ [0]), 0, "3"),
   (.ind (b "sgsn-22" ++ [0]), 0, "4"),
   (.ind (b "msc-0x17" ++ [0]), 0, "5"),
   (.ind (b "sgsn-0xaa" ++ [0]), 0, "6"),
   (.ind (b "msc-42" ++ [0]), 0, "3"),
   (.ind (b "sgsn-22" ++ [0]), 0, "4"),
   (.ind (b "msc-0x17" ++ [0]), 0, "5"),
   (.ind (b "sgsn-0xaa" ++ [0]), 0, "6"),
   (.ind (b "sgsn-0xbb" ++ [0]), 0, "7"),
   (.ind (b "msc-0x2a" ++ [0]), 0, "8"),
   (.ind (b "msc-42" ++ [0]), 0, "3"),
   (.ind (b "sgsn-22" ++ [0]), 0, "4"),
   (.ind (b "msc-23" ++ [0]), 0, "1"),
   (.ind (b "sgsn-11" ++ [0]), 0, "2"),
   (.indDel (b "msc-0x17" ++ [0]), 0, ""),
   (.ind (b "msc-0x2a" ++ [0]), 0, "8"),
   (.ind (b "any-unknown" ++ [0]), 0, "9")]

-- Each test of db_test.c runs on the database the preceding ones left behind.
#guard replay 0 {} (test_subscr_create_update_sel_delete ++ test_subscr_aud ++ test_subscr_aud_invalid_len ++ test_subscr_sqn ++ test_ind) == none

-- So many results are compared.
#guard (test_subscr_create_update_sel_delete ++ test_subscr_aud ++ test_subscr_aud_invalid_len ++ test_subscr_sqn ++ test_ind).length == 316

end Verif.Db.Transcript
