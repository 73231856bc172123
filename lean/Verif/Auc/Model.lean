import Verif.Db.Model
/-!
# Authentication vectors: `src/auc.c`, `src/db_auc.c`
-/
namespace Verif.Auc
open Verif Verif.Db

/-- `struct osmo_sub_auth_data2` with `type == OSMO_AUTH_TYPE_GSM` (libosmocore
crypt/auth.h); `type` is implied by where the record is stored. -/
structure Aud2 where
  algo : Algo
  ki : Bytes
deriving DecidableEq, Repr

/-- `struct osmo_sub_auth_data2` with `type == OSMO_AUTH_TYPE_UMTS`.  Of `amf` only
the separation bit is set by the code (db_auc.c 229-234). -/
structure Aud3 where
  algo : Algo
  k : Bytes
  opc : Bytes
  isOp : Bool
  sqn : Nat
  bl : Nat
  ind : Nat := 0
  sep : Bool := false
deriving DecidableEq, Repr

/-- `struct osmo_auth_vector`, as far as it is observable: `umts` is `none` for a
vector without the UMTS part (`auth_types` lacks OSMO_AUTH_TYPE_UMTS), else the
48-bit sequence number concealed in AUTN and the remaining UMTS values. -/
structure Vec where
  rand : Bytes
  umts : Option (Nat × Bytes)
  kc : Bytes
  sres : Bytes
deriving DecidableEq, Repr

/-- The cryptographic functions of libosmocore, left arbitrary.  `none` is a
negative return code.
* `gsm algo ki rand` = (Kc, SRES);
* `umts algo k opc opc_is_op sep sqn rand` = (UMTS values, derived Kc, derived SRES);
* `auts algo k opc opc_is_op rand_auts auts` = the USIM's sequence number, `none` if
  the AUTS does not verify. -/
structure Crypto where
  gsm : Algo → Bytes → Bytes → Option (Bytes × Bytes)
  umts : Algo → Bytes → Bytes → Bool → Bool → Nat → Bytes → Option (Bytes × Bytes × Bytes)
  auts : Algo → Bytes → Bytes → Bool → Bytes → Bytes → Option Nat

/-- libosmocore `milenage_gen_vec()` and `tuak_gen_vec()`:
`next_sqn = ((sqn + (1 << ind_bitlen)) & ~ind_mask) + ind` in 64-bit arithmetic
(the values 31 → 32, 32 → 33 with ind_bitlen 0, and those with ind_bitlen 5, in
tests/auc/auc_test.c and auc_test.err, tests/db/db_test.c agree with it). -/
def nextSqn (bl ind sqn : Nat) : Nat :=
  ((sqn + 2 ^ bl) % 2 ^ 64 / 2 ^ bl * 2 ^ bl + ind) % 2 ^ 64

/-- libosmocore `xor_gen_vec()`: the algorithm XOR-3G uses the sequence number as it is
and does not advance it (recorded in tests/auc/auc_test.err 220-240: it is 0 before
and after, and in the vector). -/
def genXor (c : Crypto) (a : Aud3) (rand : Bytes) : Option Vec × Aud3 :=
  match c.umts a.algo a.k a.opc a.isOp a.sep a.sqn rand with
  | none => (none, a)
  | some (u, kc, sres) =>
    (some { rand := rand, umts := some (a.sqn % 2 ^ 48, u), kc := kc, sres := sres }, a)

/-- libosmocore `osmo_auth_gen_vec2()` for UMTS: IND length and value are checked,
the sequence number is only advanced on success; AUTN carries its low 48 bits. -/
def genUmts (c : Crypto) (a : Aud3) (rand : Bytes) : Option Vec × Aud3 :=
  if a.algo = .xor3g then genXor c a rand
  else if indBitlenMax < a.bl then (none, a)
  else if 2 ^ a.bl ≤ a.ind then (none, a)
  else
    let s := nextSqn a.bl a.ind a.sqn
    match c.umts a.algo a.k a.opc a.isOp a.sep s rand with
    | none => (none, a)
    | some (u, kc, sres) =>
      (some { rand := rand, umts := some (s % 2 ^ 48, u), kc := kc, sres := sres },
       { a with sqn := s })

/-- libosmocore `osmo_auth_gen_vec_auts2()` for UMTS: verify AUTS, take over the
(48-bit) sequence number of the USIM, then generate as usual. -/
def genUmtsAuts (c : Crypto) (a : Aud3) (randAuts auts rand : Bytes) : Option Vec × Aud3 :=
  match c.auts a.algo a.k a.opc a.isOp randAuts auts with
  | none => (none, a)
  | some ms => genUmts c { a with sqn := ms % 2 ^ 48 } rand

/-- One turn of the loop in auc_compute_vectors (auc.c 106-182) with the random
challenge `rand`; `resync` is (rand_auts, auts) if AUTS is to be used for it. -/
def oneVec (c : Crypto) (aud2 : Option Aud2) (aud3 : Option Aud3)
    (resync : Option (Bytes × Bytes)) (rand : Bytes) : Option Vec × Option Aud3 :=
  match aud3 with
  | some a =>
    let r := match resync with
      | some (ra, au) => genUmtsAuts c a ra au rand
      | none => genUmts c a rand
    match r.1 with
    | none => (none, some r.2)
    | some v =>
      match aud2 with
      | none => (some v, some r.2)
      | some g =>
        match c.gsm g.algo g.ki rand with
        | none => (none, some r.2)
        | some (kc, sres) => (some { v with kc := kc, sres := sres }, some r.2)
  | none =>
    match aud2 with
    | none => (none, none)
    | some g =>
      match c.gsm g.algo g.ki rand with
      | none => (none, none)
      | some (kc, sres) => (some { rand := rand, umts := none, kc := kc, sres := sres }, none)

/-- The loop of auc_compute_vectors (auc.c 106-184): `n` turns to go, the next one
has index `i`.  `rands i` is the outcome of `rand_get()` in turn `i`, `none` if it
did not deliver 16 bytes. -/
def vecLoop (c : Crypto) (rands : Nat → Option Bytes) (aud2 : Option Aud2)
    (resync : Option (Bytes × Bytes)) : Nat → Nat → Option Aud3 → List Vec × Option Aud3
  | 0, _, a => ([], a)
  | n + 1, i, a =>
    match rands i with
    | none => ([], a)
    | some r =>
      let x := oneVec c aud2 a (if i = 0 then resync else none) r
      match x.1 with
      | none => ([], x.2)
      | some v =>
        let y := vecLoop c rands aud2 resync n (i + 1) x.2
        (v :: y.1, y.2)

/-- auc_compute_vectors (auc.c 34-188).  Result: `none` for the return value -1, else
the vectors, and the 3G data as left behind (`aud3g->u.umts.sqn`).  The two type
checks (auc.c 65-75) cannot fail here because the type is implied. -/
def computeVectors (c : Crypto) (rands : Nat → Option Bytes) (n : Nat) (aud2 : Option Aud2)
    (aud3 : Option Aud3) (randAuts auts : Option Bytes) : Option (List Vec) × Option Aud3 :=
  let g := aud2.filter (fun a => a.algo != .none)
  let u := aud3.filter (fun a => a.algo != .none)
  if g.isNone && u.isNone then (none, aud3)
  else
    match randAuts, auts with
    | some _, none => (none, aud3)
    | none, some _ => (none, aud3)
    | some ra, some au =>
      if u.isNone then (none, aud3)
      else let r := vecLoop c rands g (some (ra, au)) n 0 u; (some r.1, r.2)
    | none, none =>
      let r := vecLoop c rands g none n 0 u
      (some r.1, if u.isNone then aud3 else r.2)

/-! ## Reading the keys -/

/-- Value of a hex digit. -/
def hexVal (c : UInt8) : Option UInt8 :=
  if 48 ≤ c && c ≤ 57 then some (c - 48)
  else if 97 ≤ c && c ≤ 102 then some (c - 87)
  else if 65 ≤ c && c ≤ 70 then some (c - 55)
  else none

/-- libosmocore `osmo_hexparse()`, without its tolerance for blanks (which the
length check in `hexCol` would mostly refuse anyway, and which cannot occur in
keys stored by osmo-hlr, see C07). -/
def hexparse : Bytes → Option Bytes
  | [] => some []
  | [_] => none
  | x :: y :: rest =>
    match hexVal x, hexVal y, hexparse rest with
    | some h, some l, some t => some ((h * 16 + l) :: t)
    | _, _, _ => none

/-- hexparse_stmt (db_auc.c 78-109) on a text column. -/
def hexCol (lo hi : Nat) (t : Bytes) : Option Bytes :=
  if t.length / 2 < lo then none
  else if hi < t.length / 2 then none
  else match hexparse t with
    | none => none
    | some x => if x.length = t.length / 2 then some x else none

/-- DB_STMT_AUC_BY_IMSI (db.c 69-74): subscriber LEFT JOIN auc_2g, auc_3g. -/
def sqlAuc (imsi : Bytes) (d : Db) : RRes (Int × Option Auc2 × Option Auc3) × Db :=
  (match d.subs.find? (·.imsi == imsi) with
   | some r => .row (r.id, d.auc2.find? (·.id == r.id), d.auc3.find? (·.id == r.id))
   | none => .done, d)

/-- The 2G part of db_get_auth_data (db_auc.c 149-158). -/
def load2 (a : Auc2) : Option Aud2 := (hexCol 16 16 a.ki).map (fun ki => { algo := a.algo, ki := ki })

/-- The 3G part of db_get_auth_data (db_auc.c 159-190); `none` is -EIO.  OP is
preferred over OPC; a NULL OPC has length 0 and is refused. -/
def load3 (a : Auc3) : Option Aud3 :=
  match hexCol 16 32 a.k with
  | none => none
  | some k =>
    match (match a.op with | some t => hexCol 16 32 t | none => hexCol 16 32 (a.opc.getD [])) with
    | none => none
    | some o => some { algo := a.algo, k := k, opc := o, isOp := a.op.isSome, sqn := a.sqn
                       bl := a.indBitlen }

/-- What db_get_auth_data (db_auc.c 115-200) delivers: an error code or the keys. -/
inductive Keys where
  | err (rc : Int)
  | keys (id : Int) (aud2 : Option Aud2) (aud3 : Option Aud3)
deriving DecidableEq, Repr

/-- db_auc.c 142-195 on the row of the SELECT. -/
def loadKeys (id : Int) (a2 : Option Auc2) (a3 : Option Auc3) : Keys :=
  let g := a2.bind load2
  match a3 with
  | none => if g.isNone then .err (-ENOKEY) else .keys id g none
  | some a => match load3 a with
    | none => .err (-EIO)
    | some u => .keys id g (some u)

/-- db_get_auth_data (db_auc.c 115-200). -/
def getAuthData (imsi : Bytes) : DbM Keys := do
  match ← stmt (sqlAuc imsi) .error with
  | .done => pure (.err (-ENOENT))
  | .error => pure (.err (-EIO))
  | .row (id, a2, a3) => pure (loadKeys id a2 a3)

/-! ## db_get_auc -/

/-- Outcome of db_get_auc: a non-negative return value with the vectors, a negative
one, or undefined behaviour (the shift `1U << ind_bitlen`, db_auc.c 226). -/
inductive AucRes where
  | vecs (l : List Vec)
  | err (rc : Int)
  | ub
deriving DecidableEq, Repr

/-- db_auc.c 247-261: store the sequence number, and withhold the vectors if that
fails. -/
def aucFinish (id : Int) (r : Option (List Vec) × Option Aud3) : DbM AucRes :=
  let ret : AucRes := match r.1 with | none => .err (-1) | some vs => .vecs vs
  match r.2 with
  | none => pure ret
  | some a =>
    if a.algo == .none then pure ret
    else do
      let rc ← updateSqn id a.sqn
      if rc < 0 then pure (.err (-1)) else pure ret

/-- db_get_auc (db_auc.c 205-262). -/
def dbGetAuc (c : Crypto) (rands : Nat → Option Bytes) (imsi : Bytes) (ind n : Nat)
    (randAuts auts : Option Bytes) (sep : Bool) : DbM AucRes := do
  match ← getAuthData imsi with
  | .err rc => pure (.err rc)
  | .keys id a2 a3 =>
    if (match a3 with | some a => decide (32 ≤ a.bl) | none => false) then pure .ub
    else
      aucFinish id (computeVectors c rands n a2
        (a3.map (fun a => { a with ind := ind % 2 ^ a.bl, sep := sep })) randAuts auts)

end Verif.Auc
