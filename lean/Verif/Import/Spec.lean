import Verif.Import.Model
import Verif.Db.Spec
/-!
# What importing an OsmoNITB database should achieve (C65)

The help text (hlr_db_tool.c 69-75): "Add OsmoNITB db's subscribers to OsmoHLR db. … only the
IMSI, MSISDN, IMEI, nam_cs/ps, 2G auth data and last seen LU are set. The most recently
associated IMEI from the Equipment table is used."
-/
namespace Verif.Import
open Verif Verif.Db

/-- How libdbi writes binary data into an SQLite text (the inverse of
dbd_decode_binary.c, for the offset `e`; libdbi is not in /repo): every byte less `e`, the
bytes 0, 1 and `'` escaped, a final NUL. -/
def encodeByte (e x : UInt8) : Bytes :=
  if x - e = 0 ∨ x - e = 1 ∨ x - e = 39 then [1, x - e + 1] else [x - e]

def encodeBinary (e : UInt8) (x : Bytes) : Bytes := e :: (x.flatMap (encodeByte e) ++ [0])

/-- A lower-case hexadecimal digit. -/
def hexChar (n : Nat) : UInt8 := ((b "0123456789abcdef")[n]?).getD 0

/-- Binary data in hexadecimal. -/
def hexText (x : Bytes) : Bytes := x.flatMap (fun c => [hexChar (c.toNat / 16), hexChar (c.toNat % 16)])

/-- Subscriber `id` was seen with equipment `e`. -/
def Seen (N : Nitb) (id : Int) (e : Equip) : Prop :=
  e ∈ N.equips ∧ ∃ w ∈ N.watches, w.sub = id ∧ w.equip = e.id

/-- `e` is the most recently updated equipment subscriber `id` was seen with. -/
def LastSeen (N : Nitb) (id : Int) (e : Equip) : Prop :=
  Seen N id e ∧ ∀ e', Seen N id e' → e'.updated ≤ e.updated

/-- The record `r` says what OsmoNITB knows about `n`: OsmoNITB lets a subscription expire 61
minutes after the subscriber was last seen. -/
structure Same (N : Nitb) (n : NSub) (r : SubRow) : Prop where
  imsi : r.imsi = n.imsi
  msisdn : r.msisdn = n.ext
  imei : (∃ e, LastSeen N n.id e ∧ r.imei = some (e.imei.take 14)) ∨ ((¬ ∃ e, Seen N n.id e) ∧ r.imei = none)
  access : r.namCs = decide (n.authorized ≠ 0) ∧ r.namPs = decide (n.authorized ≠ 0)
  seen : r.lastLu = n.expire.map (· - 61 * 60)
  rest : r.vlr = none ∧ r.sgsn = none ∧ r.purgedCs = false ∧ r.purgedPs = false ∧ r.lastLuPs = none
    ∧ r.vlrViaProxy = none ∧ r.sgsnViaProxy = none

/-- The 2G key data `a` is that of `n`: none, or the algorithm and the key of its row in
`authkeys`. -/
def SameKey (N : Nitb) (n : NSub) (a : Option Auc2) : Prop :=
  ((∀ k ∈ N.keys, k.sub ≠ n.id) ∧ a = none)
  ∨ ∃ k ∈ N.keys, k.sub = n.id ∧ ∃ e ki, k.blob = some (encodeBinary e ki)
      ∧ a.map (fun a => (a.algo, a.ki)) = some (algoOf k.algo, hexText ki)

/-- `d'` is `d` with the subscribers of `N` added, and nothing else changed. -/
structure Imported (N : Nitb) (d d' : Db) : Prop where
  added : ∀ n ∈ N.subs, ∃ r ∈ d'.subs, Same N n r ∧ SameKey N n (key2 d' r.id) ∧ key3 d' r.id = none
  kept : ∀ r ∈ d.subs, r ∈ d'.subs ∧ key2 d' r.id = key2 d r.id ∧ key3 d' r.id = key3 d r.id
  only : ∀ r ∈ d'.subs, r ∈ d.subs ∨ ∃ n ∈ N.subs, r.imsi = n.imsi
  inds : d'.inds = d.inds
  unique : Unique d'

/-- Data an OsmoNITB database is expected to hold. -/
structure Plain (N : Nitb) : Prop where
  ids : ∀ n ∈ N.subs, 0 ≤ n.id ∧ n.id < 2 ^ 31
  imsi : ∀ n ∈ N.subs, Digits 6 15 n.imsi ∧ n.imsi.head? ≠ some 48
  imsis : (N.subs.map (·.imsi)).Nodup
  ext : ∀ n ∈ N.subs, ∀ m, n.ext = some m → Digits 1 15 m
  exts : (N.subs.filterMap (·.ext)).Nodup
  imei : ∀ e ∈ N.equips, 14 ≤ e.imei.length ∧ ∀ c ∈ e.imei, 48 ≤ c ∧ c ≤ 57
  authorized : ∀ n ∈ N.subs, n.authorized = 0 ∨ n.authorized = 1
  expire : ∀ n ∈ N.subs, ∃ t, n.expire = some t ∧ 3660 < t ∧ t < 2 ^ 31
  keys : ∀ k ∈ N.keys, k.algo ∈ [1, 2, 3, 6]
    ∧ ∃ e ki, k.blob = some (encodeBinary e ki) ∧ ki.length = 16

/-- The HLR database knows none of the subscribers and uses none of their numbers. -/
structure Fresh (N : Nitb) (d : Db) : Prop where
  imsi : ∀ n ∈ N.subs, ∀ r ∈ d.subs, r.imsi ≠ n.imsi
  msisdn : ∀ n ∈ N.subs, ∀ r ∈ d.subs, ∀ m, n.ext = some m → r.msisdn ≠ some m

end Verif.Import
