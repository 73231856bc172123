import Verif.Db.Model
/-!
# What the database properties say (independent of how the code achieves it)
-/
namespace Verif.Db
open Verif

/-- C01: no identity occurs twice in a table. -/
structure Unique (d : Db) : Prop where
  ids : (d.subs.map (·.id)).Nodup
  imsis : (d.subs.map (·.imsi)).Nodup
  msisdns : (d.subs.filterMap (·.msisdn)).Nodup
  keys2 : (d.auc2.map (·.id)).Nodup
  keys3 : (d.auc3.map (·.id)).Nodup
  inds : (d.inds.map (·.ind)).Nodup
  vlrs : (d.inds.map (·.vlr)).Nodup

/-- C07: a stored 2G key record is usable. -/
def Key2Ok (a : Auc2) : Prop :=
  a.algo ∈ [Algo.comp128v1, .comp128v2, .comp128v3, .xor2g]
  ∧ a.ki.length = 32 ∧ ∀ c ∈ a.ki, isXDigit c = true

/-- Hex text of 32..64 digits, an even number of them. -/
def Hex32to64 (t : Bytes) : Prop :=
  32 ≤ t.length ∧ t.length ≤ 64 ∧ t.length % 2 = 0 ∧ ∀ c ∈ t, isXDigit c = true

/-- C07: a stored 3G key record is usable. -/
def Key3Ok (a : Auc3) : Prop :=
  a.algo ∈ [Algo.milenage, .xor3g] ∧ Hex32to64 a.k ∧ a.indBitlen ≤ 28
  ∧ ((∃ t, a.op = some t ∧ a.opc = none ∧ Hex32to64 t)
     ∨ (∃ t, a.opc = some t ∧ a.op = none ∧ Hex32to64 t))

def KeysOk (d : Db) : Prop := (∀ a ∈ d.auc2, Key2Ok a) ∧ (∀ a ∈ d.auc3, Key3Ok a)

/-- `t` consists of between `lo` and `hi` decimal digits. -/
def Digits (lo hi : Nat) (t : Bytes) : Prop :=
  lo ≤ t.length ∧ t.length ≤ hi ∧ ∀ c ∈ t, 48 ≤ c ∧ c ≤ 57

/-- C09: stored identities are well-formed. -/
def IdentitiesOk (d : Db) : Prop :=
  ∀ r ∈ d.subs, Digits 6 15 r.imsi
    ∧ (∀ m, r.msisdn = some m → Digits 1 15 m)
    ∧ (∀ i, r.imei = some i → Digits 14 14 i)

/-- C06: every key record belongs to an existing subscriber. -/
def NoOrphanKeys (d : Db) : Prop :=
  (∀ a ∈ d.auc2, ∃ r ∈ d.subs, r.id = a.id) ∧ (∀ a ∈ d.auc3, ∃ r ∈ d.subs, r.id = a.id)

/-- C04: the subscriber rows a call is addressed to. -/
def Op.ownsSub : Op → SubRow → Bool
  | .create imsi _ _ | .msisdn imsi _ | .imei imsi _ | .nam imsi _ _ | .purge imsi _ _ =>
    fun r => r.imsi == imsi
  | .delete id | .lu id _ _ _ _ => fun r => r.id == id
  | _ => fun _ => false

/-- C04: the 2G key rows a call is addressed to. -/
def Op.ownsKey2 : Op → Int → Bool
  | .delete id | .aud id (.gsm _ _) => fun i => i == id
  | _ => fun _ => false

/-- C04: the 3G key rows a call is addressed to. -/
def Op.ownsKey3 : Op → Int → Bool
  | .delete id | .aud id (.umts _ _ _ _ _) | .sqn id _ => fun i => i == id
  | _ => fun _ => false

/-- C04: the IND rows a call is addressed to. -/
def Op.ownsInd : Op → Bytes → Bool
  | .ind raw | .indDel raw => fun v => v == cstr raw
  | _ => fun _ => false

/-- C04: everything that is not addressed is the same in both databases. -/
structure OthersSame (op : Op) (d d' : Db) : Prop where
  subs : d'.subs.filter (fun r => !op.ownsSub r) = d.subs.filter (fun r => !op.ownsSub r)
  auc2 : d'.auc2.filter (fun a => !op.ownsKey2 a.id) = d.auc2.filter (fun a => !op.ownsKey2 a.id)
  auc3 : d'.auc3.filter (fun a => !op.ownsKey3 a.id) = d.auc3.filter (fun a => !op.ownsKey3 a.id)
  inds : d'.inds.filter (fun i => !op.ownsInd i.vlr) = d.inds.filter (fun i => !op.ownsInd i.vlr)

/-- The fate of the first statement of a call. -/
def firstFate (s : Script) : Fault := s.headD .ok

end Verif.Db

namespace Verif.Db
open Verif

/-! ## C02: the contract of the one-field update functions -/

/-- `res` is an acceptable result of a call that must replace database `d` by
`new` if the argument is `valid`, the subscriber is `found` and the value is
`free` (not owned by someone else), the database statement having fate `fate`. -/
structure Contract (valid found free : Prop) (fate : Fault) (d new : Db)
    (res : Option Int × Db) : Prop where
  success : res.1 = some 0 ↔ valid ∧ found ∧ free ∧ fate = .ok
  effect : res.1 = some 0 → res.2 = new
  noEffect : res.1 ≠ some 0 → res.2 = d
  einval : res.1 = some (-22) ↔ ¬ valid
  enoent : res.1 = some (-2) ↔ valid ∧ fate = .ok ∧ ¬ found
  eio : res.1 = some (-5) ↔ valid ∧ (fate = .ioerr ∨ fate = .ok ∧ found ∧ ¬ free)
  died : res.1 = none ↔ valid ∧ fate = .crash

/-- Subscriber `imsi` is in the database. -/
def Known (d : Db) (imsi : Bytes) : Prop := ∃ r ∈ d.subs, r.imsi = imsi

/-- The database in which exactly the row of `imsi` is replaced by `f` of it. -/
def withRow (d : Db) (imsi : Bytes) (f : SubRow → SubRow) : Db :=
  { d with subs := d.subs.map (fun r => if r.imsi = imsi then f r else r) }

/-! ## C03: the abstract store -/

/-- A plain map from IMSI to record. -/
abbrev Store := Bytes → Option SubRow

/-- What a fault-free lookup by IMSI would find. -/
def abs (d : Db) : Store := fun imsi => d.subs.find? (fun r => r.imsi == imsi)

/-- Change the entries satisfying `c`. -/
def Store.update (st : Store) (c : SubRow → Bool) (f : SubRow → Option SubRow) : Store :=
  fun i => match st i with
    | none => none
    | some r => if c r then f r else some r

/-- Result codes that acknowledge the operation. -/
abbrev acked (rc : Option Int) : Prop := rc = some 0

/-- One operation on the abstract store: `Step op rc st st'`.  An acknowledged
operation takes full effect; a refused one none; a location update or deletion
that fails or dies half way may have stored part of its effect, but only for the
subscriber concerned. -/
def Step (op : Op) (rc : Option Int) (st st' : Store) : Prop :=
  match op with
  | .create imsi cs ps =>
    if acked rc then
      st imsi = none ∧ ∃ id, (∀ i r, st i = some r → r.id ≠ id)
        ∧ st' = fun i => if i = imsi then
            some { id := id, imsi := imsi, namCs := cs, namPs := ps } else st i
    else st' = st
  | .msisdn imsi m =>
    if acked rc then
      (∃ r, st imsi = some r) ∧ (∀ i r, i ≠ imsi → st i = some r → m ≠ none → r.msisdn ≠ m)
      ∧ st' = st.update (·.imsi == imsi) (fun r => some { r with msisdn := m })
    else st' = st
  | .imei imsi v =>
    if acked rc then
      (∃ r, st imsi = some r) ∧ st' = st.update (·.imsi == imsi) (fun r => some { r with imei := v })
    else st' = st
  | .nam imsi v ps =>
    if acked rc then
      (∃ r, st imsi = some r) ∧ st' = st.update (·.imsi == imsi) (fun r => some
        (if ps then { r with namPs := v } else { r with namCs := v }))
    else st' = st
  | .purge imsi v ps =>
    if acked rc then
      (∃ r, st imsi = some r) ∧ st' = st.update (·.imsi == imsi) (fun r => some
        (if ps then { r with purgedPs := v } else { r with purgedCs := v }))
    else st' = st
  | .delete id =>
    if acked rc then st' = st.update (·.id == id) (fun _ => none)
    else if rc = none then st' = st ∨ st' = st.update (·.id == id) (fun _ => none)
    else st' = st
  | .lu id n ps via now =>
    let place : SubRow → SubRow := fun r =>
      if ps then { r with sgsn := some n, sgsnViaProxy := via }
      else { r with vlr := some n, vlrViaProxy := via }
    let stamp : Int → SubRow → SubRow := fun t r =>
      if ps then { r with lastLuPs := some t } else { r with lastLu := some t }
    if acked rc then
      (∃ i r, st i = some r ∧ r.id = id)
      ∧ ∃ t, now = some t ∧ st' = st.update (·.id == id) (fun r => some (stamp t (place r)))
    else st' = st ∨ st' = st.update (·.id == id) (fun r => some (place r))
  | .aud _ _ | .ind _ | .indDel _ | .sqn _ _ => st' = st

/-- A run of the abstract store over a list of operations with the given return
codes. -/
inductive Run : Store → List (Op × Option Int) → Store → Prop
  | nil (st) : Run st [] st
  | cons {op rc st st1 rest st2} : Step op rc st st1 → Run st1 rest st2 →
      Run st ((op, rc) :: rest) st2

/-- The return codes observed in a history. -/
def trace (d : Db) : List (Op × Script) → List (Op × Option Int)
  | [] => []
  | (op, s) :: rest => (op, (exec op.run d s).1) :: trace (exec op.run d s).2 rest

end Verif.Db

namespace Verif.Db
open Verif

/-- The 2G key record of subscriber `id`. -/
def key2 (d : Db) (id : Int) : Option Auc2 := d.auc2.find? (fun a => a.id == id)

/-- The 3G key record of subscriber `id`. -/
def key3 (d : Db) (id : Int) : Option Auc3 := d.auc3.find? (fun a => a.id == id)

/-- The index assigned to a VLR name. -/
def indOf (d : Db) (name : Bytes) : Option Nat := (d.inds.find? (fun r => r.vlr == name)).map (·.ind)

/-- C06, restricted: in this history no DELETE call meets a database failure or
crash, and keys are only provisioned for existing subscribers. -/
def CleanHist : Db → List (Op × Script) → Prop
  | _, [] => True
  | d, (op, s) :: rest =>
    (match op with
     | .delete _ => ∀ f ∈ s, f = .ok
     | .aud id _ => ∃ r ∈ d.subs, r.id = id
     | _ => True)
    ∧ CleanHist (exec op.run d s).2 rest

/-- A key provisioning request is well-formed (C07): a removal (algorithm "none")
or usable key material. -/
def KeyReqOk : AudStr → Prop
  | .gsm .none _ => True
  | .gsm algo ki => Key2Ok { id := 0, algo := algo, ki := ki }
  | .umts .none _ _ _ _ => True
  | .umts algo k opc _ bl =>
    algo ∈ [Algo.milenage, .xor3g] ∧ Hex32to64 k ∧ Hex32to64 opc ∧ bl ≤ 28
  | .other => False

end Verif.Db
