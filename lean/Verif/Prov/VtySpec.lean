import Verif.Prov.Vty
import Verif.Prov.Spec
/-! # What the subscriber commands of the VTY are meant to do

Independent of how `Verif.Prov.Vty` reads its arguments and prints. -/
namespace Verif.Prov.Vty
open Verif Verif.Db Verif.Mslookup Verif.Prov

/-! ## IMEI and check digit (3GPP TS 23.003, annex B: Luhn) -/

/-- The sum of the digits, every second one (from the second) doubled and its two digits
added. -/
def total (s : Bytes) : Nat :=
  (s.mapIdx fun i c => if i % 2 = 1 then 2 * (c.toNat - 48) / 10 + 2 * (c.toNat - 48) % 10 else c.toNat - 48).sum

/-- 15 digits, the last one being the check digit. -/
def FullImei (s : Bytes) : Prop := Digits 15 15 s ∧ total s % 10 = 0

/-- The check digit of 14 digits. -/
def checkDigit (s : Bytes) : UInt8 := UInt8.ofNat (48 + (10 - total s % 10) % 10)

/-- The identity on the command line names the subscriber.  An IMEI may be given with or without
its check digit. -/
def NamesV (t : IdType) (id : Bytes) (r : SubRow) : Prop :=
  match t with
  | .imsi => r.imsi = id
  | .msisdn => r.msisdn = some id
  | .id => ∃ n, Numeral id n ∧ r.id = (n : Int)
  | .imei => r.imei = some id ∨ (FullImei id ∧ r.imei = some (id.take 14))

/-- A database id is written in digits and fits 63 bits. -/
def IdentOk (t : IdType) (id : Bytes) : Prop := t = .id → ∃ n < 2 ^ 63, Numeral id n

/-! ## What is shown -/

/-- A line with a label. -/
def line (label : String) (v : Bytes) : Bytes := b "    " ++ b label ++ b ": " ++ v ++ b "\n"

/-- A line with a label, left out if there is nothing to say. -/
def lineIf (label : String) (v : Bytes) : Bytes := if v = [] then [] else line label v

/-- A number with its unit, left out if it is 0. -/
def unitIf (n : Nat) (u : String) : Bytes := if n = 0 then [] else Mdns.dec n ++ b u

/-- Seconds as days, hours, minutes and seconds. -/
def ageText (a : Nat) : Bytes :=
  unitIf (a / 86400) "d" ++ unitIf (a / 3600 % 24) "h" ++ unitIf (a / 60 % 60) "m" ++ unitIf (a % 60) "s"

/-- When a subscriber was last seen (the time 0 counts as never). -/
def seenText (ck : Clock) (dom : String) : Option Int → Bytes
  | none => []
  | some t =>
    if t = 0 then []
    else b "    last LU seen on " ++ b dom ++ b ": " ++ ck.date t
      ++ (if 0 ≤ ck.now - t ∧ ck.now - t < 2 ^ 32 then b " (" ++ ageText (ck.now - t).toNat ++ b " ago)\n"
          else b " (invalid timestamp)\n")

/-- A subscriber's data, without keys. -/
def subText (ck : Clock) (r : SubRow) : Bytes :=
  line "ID" (u64 r.id) ++ line "IMSI" r.imsi ++ line "MSISDN" (r.msisdn.getD (b "none"))
  ++ (match r.imei with | none => [] | some i => line "IMEI" (i ++ [checkDigit i]))
  ++ lineIf "VLR number" (node r.vlr) ++ lineIf "SGSN number" (node r.sgsn)
  ++ (if r.namCs then [] else b "    CS disabled\n") ++ (if r.purgedCs then b "    CS purged\n" else [])
  ++ (if r.namPs then [] else b "    PS disabled\n") ++ (if r.purgedPs then b "    PS purged\n" else [])
  ++ seenText ck "CS" r.lastLu ++ seenText ck "PS" r.lastLuPs

/-- A key of a key record. -/
def keyLine (label : String) (v : Bytes) : Bytes := b "             " ++ b label ++ b "=" ++ v ++ b "\n"

/-- 2G keys. -/
def keysText2 : Option Auc2 → Bytes
  | none => []
  | some a => line "2G auth" (algoName a.algo) ++ keyLine "KI" (lowerHex a.ki)

/-- 3G keys; a sequence number 0 is not shown. -/
def keysText3 : Option Auc3 → Bytes
  | none => []
  | some a => line "3G auth" (algoName a.algo) ++ keyLine "K" (lowerHex a.k)
    ++ (match a.op, a.opc with
        | some t, _ => keyLine "OP" (lowerHex t)
        | none, some t => keyLine "OPC" (lowerHex t)
        | none, none => [])
    ++ keyLine "IND-bitlen" (Mdns.dec a.indBitlen ++ (if a.sqn = 0 then [] else b " last-SQN=" ++ Mdns.decGo 20 a.sqn))

/-- Everything about a subscriber. -/
def showText (ck : Clock) (d : Db) (r : SubRow) : Bytes :=
  subText ck r ++ keysText2 (key2 d r.id) ++ keysText3 (key3 d r.id)

open Classical in
/-- What is said about an IMEI given with check digit. -/
noncomputable def strip (t : IdType) (id : Bytes) : Bytes :=
  if t = .imei ∧ FullImei id then
    b "% Checksum validated and stripped for search: imei = '" ++ id.take 14 ++ b "'\n"
  else []

/-! ## What is written -/

/-- The identity a command is about. -/
def Cmd.about : Cmd → Option (IdType × Bytes)
  | .create _ => none
  | .show_ t id | .delete t id | .msisdn t id _ | .noAud2 t id | .aud2 t id _ _ | .noAud3 t id
  | .aud3 t id _ _ _ _ _ | .xor3 t id _ _ | .imei t id _ | .nam t id _ => some (t, id)

/-- The command names the subscriber. -/
def Cmd.Names (c : Cmd) (r : SubRow) : Prop := ∃ t id, c.about = some (t, id) ∧ NamesV t id r

/-- The command names a database id properly, if any. -/
def Cmd.Ok (c : Cmd) : Prop := ∀ t id, c.about = some (t, id) → IdentOk t id

/-- The IND bit length asked for: 5 if left out. -/
def Bitlen (t : Option Bytes) (n : Nat) : Prop := match t with | none => n = 5 | some t => Numeral t n

/-- 3G key record as newly provisioned. -/
def newKey (id : Int) (al : Algo) (k o : Bytes) (isOp : Bool) (bl : Nat) : Auc3 :=
  { id := id, algo := al, k := k, op := if isOp then some o else none
    opc := if isOp then none else some o, sqn := 0, indBitlen := bl }

/-- What a successful command that writes makes of database `d` (network access mode and
creation aside). -/
inductive Does (d : Db) (r : SubRow) : Cmd → Db → Prop
  | delete {t id d'} : Removed d r.id d' → Does d r (.delete t id) d'
  | msisdn {t id v} : Digits 1 15 v → (∀ q ∈ d.subs, q.imsi ≠ r.imsi → q.msisdn ≠ some v) →
    Does d r (.msisdn t id v) (withRow d r.imsi fun q => { q with msisdn := some v })
  | noMsisdn {t id} : Does d r (.msisdn t id (b "none")) (withRow d r.imsi fun q => { q with msisdn := none })
  | noAud2 {t id} : Does d r (.noAud2 t id) (withKey2 d r.id none)
  | noAud3 {t id} : Does d r (.noAud3 t id) (withKey3 d r.id none)
  | aud2None {t id alg} : Called alg .none → Does d r (.aud2 t id alg []) (withKey2 d r.id none)
  | aud3None {t id alg c bl} : Called alg .none → Does d r (.aud3 t id alg [] c [] bl) (withKey3 d r.id none)
  | aud2 {t id alg al ki} : Called alg al → Key2Ok { id := r.id, algo := al, ki := ki } →
    Does d r (.aud2 t id alg ki) (withKey2 d r.id (some { id := r.id, algo := al, ki := ki }))
  | aud3 {t id alg k c o isOp bl n} : Called alg .milenage → (isOp = true ↔ c.map lower = b "op") →
    (∀ m < 2 ^ 31, Bitlen bl m → n = m) → Key3Ok (newKey r.id .milenage k o isOp n) →
    Does d r (.aud3 t id alg k c o bl) (withKey3 d r.id (some (newKey r.id .milenage k o isOp n)))
  | xor3 {t id k bl n} : (∀ m < 2 ^ 31, Bitlen bl m → n = m) →
    Key3Ok (newKey r.id .xor3g k (b "00000000000000000000000000000000") false n) →
    Does d r (.xor3 t id k bl)
      (withKey3 d r.id (some (newKey r.id .xor3g k (b "00000000000000000000000000000000") false n)))
  | imei {t id v} : Digits 14 14 v →
    Does d r (.imei t id v) (withRow d r.imsi fun q => { q with imei := some v })
  | fullImei {t id v} : FullImei v →
    Does d r (.imei t id v) (withRow d r.imsi fun q => { q with imei := some (v.take 14) })
  | noImei {t id} : Does d r (.imei t id (b "none")) (withRow d r.imsi fun q => { q with imei := none })

end Verif.Prov.Vty
