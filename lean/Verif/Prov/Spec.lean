import Verif.Prov.Ctrl
import Verif.Db.Spec
/-! # What the provisioning commands are meant to do

Independent of how `Verif.Prov.Ctrl` parses selectors and values. -/
namespace Verif.Prov
open Verif Verif.Db Verif.Mslookup

/-- The value of a string of decimal digits. -/
def value (t : Bytes) : Nat := t.foldl (fun n c => n * 10 + (c.toNat - 48)) 0

/-- `t` is the number `n` in decimal digits, leading zeros permitted. -/
def Numeral (t : Bytes) (n : Nat) : Prop := t ≠ [] ∧ (∀ c ∈ t, 48 ≤ c ∧ c ≤ 57) ∧ value t = n

/-- The selector names the subscriber: by IMSI, by MSISDN or by database id. -/
def Names (sel : Bytes) (r : SubRow) : Prop :=
  sel = b "by-imsi-" ++ r.imsi
  ∨ (∃ m, r.msisdn = some m ∧ sel = b "by-msisdn-" ++ m)
  ∨ (∃ t n, sel = b "by-id-" ++ t ∧ Numeral t n ∧ r.id = (n : Int))

/-- Hexadecimal text in lower case. -/
def lowerHex (t : Bytes) : Bytes := t.map lower

/-- A 2G key record as text. -/
def keyText2 : Option Auc2 → Bytes
  | none => b "none"
  | some a => algoName a.algo ++ b "," ++ lowerHex a.ki

/-- A 3G key record as text: algorithm, K, which of OP and OPC, its value, IND length. -/
def keyText3 : Option Auc3 → Bytes
  | none => b "none"
  | some a => algoName a.algo ++ b "," ++ lowerHex a.k ++ b ","
    ++ (match a.op, a.opc with
        | some t, _ => b "OP," ++ lowerHex t
        | none, some t => b "OPC," ++ lowerHex t
        | none, none => [])
    ++ b "," ++ Mdns.dec a.indBitlen

/-- One line of an info reply: nothing for an empty value. -/
def infoLine (name : String) (v : Bytes) : Bytes := if v = [] then [] else b "\n" ++ b name ++ b "\t" ++ v

/-- A serving node's name as shown: 31 characters (db.h). -/
def node (v : Option Bytes) : Bytes := (v.getD []).take 31

/-- The `info` reply. -/
def infoText (r : SubRow) : Bytes :=
  infoLine "id" (u64 r.id) ++ infoLine "imsi" r.imsi ++ infoLine "msisdn" (r.msisdn.getD [])
  ++ infoLine "nam_cs" (flagText r.namCs) ++ infoLine "nam_ps" (flagText r.namPs)
  ++ infoLine "vlr_number" (node r.vlr) ++ infoLine "sgsn_number" (node r.sgsn)
  ++ infoLine "ms_purged_cs" (flagText r.purgedCs) ++ infoLine "ms_purged_ps" (flagText r.purgedPs)
  ++ infoLine "periodic_lu_timer" (b "0") ++ infoLine "periodic_rau_tau_timer" (b "0")
  ++ infoLine "lmsi" (b "00000000")

/-- The part of the `info-aud` reply on 2G keys. -/
def infoText2 : Option Auc2 → Bytes
  | none => []
  | some a => infoLine "aud2g.algo" (algoName a.algo) ++ infoLine "aud2g.ki" (lowerHex a.ki)

/-- The part of the `info-aud` reply on 3G keys. -/
def infoText3 : Option Auc3 → Bytes
  | none => []
  | some a => infoLine "aud3g.algo" (algoName a.algo) ++ infoLine "aud3g.k" (lowerHex a.k)
    ++ (match a.op, a.opc with
        | some t, _ => infoLine "aud3g.op" (lowerHex t)
        | none, some t => infoLine "aud3g.opc" (lowerHex t)
        | none, none => [])
    ++ infoLine "aud3g.ind_bitlen" (Mdns.dec a.indBitlen) ++ infoLine "aud3g.sqn" (Mdns.decGo 20 a.sqn)

/-- What a GET of a variable of subscriber `r` must say. -/
def getText (d : Db) (r : SubRow) : Var → Bytes
  | .imsi => r.imsi
  | .msisdn => r.msisdn.getD (b "none")
  | .cs => flagText r.namCs
  | .ps => flagText r.namPs
  | .aud2g => keyText2 (key2 d r.id)
  | .aud3g => keyText3 (key3 d r.id)
  | .info => infoText r
  | .infoAud => infoText2 (key2 d r.id) ++ infoText3 (key3 d r.id)
  | .infoAll => infoText r ++ infoText2 (key2 d r.id) ++ infoText3 (key3 d r.id)

/-- The fields of a comma-separated text, empty ones left out. -/
def fields : Bytes → List Bytes
  | [] => []
  | c :: s =>
    if c = 44 then fields s
    else match s with
      | [] => [[c]]
      | x :: _ =>
        if x = 44 then [c] :: fields s
        else match fields s with
          | [] => [[c]]
          | t :: l => (c :: t) :: l

/-- The algorithm called `t`, in upper or lower case. -/
def Called (t : Bytes) (a : Algo) : Prop := t.map lower = (algoName a).map lower

/-- `t` is 32 hexadecimal digits. -/
def Hex32 (t : Bytes) : Prop := t.length = 32 ∧ ∀ c ∈ t, isXDigit c = true

/-- `v` is `ALGO,KI` with a 2G algorithm. -/
def Asks2 (v : Bytes) (a : Algo) (ki : Bytes) : Prop :=
  ∃ t, v = t ++ b "," ++ ki ∧ Called t a ∧ a ∈ [Algo.comp128v1, .comp128v2, .comp128v3, .xor2g] ∧ Hex32 ki

/-- `v` is `MILENAGE,K,OP|OPC,VALUE[,IND]` with IND at most 28. -/
def Asks3 (v : Bytes) (k o : Bytes) (isOp : Bool) (bl : Nat) : Prop :=
  Hex32 k ∧ Hex32 o ∧ bl ≤ 28 ∧
  ∃ t c, Called t .milenage ∧ c.map lower = (if isOp then b "op" else b "opc")
    ∧ (v = t ++ b "," ++ k ++ b "," ++ c ++ b "," ++ o ∧ bl = 5
       ∨ ∃ n, Numeral n bl ∧ v = t ++ b "," ++ k ++ b "," ++ c ++ b "," ++ o ++ b "," ++ n)

/-- The database with the 2G key record of `id` replaced. -/
def withKey2 (d : Db) (id : Int) (k : Option Auc2) : Db :=
  { d with auc2 := d.auc2.filter (·.id != id) ++ k.toList }

/-- The database with the 3G key record of `id` replaced. -/
def withKey3 (d : Db) (id : Int) (k : Option Auc3) : Db :=
  { d with auc3 := d.auc3.filter (·.id != id) ++ k.toList }

/-- A 3G key record as newly provisioned: sequence number 0. -/
def newKey3 (id : Int) (k o : Bytes) (isOp : Bool) (bl : Nat) : Auc3 :=
  { id := id, algo := .milenage, k := k, op := if isOp then some o else none
    opc := if isOp then none else some o, sqn := 0, indBitlen := bl }

/-- The database API call a SET stands for, given the value's meaning. -/
inductive Stands (r : SubRow) : Var → Bytes → Op → Prop
  | cs {v} : v = b "0" ∨ v = b "1" → Stands r .cs v (.nam r.imsi (v == b "1") false)
  | ps {v} : v = b "0" ∨ v = b "1" → Stands r .ps v (.nam r.imsi (v == b "1") true)
  | msisdn {v} : Digits 1 15 v → Stands r .msisdn v (.msisdn r.imsi (some v))
  | noMsisdn : Stands r .msisdn (b "none") (.msisdn r.imsi none)
  | aud2 {v t al ki} : fields v = t :: fields ki → Called t al → al ≠ .none → (∀ c ∈ ki, isXDigit c = true) →
    Stands r .aud2g v (.aud r.id (.gsm al ki))
  | noAud2 {v t l} : fields v = t :: l → Called t .none → Stands r .aud2g v (.aud r.id (.gsm .none []))
  | aud3 {v t al k c o isOp bl l} : fields v = t :: k :: c :: o :: l → Called t al → al ≠ .none → al ≠ .xor3g →
    c.map lower = (if isOp then b "op" else b "opc") → (v.count 44 = 3 → bl = 5) →
    Stands r .aud3g v (.aud r.id (.umts al k o isOp bl))
  | noAud3 {v t l} : fields v = t :: l → Called t .none → Stands r .aud3g v (.aud r.id (.umts .none [] [] false 5))

/-- What an acknowledged SET of `x` to `v` makes of database `d`. -/
inductive Effect (d : Db) (r : SubRow) : Var → Bytes → Db → Prop
  | cs {v} : v = b "0" ∨ v = b "1" →
    Effect d r .cs v (withRow d r.imsi fun q => { q with namCs := decide (v = b "1") })
  | ps {v} : v = b "0" ∨ v = b "1" →
    Effect d r .ps v (withRow d r.imsi fun q => { q with namPs := decide (v = b "1") })
  | msisdn {v} : Digits 1 15 v → (∀ q ∈ d.subs, q.imsi ≠ r.imsi → q.msisdn ≠ some v) →
    Effect d r .msisdn v (withRow d r.imsi fun q => { q with msisdn := some v })
  | noMsisdn : Effect d r .msisdn (b "none") (withRow d r.imsi fun q => { q with msisdn := none })
  | aud2 {v t al ki} : fields v = t :: fields ki → Called t al → Key2Ok { id := r.id, algo := al, ki := ki } →
    Effect d r .aud2g v (withKey2 d r.id (some { id := r.id, algo := al, ki := ki }))
  | noAud2 {v t l} : fields v = t :: l → Called t .none → Effect d r .aud2g v (withKey2 d r.id none)
  | aud3 {v t k c o isOp bl l} : fields v = t :: k :: c :: o :: l → Called t .milenage →
    c.map lower = (if isOp then b "op" else b "opc") → (v.count 44 = 3 → bl = 5) →
    Key3Ok (newKey3 r.id k o isOp bl) →
    Effect d r .aud3g v (withKey3 d r.id (some (newKey3 r.id k o isOp bl)))
  | noAud3 {v t l} : fields v = t :: l → Called t .none → Effect d r .aud3g v (withKey3 d r.id none)

/-- A subscriber's record is gone; the keys too, unless removing them failed. -/
def Removed (d : Db) (id : Int) (d' : Db) : Prop :=
  d'.subs = d.subs.filter (·.id != id) ∧ d'.inds = d.inds
  ∧ (d'.auc2 = d.auc2 ∨ d'.auc2 = d.auc2.filter (·.id != id))
  ∧ (d'.auc3 = d.auc3 ∨ d'.auc3 = d.auc3.filter (·.id != id))

/-- The database without a subscriber and their keys. -/
def without (d : Db) (id : Int) : Db :=
  { d with subs := d.subs.filter (fun r : SubRow => r.id != id)
           auc2 := d.auc2.filter (fun a : Auc2 => a.id != id)
           auc3 := d.auc3.filter (fun a : Auc3 => a.id != id) }

end Verif.Prov
