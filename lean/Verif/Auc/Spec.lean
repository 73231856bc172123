import Verif.Hlr.Model
import Verif.Db.Spec
/-!
# What the authentication properties say
-/
namespace Verif.Auc
open Verif Verif.Db Verif.Hlr

/-- Vector `v` is computed from the 2G keys `g` and 3G keys `u` (whichever exist):
* 2G only: no UMTS part; Kc and SRES from the 2G keys;
* 3G only: UMTS part, Kc and SRES from the 3G keys, for some sequence number, whose
  low 48 bits the vector shows;
* both: the UMTS part from the 3G keys, Kc and SRES from the 2G keys. -/
def VecFrom (c : Crypto) (g : Option Aud2) (u : Option Aud3) (v : Vec) : Prop :=
  match u, g with
  | none, none => False
  | none, some g => v.umts = none ∧ c.gsm g.algo g.ki v.rand = some (v.kc, v.sres)
  | some u, none => ∃ s x, v.umts = some (s % 2 ^ 48, x)
      ∧ c.umts u.algo u.k u.opc u.isOp u.sep s v.rand = some (x, v.kc, v.sres)
  | some u, some g => (∃ s x kc sres, v.umts = some (s % 2 ^ 48, x)
      ∧ c.umts u.algo u.k u.opc u.isOp u.sep s v.rand = some (x, kc, sres))
      ∧ c.gsm g.algo g.ki v.rand = some (v.kc, v.sres)

/-- The sequence numbers shown by the vectors of a response. -/
def sqnsOf (vs : List Vec) : List Nat := vs.filterMap (fun v => v.umts.map (·.1))

/-- Something that happens to the HLR: a database operation (provisioning, location
updates, …) or a Send Auth Info Request, each under any script of failures; all the
outside influences of a request are arbitrary. -/
inductive Ev where
  | db (op : Op) (s : Script)
  | sai (cfg : Cfg) (c : Crypto) (rands : Nat → Option Bytes) (rnd : Nat → Option (Nat → UInt8))
      (q : SaiReq) (s : Script)

/-- Effect of an event: the database after it, and the sequence numbers handed out
for `imsi`. -/
def Ev.exec (imsi : Bytes) (d : Db) : Ev → Db × List Nat
  | .db op s => ((Db.exec op.run d s).2, [])
  | .sai cfg c rands rnd q s =>
    let r := Db.exec (rxSai cfg c rands rnd q) d s
    (r.2, match r.1 with
      | some (.result vs) => if q.imsi = imsi then sqnsOf vs else []
      | _ => [])

/-- All sequence numbers handed out for `imsi` in a history, in order. -/
def issued (imsi : Bytes) (d : Db) : List Ev → List Nat
  | [] => []
  | e :: es => (e.exec imsi d).2 ++ issued imsi (e.exec imsi d).1 es

/-- Database after a history. -/
def runEvs (d : Db) : List Ev → Db
  | [] => d
  | e :: es => runEvs (e.exec [] d).1 es

/-- The event neither re-provisions the 3G keys of subscriber `id`/`imsi` (deleting
the subscriber included), nor sets its sequence number from outside, nor is a
re-synchronisation of it. -/
def Ev.Plain (id : Int) (imsi : Bytes) : Ev → Prop
  | .db (.delete i) _ => i ≠ id
  | .db (.aud i (.umts _ _ _ _ _)) _ => i ≠ id
  | .db (.sqn i _) _ => i ≠ id
  | .db _ _ => True
  | .sai _ _ _ _ q _ => q.imsi = imsi → q.auts = none

/-- Number of authentication requests in a history. -/
def numSai : List Ev → Nat
  | [] => 0
  | .sai .. :: es => numSai es + 1
  | .db .. :: es => numSai es

/-- Keys of the subscriber `imsi` as stored in the database. -/
def authKeys (d : Db) (imsi : Bytes) : Keys :=
  match d.subs.find? (·.imsi == imsi) with
  | some r => loadKeys r.id (key2 d r.id) (key3 d r.id)
  | none => .err (-ENOENT)

end Verif.Auc
