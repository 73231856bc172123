import Verif.Hlr.Model
import Verif.Db.Spec
/-! # What the properties of the request handlers say -/
namespace Verif.Hlr
open Verif Verif.Db

/-- The number the configured policy prescribes for a new subscriber `imsi`: none,
its own IMSI, or `len` digits nobody uses yet. -/
def PolicyMsisdn (cfg : Cfg) (d : Db) (imsi : Bytes) : Option Bytes → Prop
  | none => cfg.cod = .noMsisdn ∨ cfg.cod = .randMsisdn 0
  | some m => (cfg.cod = .msisdnFromImsi ∧ m = imsi)
      ∨ ∃ len, cfg.cod = .randMsisdn len ∧ Digits len len m ∧ ∀ r ∈ d.subs, r.msisdn ≠ some m

/-- `d'` is `d` with one new subscriber `imsi`, otherwise fresh, with the
configured access flags and the given MSISDN. -/
def Added (cfg : Cfg) (imsi : Bytes) (m : Option Bytes) (d d' : Db) : Prop :=
  ¬ Known d imsi ∧ Digits 6 15 imsi ∧ ∃ id, (∀ r ∈ d.subs, r.id ≠ id)
    ∧ d' = { d with subs := d.subs ++
        [{ id := id, imsi := imsi, msisdn := m, namCs := cfg.codCs, namPs := cfg.codPs }] }

end Verif.Hlr
