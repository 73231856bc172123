import Verif.Sys.Lemmas3
import Verif.Auc.History
import Verif.Auc.Lemmas4
/-! # The database under the running HLR

The handlers change the database only through the statements of the API of
`Verif.Db`. -/
namespace Verif.Sys
open Verif Verif.Db Verif.Gsup Verif.Hlr Verif.Auc

/-- A database program made of API calls in `P`: it has every effect-closed property all
these have. -/
def Api (P : Op → Prop) (m : DbM α) : Prop :=
  ∀ R : Db → Db → Prop, Pre R → (∀ op : Op, P op → Sat R op.run) → Sat R m

/-- The second database can be made from the first by API calls in `P`, possibly
interrupted. -/
def LinkedBy (P : Op → Prop) (d d' : Db) : Prop :=
  ∀ R : Db → Db → Prop, Pre R → (∀ op : Op, P op → Sat R op.run) → R d d'

/-- Any API call. -/
abbrev AnyOp : Op → Prop := fun _ => True

/-- The API calls made by the handlers of messages, except the storing of sequence
numbers: they change neither keys nor which subscribers there are. -/
def Routine : Op → Prop
  | .create .. | .msisdn .. | .imei .. | .nam .. | .purge .. | .lu .. | .ind .. => True
  | _ => False

/-- Of these, the ones that do not store a serving node. -/
def Quiet : Op → Prop
  | .lu .. => False
  | op => Routine op

abbrev Linked (d d' : Db) : Prop := LinkedBy AnyOp d d'

section
variable {P : Op → Prop}

theorem LinkedBy.refl (d : Db) : LinkedBy P d d := fun _ hR _ => hR.refl d

theorem LinkedBy.trans {a b c : Db} (h : LinkedBy P a b) (h' : LinkedBy P b c) : LinkedBy P a c :=
  fun R hR ho => hR.trans _ _ _ (h R hR ho) (h' R hR ho)

theorem Linked.refl (d : Db) : Linked d d := LinkedBy.refl d

theorem Linked.trans {a b c : Db} (h : Linked a b) (h' : Linked b c) : Linked a c := LinkedBy.trans h h'

theorem LinkedBy.any {d d' : Db} (h : LinkedBy P d d') : Linked d d' :=
  fun R hR ho => h R hR fun op _ => ho op trivial

theorem Api.linked {m : DbM α} (h : Api P m) (d : Db) (sc : Script) : LinkedBy P d (exec m d sc).2 :=
  fun R hR ho => h R hR ho { db := d, script := sc }

/-- An invariant of all API calls is an invariant. -/
theorem Linked.keeps {d d' : Db} (h : Linked d d') {I : Db → Prop} (hI : ∀ op : Op, Sat (Keeps I) op.run)
    (hd : I d) : I d' := h _ (Keeps.pre _) (fun op _ => hI op) hd

theorem api_op {op : Op} (h : P op) : Api P op.run := fun _ _ ho => ho op h

variable (hP : ∀ op, Quiet op → P op)

theorem api_getByImsi (imsi : Bytes) : Api P (getByImsi imsi) := fun _ hR _ => dbSel_sat hR _

include hP

theorem api_sai (hS : ∀ id q, P (.sqn id q)) (cfg : Hlr.Cfg) (c : Crypto) (rands : Nat → Option Bytes)
    (rnd : Nat → Option (Nat → UInt8)) (q : SaiReq) : Api P (rxSai cfg c rands rnd q) := by
  intro R hR h
  exact Sat.bind hR (createOnDemand_sat hR cfg rnd q.imsi (h _ (hP _ trivial)) (fun _ => h _ (hP _ trivial))) (fun _ =>
    Sat.bind hR (dbInd_sat hR _ (h _ (hP _ trivial))) (fun _ =>
      Sat.bind hR (dbGetAuc_sat hR c rands _ _ _ _ _ _ (fun _ _ => h _ (hS _ _))) (fun _ => Sat.pure hR _)))

theorem api_purge (imsi : Bytes) (cs : Bool) : Api P (rxPurge imsi cs) := by
  intro R hR h
  refine Sat.bind hR (h (.purge imsi true (!cs)) (hP _ trivial)) (fun rc => ?_)
  split
  · exact Sat.pure hR _
  · split <;> exact Sat.pure hR _

theorem api_cod (cfg : Hlr.Cfg) (rnd : Nat → Option (Nat → UInt8)) (imsi : Bytes) :
    Api P (createOnDemand cfg rnd imsi) :=
  fun _ hR h => createOnDemand_sat hR _ _ _ (h _ (hP _ trivial)) (fun _ => h _ (hP _ trivial))

theorem api_checkImei (cfg : Hlr.Cfg) (rnd : Nat → Option (Nat → UInt8)) (imsi : Bytes) (i : Option Bytes) :
    Api P (rxCheckImei cfg rnd imsi i) := by
  intro R hR h
  unfold rxCheckImei
  split
  · exact Sat.pure hR _
  · rename_i i
    split
    · exact Sat.pure hR _
    · refine Sat.bind hR (api_cod hP cfg rnd imsi R hR h) (fun _ => ?_)
      split
      · refine Sat.bind hR (h (.imei imsi (some i)) (hP _ trivial)) (fun rc => ?_)
        split <;> exact Sat.pure hR _
      · refine Sat.bind hR (api_getByImsi imsi R hR h) (fun rc => ?_)
        split <;> exact Sat.pure hR _

theorem api_luStart (hL : ∀ id n ps via now, P (.lu id n ps via now)) (cfg : Cfg) (e : Env) (q : Req) : Api P (luStartDb cfg e q) := by
  intro R hR h
  have lu : ∀ id n ps via sub, Sat R (do
      let rc ← subscrLu id n ps via e.now
      if rc ≠ 0 then pure (.fail .netFail) else pure (.wait sub) : DbM LuRes) := by
    intro id n ps via sub
    refine Sat.bind hR (h (.lu id n ps via e.now) (hL _ _ _ _ _)) (fun rc => ?_)
    split <;> exact Sat.pure hR _
  unfold luStartDb
  refine Sat.bind hR (api_cod hP _ _ _ R hR h) (fun _ => ?_)
  split
  · exact Sat.pure hR _
  · refine Sat.bind hR (api_getByImsi _ R hR h) (fun r => ?_)
    split
    · exact Sat.pure hR _
    · dsimp only
      split
      · exact Sat.pure hR _
      · split
        · exact Sat.pure hR _
        · split
          · exact Sat.pure hR _
          · exact lu _ _ _ _ _
          · split
            · exact lu _ _ _ _ _
            · split
              · exact Sat.pure hR _
              · exact lu _ _ _ _ _

end

end Verif.Sys
