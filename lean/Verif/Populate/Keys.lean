import Verif.Populate.Props
import Verif.Auc.Model
/-!
# C86: the keys of the subscribers the script creates can be used
-/
namespace Verif.Populate
open Verif Verif.Db Verif.Auc

theorem find_nodup {α β : Type} [BEq β] [LawfulBEq β] {l : List α} {f : α → β} (hn : (l.map f).Nodup) {r : α} (hr : r ∈ l) :
    l.find? (fun x => f x == f r) = some r := by
  induction l with
  | nil => cases hr
  | cons a l ih =>
    rw [List.map_cons, List.nodup_cons] at hn
    rcases List.mem_cons.1 hr with rfl | hr
    · rw [List.find?_cons_of_pos (by simp)]
    · rw [List.find?_cons_of_neg]
      · exact ih hn.2 hr
      · intro e
        rw [beq_iff_eq] at e
        exact hn.1 (e ▸ List.mem_map_of_mem hr)

theorem key_bytes : hexCol 16 16 key = some ((List.range 16).map (·.toUInt8)) ∧ hexCol 16 32 key = some ((List.range 16).map (·.toUInt8))
    ∧ hexCol 16 32 op = some ((List.range 16).map (fun i => (16 * i).toUInt8)) := by decide +kernel

/-- **C86.** When the HLR looks up the keys of one of the subscribers (db_get_auth_data), it gets a COMP128v1 key and a Milenage key, both 00 01 … 0f, with the OP
00 10 … f0, the sequence number 0 and 5 bits for the index; the sequence number is stored with the same subscriber's id. -/
theorem c86_keys_usable (d : Db) (hu : Unique d) (hk : KeysOk d) (hi : IdentitiesOk d) (n : Nat) (h : Spec.Free d n) (fate : Nat → Nat → Fate)
    (hf : ∀ i < n, ∀ j < 3, fate i j = .ok) (i : Nat) (hin : i < n) :
    ∃ r ∈ (populate n fate .ok d).subs, r.imsi = imsiOf i
    ∧ (getAuthData (imsiOf i) { db := populate n fate .ok d, script := [] }).1
      = some (.keys r.id (some { algo := .comp128v1, ki := (List.range 16).map (·.toUInt8) })
        (some { algo := .milenage, k := (List.range 16).map (·.toUInt8), opc := (List.range 16).map (fun i => (16 * i).toUInt8), isOp := true, sqn := 0, bl := 5 })) := by
  obtain ⟨r, hr, e1, -, -, -, h2, h3⟩ := (c86_created_partial d n h fate hf).1 i hin
  obtain ⟨-, -, -, -, hU, -, -⟩ := c86_safe d hu hk hi n fate .ok
  refine ⟨r, hr, e1, ?_⟩
  have f1 := find_nodup (f := (·.imsi)) hU.imsis hr
  have f2 := find_nodup (f := (·.id)) hU.keys2 h2
  have f3 := find_nodup (f := (·.id)) hU.keys3 h3
  rw [e1] at f1
  dsimp only at f2 f3
  obtain ⟨k1, k2, k3⟩ := key_bytes
  have es : sqlAuc (imsiOf i) (populate n fate .ok d)
      = (.row (r.id, some (Auc2.mk r.id .comp128v1 key), some (Auc3.mk r.id .milenage key (some op) none 0 5)), populate n fate .ok d) := by
    unfold sqlAuc
    rw [f1]
    dsimp only
    rw [f2, f3]
  have el : loadKeys r.id (some (Auc2.mk r.id .comp128v1 key)) (some (Auc3.mk r.id .milenage key (some op) none 0 5))
      = .keys r.id (some { algo := .comp128v1, ki := (List.range 16).map (·.toUInt8) })
        (some { algo := .milenage, k := (List.range 16).map (·.toUInt8), opc := (List.range 16).map (fun i => (16 * i).toUInt8), isOp := true, sqn := 0, bl := 5 }) := by
    unfold loadKeys load3 load2
    simp only [Option.bind_some, k1, k2, k3, Option.map_some, Option.isSome_some]
  show ((DbM.bind (stmt (sqlAuc (imsiOf i)) .error) _) { db := populate n fate .ok d, script := [] }).1 = _
  unfold DbM.bind stmt
  dsimp only
  rw [es]
  dsimp only
  rw [el]
  rfl

/-- The hypotheses can be met. -/
example : Unique {} ∧ KeysOk {} ∧ IdentitiesOk {} ∧ Spec.Free {} 1000000 :=
  ⟨⟨by decide, by decide, by decide, by decide, by decide, by decide, by decide⟩, ⟨(fun a h => by cases h), (fun a h => by cases h)⟩,
    (fun r h => by cases h), by decide, (fun i _ r h => by cases h), (fun i _ r h => by cases h), (fun a h => by cases h), (fun a h => by cases h)⟩

end Verif.Populate
