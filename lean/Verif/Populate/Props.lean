import Verif.Populate.Model
import Verif.Db.Lemmas
import Verif.Db.Spec
/-!
# C86: what the script leaves in the database
-/
namespace Verif.Populate
open Verif Verif.Db

/-! ## Numbers -/

theorem pad_length (w i : Nat) : (pad w i).length = w := by
  induction w generalizing i with
  | zero => rfl
  | succ w ih => rw [pad, List.length_append, ih]; rfl

theorem digit_toNat (i : Nat) : (48 + i % 10).toUInt8.toNat = 48 + i % 10 := by
  have h : (48 + i % 10).toUInt8.toNat = (48 + i % 10) % 256 := by simp
  have : i % 10 < 10 := Nat.mod_lt _ (by decide)
  rw [h]
  omega

theorem pad_digits (w i : Nat) : ∀ c ∈ pad w i, 48 ≤ c ∧ c ≤ 57 := by
  induction w generalizing i with
  | zero => intro c h; cases h
  | succ w ih =>
    intro c h
    rw [pad, List.mem_append, List.mem_singleton] at h
    rcases h with h | rfl
    · exact ih _ c h
    · have h1 := digit_toNat i
      have : i % 10 < 10 := Nat.mod_lt _ (by decide)
      rw [UInt8.le_iff_toNat_le, UInt8.le_iff_toNat_le, h1]
      exact ⟨by show 48 ≤ _; omega, by show _ ≤ 57; omega⟩

theorem pad_inj {w i j : Nat} (hi : i < 10 ^ w) (hj : j < 10 ^ w) (h : pad w i = pad w j) : i = j := by
  induction w generalizing i j with
  | zero => simp at hi hj; omega
  | succ w ih =>
    rw [pad, pad] at h
    obtain ⟨h1, h2⟩ := List.append_inj' h rfl
    rw [Nat.pow_succ] at hi hj
    have h3 := ih (i := i / 10) (j := j / 10) (by omega) (by omega) h1
    have h4 : (48 + i % 10).toUInt8.toNat = (48 + j % 10).toUInt8.toNat := by rw [List.cons.inj h2 |>.1]
    rw [digit_toNat, digit_toNat] at h4
    omega

theorem imsi_inj {i j : Nat} (hi : i < 10 ^ 10) (hj : j < 10 ^ 10) (h : imsiOf i = imsiOf j) : i = j :=
  pad_inj hi hj (List.append_cancel_left h)

theorem msisdn_eq (i : Nat) : msisdnOf (imsiOf i) = [52, 57] ++ pad 10 i := rfl

theorem msisdn_inj {i j : Nat} (hi : i < 10 ^ 10) (hj : j < 10 ^ 10) (h : msisdnOf (imsiOf i) = msisdnOf (imsiOf j)) : i = j := by
  rw [msisdn_eq, msisdn_eq] at h
  exact pad_inj hi hj (List.append_cancel_left h)

theorem imsi_digits (i : Nat) : Digits 6 15 (imsiOf i) ∧ Digits 1 15 (msisdnOf (imsiOf i)) := by
  have hp := pad_digits 10 i
  refine ⟨⟨?_, ?_, ?_⟩, ⟨?_, ?_, ?_⟩⟩
  · rw [imsiOf, List.length_append, pad_length]; decide
  · rw [imsiOf, List.length_append, pad_length]; decide
  · intro c h
    rw [imsiOf, List.mem_append] at h
    rcases h with h | h
    · revert c; decide
    · exact hp c h
  · rw [msisdn_eq, List.length_append, pad_length]; decide
  · rw [msisdn_eq, List.length_append, pad_length]; decide
  · intro c h
    rw [msisdn_eq, List.mem_append] at h
    rcases h with h | h
    · revert c; decide
    · exact hp c h

/-! ## What holds whatever happens -/

/-- Everything that was there is still there, and the identities and keys are in order. -/
structure Ok (orig d : Db) : Prop where
  subs : orig.subs <+: d.subs
  auc2 : orig.auc2 <+: d.auc2
  auc3 : orig.auc3 <+: d.auc3
  inds : d.inds = orig.inds
  unique : Unique d
  keys : KeysOk d
  idents : IdentitiesOk d

theorem nodup_snoc {α : Type} {l : List α} {a : α} (h : l.Nodup) (ha : a ∉ l) : (l ++ [a]).Nodup := by
  rw [List.nodup_append]
  refine ⟨h, by simp, fun x hx y hy e => ?_⟩
  rw [List.mem_singleton] at hy
  exact ha (hy ▸ e ▸ hx)

theorem insBase_ok {orig d d' : Db} {i : Nat} {id : Int} (h : Ok orig d) (e : insBase (imsiOf i) (msisdnOf (imsiOf i)) d = some (id, d')) : Ok orig d' := by
  unfold insBase at e
  split at e
  · cases e
  · rename_i hn
    cases e
    have hn' : ∀ r ∈ d.subs, r.imsi ≠ imsiOf i ∧ r.msisdn ≠ some (msisdnOf (imsiOf i)) := by
      intro r hr
      constructor <;> intro e <;> exact hn (List.any_eq_true.2 ⟨r, hr, by simp [e]⟩)
    refine ⟨h.subs.trans (List.prefix_append _ _), h.auc2, h.auc3, h.inds, ⟨?_, ?_, ?_, h.unique.keys2, h.unique.keys3, h.unique.inds, h.unique.vlrs⟩, h.keys, ?_⟩
    · rw [List.map_append]
      exact nodup_snoc h.unique.ids (newId_fresh _)
    · rw [List.map_append]
      refine nodup_snoc h.unique.imsis ?_
      intro hm
      obtain ⟨r, hr, e⟩ := List.mem_map.1 hm
      exact (hn' r hr).1 e
    · rw [List.filterMap_append]
      refine nodup_snoc h.unique.msisdns ?_
      intro hm
      obtain ⟨r, hr, e⟩ := List.mem_filterMap.1 hm
      exact (hn' r hr).2 e
    · intro r hr
      rcases List.mem_append.1 hr with hr | hr
      · exact h.idents r hr
      · rw [List.mem_singleton] at hr
        subst hr
        obtain ⟨h1, h2⟩ := imsi_digits i
        exact ⟨h1, fun m hm => by cases hm; exact h2, fun m hm => by cases hm⟩

theorem key_hex : key.length = 32 ∧ (∀ c ∈ key, isXDigit c = true) ∧ Hex32to64 key ∧ Hex32to64 op := by
  unfold Hex32to64
  decide +kernel

theorem insAuc3_ok {orig d d' : Db} {id id' : Int} (h : Ok orig d) (e : insAuc3 id d = some (id', d')) : Ok orig d' := by
  unfold insAuc3 sqlInsAuc3 at e
  split at e
  · rename_i hc
    split at hc
    · cases hc
    · rename_i hn
      cases hc
      cases e
      refine ⟨h.subs, h.auc2, h.auc3.trans (List.prefix_append _ _), h.inds,
        ⟨h.unique.ids, h.unique.imsis, h.unique.msisdns, h.unique.keys2, ?_, h.unique.inds, h.unique.vlrs⟩, ⟨h.keys.1, ?_⟩, h.idents⟩
      · rw [List.map_append]
        refine nodup_snoc h.unique.keys3 ?_
        intro hm
        obtain ⟨r, hr, e⟩ := List.mem_map.1 hm
        exact hn (List.any_eq_true.2 ⟨r, hr, by simpa using e⟩)
      · intro a ha
        rcases List.mem_append.1 ha with ha | ha
        · exact h.keys.2 a ha
        · rw [List.mem_singleton] at ha
          subst ha
          exact ⟨List.mem_cons_self, key_hex.2.2.1, (by decide : 5 ≤ 28), .inl ⟨op, rfl, rfl, key_hex.2.2.2⟩⟩
  · cases e

theorem insAuc2_ok {orig d d' : Db} {id id' : Int} (h : Ok orig d) (e : insAuc2 id d = some (id', d')) : Ok orig d' := by
  unfold insAuc2 sqlInsAuc2 at e
  split at e
  · rename_i hc
    split at hc
    · cases hc
    · rename_i hn
      cases hc
      cases e
      refine ⟨h.subs, h.auc2.trans (List.prefix_append _ _), h.auc3, h.inds,
        ⟨h.unique.ids, h.unique.imsis, h.unique.msisdns, ?_, h.unique.keys3, h.unique.inds, h.unique.vlrs⟩, ⟨?_, h.keys.2⟩, h.idents⟩
      · rw [List.map_append]
        refine nodup_snoc h.unique.keys2 ?_
        intro hm
        obtain ⟨r, hr, e⟩ := List.mem_map.1 hm
        exact hn (List.any_eq_true.2 ⟨r, hr, by simpa using e⟩)
      · intro a ha
        rcases List.mem_append.1 ha with ha | ha
        · exact h.keys.1 a ha
        · rw [List.mem_singleton] at ha
          subst ha
          exact ⟨List.mem_cons_self, key_hex.1, key_hex.2.1⟩
  · cases e

theorem execute_ok {orig : Db} (h0 : Ok orig orig) {ins : Db → Option (Int × Db)} (hins : ∀ d d' id, Ok orig d → ins d = some (id, d') → Ok orig d')
    {f : Fate} {s s' : St} (h : Ok orig s.db) (e : execute orig ins f s = some s') : Ok orig s'.db := by
  unfold execute at e
  cases f with
  | crash => cases e
  | rollback => cases e; exact h0
  | fail => cases e; exact h
  | ok =>
    dsimp only at e
    split at e
    · cases e; exact h
    · rename_i hi
      cases e
      exact hins _ _ _ h hi

theorem loop_ok {orig : Db} (h0 : Ok orig orig) (fate : Nat → Nat → Fate) (n : Nat) {s : St} (e : loop orig fate n = some s) : Ok orig s.db := by
  induction n generalizing s with
  | zero => cases e; exact h0
  | succ n ih =>
    rw [loop, Option.bind_eq_some_iff] at e
    obtain ⟨s1, e1, e2⟩ := e
    unfold createSubscr at e2
    rw [Option.bind_eq_some_iff] at e2
    obtain ⟨s2, e3, e4⟩ := e2
    dsimp only at e4
    rw [Option.bind_eq_some_iff] at e4
    obtain ⟨s3, e5, e6⟩ := e4
    have h1 := execute_ok h0 (fun d d' id h e => insBase_ok h e) (ih e1) e3
    have h2 := execute_ok h0 (fun d d' id h e => insAuc3_ok h e) h1 e5
    exact execute_ok h0 (fun d d' id h e => insAuc2_ok h e) h2 e6

/-- **C86.** Whatever happens to the script and to its statements: everything that was in the database is still there, unchanged; no identity
occurs twice; all identities and keys are well-formed. -/
theorem c86_safe (d : Db) (hu : Unique d) (hk : KeysOk d) (hi : IdentitiesOk d) (n : Nat) (fate : Nat → Nat → Fate) (commit : Fate) :
    d.subs <+: (populate n fate commit d).subs ∧ d.auc2 <+: (populate n fate commit d).auc2 ∧ d.auc3 <+: (populate n fate commit d).auc3
    ∧ (populate n fate commit d).inds = d.inds
    ∧ Unique (populate n fate commit d) ∧ KeysOk (populate n fate commit d) ∧ IdentitiesOk (populate n fate commit d) := by
  have h0 : Ok d d := ⟨List.prefix_refl _, List.prefix_refl _, List.prefix_refl _, rfl, hu, hk, hi⟩
  have h : Ok d (populate n fate commit d) := by
    unfold populate
    cases e : loop d fate n with
    | none => exact h0
    | some s =>
      dsimp only
      split
      · exact loop_ok h0 fate n e
      · exact h0
  exact ⟨h.subs, h.auc2, h.auc3, h.inds, h.unique, h.keys, h.idents⟩

/-- **C86.** A script that is killed, or cannot commit, leaves the database as it was. -/
theorem c86_atomic (d : Db) (n : Nat) (fate : Nat → Nat → Fate) (commit : Fate) (h : (∃ i j, i < n ∧ j < 3 ∧ fate i j = .crash) ∨ commit ≠ .ok) :
    populate n fate commit d = d := by
  unfold populate
  cases e : loop d fate n with
  | none => rfl
  | some s =>
    dsimp only
    split
    · rename_i hc
      rcases h with ⟨i, j, hi, hj, hf⟩ | h
      · exfalso
        have dead : ∀ s, createSubscr d (fate i) (imsiOf i) s = none := by
          intro s
          unfold createSubscr
          have : j = 0 ∨ j = 1 ∨ j = 2 := by omega
          rcases this with rfl | rfl | rfl
          · rw [hf]; rfl
          · cases execute d (insBase (imsiOf i) (msisdnOf (imsiOf i))) (fate i 0) s with
            | none => rfl
            | some s => rw [hf]; rfl
          · cases execute d (insBase (imsiOf i) (msisdnOf (imsiOf i))) (fate i 0) s with
            | none => rfl
            | some s =>
              rw [Option.bind_some]
              dsimp only
              cases execute d (insAuc3 s.last) (fate i 1) s with
              | none => rfl
              | some s' => rw [hf]; rfl
        have : ∀ k, i < k → loop d fate k = none := by
          intro k
          induction k with
          | zero => intro h; omega
          | succ k ih =>
            intro hk
            rw [loop]
            by_cases e : i = k
            · subst e
              cases loop d fate i with
              | none => rfl
              | some s => exact dead s
            · rw [ih (by omega)]; rfl
        rw [this n hi] at e
        cases e
      · exact absurd hc h
    · rfl

/-! ## What the script creates -/

/-- The rows of the `i`-th subscriber. -/
def subRow (m : Int) (i : Nat) : SubRow := { id := m + i, imsi := imsiOf i, msisdn := some (msisdnOf (imsiOf i)) }
def key3Row (id : Int) : Auc3 := { id := id, algo := .milenage, k := key, op := some op, opc := none, sqn := 0, indBitlen := 5 }
def key2Row (id : Int) : Auc2 := { id := id, algo := .comp128v1, ki := key }

/-- The database with the first `n` subscribers. -/
def filled (d : Db) (n : Nat) : Db :=
  { d with subs := d.subs ++ (List.range n).map (subRow (newId (d.subs.map (·.id))))
           auc3 := d.auc3 ++ (List.range n).map (fun i : Nat => key3Row (newId (d.subs.map (·.id)) + i))
           auc2 := d.auc2 ++ (List.range n).map (fun i : Nat => key2Row (newId (d.subs.map (·.id)) + i)) }

theorem newId_snoc (l : List Int) : newId (l ++ [newId l]) = newId l + 1 := by
  unfold newId
  rw [List.foldl_append, List.foldl_cons, List.foldl_nil]
  omega

theorem newId_filled (d : Db) (n : Nat) : newId ((filled d n).subs.map (·.id)) = newId (d.subs.map (·.id)) + n := by
  induction n with
  | zero => simp [filled]
  | succ n ih =>
    have : (filled d (n + 1)).subs.map (·.id) = (filled d n).subs.map (·.id) ++ [newId (d.subs.map (·.id)) + n] := by
      simp [filled, List.range_succ, subRow]
    rw [this, ← ih, newId_snoc, ih]
    omega

theorem newId_above {l : List Int} {x : Int} (h : x ∈ l) : x < newId l := by
  have := mem_le_foldl_max l 0 _ h
  unfold newId
  omega

theorem execute_some {orig d d' : Db} {ins : Db → Option (Int × Db)} {last id : Int} (h : ins d = some (id, d')) :
    execute orig ins .ok { db := d, last := last } = some { db := d', last := id } := by
  unfold execute
  dsimp only
  rw [h]

theorem execute_none {orig d : Db} {ins : Db → Option (Int × Db)} {last : Int} (h : ins d = none) :
    execute orig ins .ok { db := d, last := last } = some { db := d, last := last } := by
  unfold execute
  dsimp only
  rw [h]

/-- None of the first `n` IMSIs and numbers is in the database, and all keys belong to subscribers. -/
structure Spec.Free (d : Db) (n : Nat) : Prop where
  few : n ≤ 10 ^ 10
  imsis : ∀ i < n, ∀ r ∈ d.subs, r.imsi ≠ imsiOf i
  msisdns : ∀ i < n, ∀ r ∈ d.subs, r.msisdn ≠ some (msisdnOf (imsiOf i))
  keys : NoOrphanKeys d

theorem loop_filled {d : Db} {n : Nat} (h : Spec.Free d n) (fate : Nat → Nat → Fate) (hf : ∀ i < n, ∀ j < 3, fate i j = .ok) (k : Nat) (hk : k ≤ n) :
    ∃ s, loop d fate k = some s ∧ s.db = filled d k := by
  induction k with
  | zero => exact ⟨_, rfl, by simp [filled]⟩
  | succ k ih =>
    obtain ⟨s, e, hs⟩ := ih (by omega)
    rw [loop, e, Option.bind_some]
    unfold createSubscr
    rw [hf k (by omega) 0 (by omega), hf k (by omega) 1 (by omega), hf k (by omega) 2 (by omega)]
    obtain ⟨db, last⟩ := s
    have hs' : db = filled d k := hs
    rw [hs']
    have hfew := h.few
    have hb : insBase (imsiOf k) (msisdnOf (imsiOf k)) (filled d k)
        = some (newId (d.subs.map (·.id)) + k, { filled d k with subs := (filled d (k + 1)).subs }) := by
      unfold insBase
      rw [if_neg, newId_filled]
      · simp [filled, List.range_succ, subRow]
      · intro ha
        obtain ⟨r, hr, hc⟩ := List.any_eq_true.1 ha
        rw [Bool.or_eq_true, beq_iff_eq, beq_iff_eq] at hc
        rcases List.mem_append.1 hr with hr | hr
        · rcases hc with hc | hc
          · exact h.imsis k (by omega) r hr hc
          · exact h.msisdns k (by omega) r hr hc
        · obtain ⟨i, hi, rfl⟩ := List.mem_map.1 hr
          rw [List.mem_range] at hi
          rcases hc with hc | hc
          · have := imsi_inj (i := i) (j := k) (by omega) (by omega) hc
            omega
          · have := msisdn_inj (i := i) (j := k) (by omega) (by omega) (Option.some.inj hc)
            omega
    have h3 : ∀ S, insAuc3 (newId (d.subs.map (·.id)) + k) { filled d k with subs := S }
        = some (newId (d.subs.map (·.id)) + k, { filled d k with subs := S, auc3 := (filled d (k + 1)).auc3 }) := by
      intro S
      unfold insAuc3 sqlInsAuc3
      rw [if_neg]
      · simp [filled, List.range_succ, key3Row]
      · intro ha
        obtain ⟨r, hr, hc⟩ := List.any_eq_true.1 ha
        rw [beq_iff_eq] at hc
        rcases List.mem_append.1 hr with hr | hr
        · obtain ⟨x, hx, e⟩ := h.keys.2 r hr
          have := newId_above (List.mem_map_of_mem (f := (·.id)) hx)
          dsimp only at hc
          omega
        · obtain ⟨i, hi, rfl⟩ := List.mem_map.1 hr
          rw [List.mem_range] at hi
          simp only [key3Row] at hc
          omega
    have h2 : ∀ S A, insAuc2 (newId (d.subs.map (·.id)) + k) { filled d k with subs := S, auc3 := A }
        = some (newId (d.subs.map (·.id)) + k, { filled d k with subs := S, auc3 := A, auc2 := (filled d (k + 1)).auc2 }) := by
      intro S A
      unfold insAuc2 sqlInsAuc2
      rw [if_neg]
      · simp [filled, List.range_succ, key2Row]
      · intro ha
        obtain ⟨r, hr, hc⟩ := List.any_eq_true.1 ha
        rw [beq_iff_eq] at hc
        rcases List.mem_append.1 hr with hr | hr
        · obtain ⟨x, hx, e⟩ := h.keys.1 r hr
          have := newId_above (List.mem_map_of_mem (f := (·.id)) hx)
          dsimp only at hc
          omega
        · obtain ⟨i, hi, rfl⟩ := List.mem_map.1 hr
          rw [List.mem_range] at hi
          simp only [key2Row] at hc
          omega
    refine ⟨{ db := filled d (k + 1), last := newId (d.subs.map (·.id)) + k }, ?_, rfl⟩
    rw [execute_some hb, Option.bind_some]
    dsimp only
    rw [execute_some (h3 _), Option.bind_some, execute_some (h2 _ _)]
    rfl

/-- **C86.** If none of the IMSIs and numbers was in the database and all statements are executed, each of the `n` subscribers is there afterwards,
with its number, enabled for both domains, with its 2G and its 3G key under its own id; nothing else has been added, and all keys belong
to subscribers.

Missing: if an insertion fails the keys may go astray (`c86_again_violated`). -/
theorem c86_created_partial (d : Db) (n : Nat) (h : Spec.Free d n) (fate : Nat → Nat → Fate) (hf : ∀ i < n, ∀ j < 3, fate i j = .ok) :
    (∀ i < n, ∃ r ∈ (populate n fate .ok d).subs, r.imsi = imsiOf i ∧ r.msisdn = some (msisdnOf (imsiOf i)) ∧ r.namCs = true ∧ r.namPs = true
      ∧ Auc2.mk r.id .comp128v1 key ∈ (populate n fate .ok d).auc2
      ∧ Auc3.mk r.id .milenage key (some op) none 0 5 ∈ (populate n fate .ok d).auc3)
    ∧ (populate n fate .ok d).subs.length = d.subs.length + n ∧ (populate n fate .ok d).auc2.length = d.auc2.length + n
    ∧ (populate n fate .ok d).auc3.length = d.auc3.length + n ∧ NoOrphanKeys (populate n fate .ok d) := by
  obtain ⟨s, e, hs⟩ := loop_filled h fate hf n (Nat.le_refl _)
  have hp : populate n fate .ok d = filled d n := by
    unfold populate
    rw [e]
    dsimp only
    rw [if_pos rfl, hs]
  rw [hp]
  refine ⟨fun i hi => ⟨subRow (newId (d.subs.map (·.id))) i, ?_, rfl, rfl, rfl, rfl, ?_, ?_⟩, ?_, ?_, ?_, ?_, ?_⟩
  · exact List.mem_append_right _ (List.mem_map_of_mem (List.mem_range.2 hi))
  · exact List.mem_append_right _ (List.mem_map.2 ⟨i, List.mem_range.2 hi, rfl⟩)
  · exact List.mem_append_right _ (List.mem_map.2 ⟨i, List.mem_range.2 hi, rfl⟩)
  · simp [filled]
  · simp [filled]
  · simp [filled]
  · intro a ha
    rcases List.mem_append.1 ha with ha | ha
    · obtain ⟨r, hr, e⟩ := h.keys.1 a ha
      exact ⟨r, List.mem_append_left _ hr, e⟩
    · obtain ⟨i, hi, rfl⟩ := List.mem_map.1 ha
      exact ⟨subRow _ i, List.mem_append_right _ (List.mem_map_of_mem hi), rfl⟩
  · intro a ha
    rcases List.mem_append.1 ha with ha | ha
    · obtain ⟨r, hr, e⟩ := h.keys.2 a ha
      exact ⟨r, List.mem_append_left _ hr, e⟩
    · obtain ⟨i, hi, rfl⟩ := List.mem_map.1 ha
      exact ⟨subRow _ i, List.mem_append_right _ (List.mem_map_of_mem hi), rfl⟩

/-! ## Violations -/

/-- C86 is violated: if the subscribers are there already, as after running the script before, it adds keys that belong to no
subscriber, under the id 0.  This holds for every number of subscribers. -/
theorem c86_again_violated (d : Db) (n : Nat) (hn : 0 < n) (hold : ∀ i < n, ∃ r ∈ d.subs, r.imsi = imsiOf i) (hids : ∀ r ∈ d.subs, 0 < r.id)
    (hkeys : NoOrphanKeys d) :
    populate n (fun _ _ => .ok) .ok d = { d with auc3 := d.auc3 ++ [key3Row 0], auc2 := d.auc2 ++ [key2Row 0] }
    ∧ ¬ NoOrphanKeys (populate n (fun _ _ => .ok) .ok d) := by
  have hbase : ∀ i < n, ∀ D : Db, D.subs = d.subs → insBase (imsiOf i) (msisdnOf (imsiOf i)) D = none := by
    intro i hi D hD
    unfold insBase
    rw [if_pos]
    obtain ⟨r, hr, e⟩ := hold i hi
    exact List.any_eq_true.2 ⟨r, hD ▸ hr, by simp [e]⟩
  have hloop : ∀ k, 0 < k → k ≤ n → loop d (fun _ _ => .ok) k
      = some { db := { d with auc3 := d.auc3 ++ [key3Row 0], auc2 := d.auc2 ++ [key2Row 0] }, last := 0 } := by
    intro k
    induction k with
    | zero => intro h; omega
    | succ k ih =>
      intro _ hk
      rw [loop]
      by_cases hk0 : k = 0
      · subst hk0
        rw [loop, Option.bind_some]
        unfold createSubscr
        rw [execute_none (hbase 0 hn d rfl), Option.bind_some]
        dsimp only
        have h3 : insAuc3 0 d = some (0, { d with auc3 := d.auc3 ++ [key3Row 0] }) := by
          unfold insAuc3 sqlInsAuc3
          rw [if_neg]
          · rfl
          · intro ha
            obtain ⟨a, ha, e⟩ := List.any_eq_true.1 ha
            obtain ⟨r, hr, e'⟩ := hkeys.2 a ha
            have := hids r hr
            rw [beq_iff_eq] at e
            dsimp only at e
            omega
        have h2 : insAuc2 0 { d with auc3 := d.auc3 ++ [key3Row 0] } = some (0, { d with auc3 := d.auc3 ++ [key3Row 0], auc2 := d.auc2 ++ [key2Row 0] }) := by
          unfold insAuc2 sqlInsAuc2
          rw [if_neg]
          · rfl
          · intro ha
            obtain ⟨a, ha, e⟩ := List.any_eq_true.1 ha
            obtain ⟨r, hr, e'⟩ := hkeys.1 a ha
            have := hids r hr
            rw [beq_iff_eq] at e
            dsimp only at e
            omega
        rw [execute_some h3, Option.bind_some, execute_some h2]
      · rw [ih (by omega) (by omega), Option.bind_some]
        unfold createSubscr
        rw [execute_none (hbase k (by omega) _ (by rfl)), Option.bind_some]
        dsimp only
        have h3 : insAuc3 0 { d with auc3 := d.auc3 ++ [key3Row 0], auc2 := d.auc2 ++ [key2Row 0] } = none := by
          unfold insAuc3 sqlInsAuc3
          rw [if_pos]
          exact List.any_eq_true.2 ⟨key3Row 0, by simp, rfl⟩
        have h2 : insAuc2 0 { d with auc3 := d.auc3 ++ [key3Row 0], auc2 := d.auc2 ++ [key2Row 0] } = none := by
          unfold insAuc2 sqlInsAuc2
          rw [if_pos]
          exact List.any_eq_true.2 ⟨key2Row 0, by simp, rfl⟩
        rw [execute_none h3, Option.bind_some, execute_none h2]
  have hp : populate n (fun _ _ => .ok) .ok d = { d with auc3 := d.auc3 ++ [key3Row 0], auc2 := d.auc2 ++ [key2Row 0] } := by
    unfold populate
    rw [hloop n hn (Nat.le_refl _)]
    rfl
  refine ⟨hp, ?_⟩
  rw [hp]
  intro h
  obtain ⟨r, hr, e⟩ := h.1 (key2Row 0) (by simp)
  have := hids r hr
  have e' : r.id = 0 := e
  omega

theorem filled_ids {d : Db} (h : ∀ r ∈ d.subs, 0 < r.id) (n : Nat) : ∀ r ∈ (filled d n).subs, 0 < r.id := by
  intro r hr
  unfold filled at hr
  dsimp only at hr
  rcases List.mem_append.1 hr with hr | hr
  · exact h r hr
  · obtain ⟨i, -, rfl⟩ := List.mem_map.1 hr
    have h1 : 0 < newId (d.subs.map (·.id)) := by
      have := le_foldl_max (d.subs.map (·.id)) 0
      unfold newId
      omega
    simp only [subRow]
    omega

/-- C86 is violated by running the script twice on an empty database, for every number of subscribers. -/
theorem c86_twice_violated (n : Nat) (hn : 0 < n) (hfew : n ≤ 10 ^ 10) :
    ¬ NoOrphanKeys (populate n (fun _ _ => .ok) .ok (populate n (fun _ _ => .ok) .ok {})) := by
  have hfree : Spec.Free {} n :=
    ⟨hfew, (fun i _ r h => by cases h), (fun i _ r h => by cases h), (fun a h => by cases h), (fun a h => by cases h)⟩
  obtain ⟨h1, -, -, -, h5⟩ := c86_created_partial {} n hfree (fun _ _ => .ok) (fun _ _ _ _ => rfl)
  refine (c86_again_violated _ n hn ?_ ?_ h5).2
  · intro i hi
    obtain ⟨r, hr, e, -⟩ := h1 i hi
    exact ⟨r, hr, e⟩
  · obtain ⟨s, e, hs⟩ := loop_filled hfree (fun _ _ => .ok) (fun _ _ _ _ => rfl) n (Nat.le_refl _)
    have hp : populate n (fun _ _ => .ok) .ok {} = filled {} n := by
      unfold populate
      rw [e]
      dsimp only
      rw [if_pos rfl, hs]
    rw [hp]
    exact filled_ids (d := {}) (fun r h => by cases h) n

/-- The script as it is. -/
example : ¬ NoOrphanKeys (script (fun _ _ => .ok) .ok (script (fun _ _ => .ok) .ok {})) :=
  c86_twice_violated 1000000 (by decide) (by decide)

/-- A subscriber that was there before gets neither number nor keys. -/
theorem c86_skipped_violated : ∃ d : Db, Unique d ∧ NoOrphanKeys d ∧ ∃ r ∈ (populate 2 (fun _ _ => .ok) .ok d).subs,
    r.imsi = imsiOf 1 ∧ r.msisdn = none ∧ (∀ a ∈ (populate 2 (fun _ _ => .ok) .ok d).auc2, a.id ≠ r.id) := by
  refine ⟨{ subs := [{ id := 7, imsi := imsiOf 1 }] }, ⟨by decide, by decide, by decide, by decide, by decide, by decide, by decide⟩,
    ⟨(fun a h => by cases h), (fun a h => by cases h)⟩, { id := 7, imsi := imsiOf 1 }, by decide +kernel, rfl, rfl, by decide +kernel⟩

/-! ## Examples -/

/-- The hypotheses can be met by a database with a subscriber in it. -/
example : Spec.Free { subs := [{ id := 7, imsi := b "001010000000001", msisdn := some (b "123") }] } 2 := by
  refine ⟨by decide, ?_, ?_, (fun a h => by cases h), (fun a h => by cases h)⟩
  · intro i hi r hr
    rw [List.mem_singleton] at hr
    subst hr
    have : i = 0 ∨ i = 1 := by omega
    rcases this with rfl | rfl <;> decide +kernel
  · intro i hi r hr
    rw [List.mem_singleton] at hr
    subst hr
    have : i = 0 ∨ i = 1 := by omega
    rcases this with rfl | rfl <;> decide +kernel

example : (populate 2 (fun _ _ => .ok) .ok {}).subs.map (fun r => (r.id, r.imsi)) = [(1, b "901790000000000"), (2, b "901790000000001")]
    ∧ (populate 3 (fun i j => if i = 1 ∧ j = 0 then .rollback else .ok) .ok {}).auc2.map (·.id) = [1] := by decide +kernel

end Verif.Populate
