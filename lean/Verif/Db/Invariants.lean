import Verif.Db.Lemmas
import Verif.Db.Spec
/-! # Preservation lemmas for the database invariants -/
namespace Verif.Db
open Verif

theorem nodup_snoc {α} (l : List α) (a : α) : (l ++ [a]).Nodup ↔ l.Nodup ∧ a ∉ l := by
  rw [List.nodup_append]
  constructor
  · rintro ⟨h1, _, h3⟩
    exact ⟨h1, fun h => h3 a h a (by simp) rfl⟩
  · rintro ⟨h1, h2⟩
    refine ⟨h1, by simp, ?_⟩
    intro x hx y hy
    have : y = a := by simpa using hy
    subst this
    intro h; subst h; exact h2 hx

theorem nodup_filter_map {α β} (l : List α) (f : α → β) (p : α → Bool) (h : (l.map f).Nodup) :
    ((l.filter p).map f).Nodup :=
  h.sublist (List.filter_sublist.map f)

theorem map_map_ite {α β} (l : List α) (g : α → β) (c : α → Bool) (f : α → α)
    (h : ∀ a, g (f a) = g a) : (l.map (fun r => if c r then f r else r)).map g = l.map g := by
  rw [List.map_map]
  apply List.map_congr_left
  intro a _
  simp only [Function.comp]
  split <;> simp [h]

theorem filterMap_map_ite {α β} (l : List α) (g : α → Option β) (c : α → Bool) (f : α → α)
    (h : ∀ a, g (f a) = g a) :
    (l.map (fun r => if c r then f r else r)).filterMap g = l.filterMap g := by
  induction l with
  | nil => rfl
  | cons a l ih =>
    simp only [List.map_cons, List.filterMap_cons, ih]
    have : g (if c a = true then f a else a) = g a := by split <;> simp [h]
    rw [this]

theorem Unique.updSub {d : Db} (hd : Unique d) (c : SubRow → Bool) (f : SubRow → SubRow)
    (h1 : ∀ r, (f r).id = r.id) (h2 : ∀ r, (f r).imsi = r.imsi) (h3 : ∀ r, (f r).msisdn = r.msisdn) :
    Unique (sqlUpdSub c f d).2 := by
  refine { hd with ids := ?_, imsis := ?_, msisdns := ?_ }
  · show (List.map _ (List.map _ _)).Nodup
    rw [map_map_ite _ _ _ _ h1]; exact hd.ids
  · show (List.map _ (List.map _ _)).Nodup
    rw [map_map_ite _ _ _ _ h2]; exact hd.imsis
  · show (List.filterMap _ (List.map _ _)).Nodup
    rw [filterMap_map_ite _ _ _ _ h3]; exact hd.msisdns

/-- Two members of a list with no duplicate key are equal if their keys are. -/
theorem eq_of_nodup_map {α β} {l : List α} {f : α → β} (h : (l.map f).Nodup)
    {x y : α} (hx : x ∈ l) (hy : y ∈ l) (e : f x = f y) : x = y := by
  induction l with
  | nil => cases hx
  | cons a l ih =>
    simp only [List.map_cons, List.nodup_cons] at h
    rcases List.mem_cons.mp hx with rfl | hx' <;> rcases List.mem_cons.mp hy with rfl | hy'
    · rfl
    · exact absurd (e ▸ List.mem_map_of_mem hy') h.1
    · exact absurd (e ▸ List.mem_map_of_mem hx') h.1
    · exact ih h.2 hx' hy'

theorem Unique.setMsisdn {d : Db} (hd : Unique d) (imsi m : Bytes) :
    Unique (sqlSetMsisdn imsi m d).2 := by
  unfold sqlSetMsisdn
  split
  · exact hd
  · rename_i hno
    refine { hd with ids := ?_, imsis := ?_, msisdns := ?_ }
    · show (List.map _ (List.map _ _)).Nodup
      rw [map_map_ite]; exact hd.ids; intro a; rfl
    · show (List.map _ (List.map _ _)).Nodup
      rw [map_map_ite]; exact hd.imsis; intro a; rfl
    · show (List.filterMap _ (List.map _ _)).Nodup
      have hi := hd.imsis
      have hm := hd.msisdns
      unfold List.Nodup at hi hm ⊢
      rw [List.pairwise_map] at hi
      rw [List.pairwise_filterMap] at hm ⊢
      rw [List.pairwise_map]
      by_cases hex : d.subs.any (·.imsi == imsi) = true
      · have hno' : ∀ r ∈ d.subs, r.imsi ≠ imsi → r.msisdn ≠ some m := by
          intro r hr hne heq
          apply hno
          rw [hex, Bool.true_and, List.any_eq_true]
          exact ⟨r, hr, by simp [hne, heq]⟩
        refine List.Pairwise.imp_of_mem ?_ (hi.and hm)
        rintro x y hx hy ⟨hxy, hxm⟩ b hb b' hb'
        by_cases h1 : x.imsi = imsi
        · by_cases h2 : y.imsi = imsi
          · exact absurd (h1.trans h2.symm) hxy
          · have hbm : m = b := by simpa [h1] using hb
            subst hbm
            have hb2 : y.msisdn = some b' := by simpa [h2] using hb'
            intro h; subst h; exact hno' y hy h2 hb2
        · by_cases h2 : y.imsi = imsi
          · have hbm : m = b' := by simpa [h2] using hb'
            subst hbm
            have hb2 : x.msisdn = some b := by simpa [h1] using hb
            intro h; subst h; exact hno' x hx h1 hb2
          · have hb1 : x.msisdn = some b := by simpa [h1] using hb
            have hb2 : y.msisdn = some b' := by simpa [h2] using hb'
            exact hxm b hb1 b' hb2
      · refine List.Pairwise.imp_of_mem ?_ hm
        intro x y hx hy hxm b hb b' hb'
        have nox : ¬ x.imsi = imsi := fun h => hex (List.any_eq_true.mpr ⟨x, hx, by simp [h]⟩)
        have noy : ¬ y.imsi = imsi := fun h => hex (List.any_eq_true.mpr ⟨y, hy, by simp [h]⟩)
        have hb1 : x.msisdn = some b := by simpa [nox] using hb
        have hb2 : y.msisdn = some b' := by simpa [noy] using hb'
        exact hxm b hb1 b' hb2

theorem Unique.delMsisdn {d : Db} (hd : Unique d) (imsi : Bytes) :
    Unique (sqlDelMsisdn imsi d).2 := by
  refine { hd with ids := ?_, imsis := ?_, msisdns := ?_ }
  · show (List.map _ (List.map _ _)).Nodup
    rw [map_map_ite]; exact hd.ids; intro a; rfl
  · show (List.map _ (List.map _ _)).Nodup
    rw [map_map_ite]; exact hd.imsis; intro a; rfl
  · show (List.filterMap _ (List.map _ _)).Nodup
    have hm := hd.msisdns
    unfold List.Nodup at hm ⊢
    rw [List.pairwise_filterMap] at hm ⊢
    rw [List.pairwise_map]
    refine List.Pairwise.imp ?_ hm
    intro x y hxm b hb b' hb'
    by_cases h1 : x.imsi = imsi
    · simp [h1] at hb
    · by_cases h2 : y.imsi = imsi
      · simp [h2] at hb'
      · exact hxm b (by simpa [h1] using hb) b' (by simpa [h2] using hb')

theorem Unique.create {d : Db} (hd : Unique d) (imsi : Bytes) (c p : Bool) :
    Unique (sqlCreate imsi c p d).2 := by
  unfold sqlCreate
  split
  · exact hd
  · rename_i hno
    refine { hd with ids := ?_, imsis := ?_, msisdns := ?_ }
    · simp only [List.map_append, List.map_cons, List.map_nil]
      rw [nodup_snoc]
      exact ⟨hd.ids, newId_fresh _⟩
    · simp only [List.map_append, List.map_cons, List.map_nil]
      rw [nodup_snoc]
      refine ⟨hd.imsis, ?_⟩
      intro h
      rcases List.mem_map.mp h with ⟨r, hr, e⟩
      exact hno (List.any_eq_true.mpr ⟨r, hr, by simp [e]⟩)
    · simp only [List.filterMap_append, List.filterMap_cons, List.filterMap_nil, List.append_nil]
      exact hd.msisdns

theorem Unique.delById {d : Db} (hd : Unique d) (id : Int) : Unique (sqlDelById id d).2 :=
  { hd with
    ids := nodup_filter_map _ _ _ hd.ids
    imsis := nodup_filter_map _ _ _ hd.imsis
    msisdns := hd.msisdns.sublist (List.filter_sublist.filterMap _) }

theorem Unique.delAuc2 {d : Db} (hd : Unique d) (id : Int) : Unique (sqlDelAuc2 id d).2 :=
  { hd with keys2 := nodup_filter_map _ _ _ hd.keys2 }

theorem Unique.delAuc3 {d : Db} (hd : Unique d) (id : Int) : Unique (sqlDelAuc3 id d).2 :=
  { hd with keys3 := nodup_filter_map _ _ _ hd.keys3 }

theorem Unique.insAuc2 {d : Db} (hd : Unique d) (a : Auc2) : Unique (sqlInsAuc2 a d).2 := by
  unfold sqlInsAuc2
  split
  · exact hd
  · rename_i hno
    refine { hd with keys2 := ?_ }
    simp only [List.map_append, List.map_cons, List.map_nil]
    rw [nodup_snoc]
    refine ⟨hd.keys2, fun h => ?_⟩
    rcases List.mem_map.mp h with ⟨r, hr, e⟩
    exact hno (List.any_eq_true.mpr ⟨r, hr, by simp [e]⟩)

theorem Unique.insAuc3 {d : Db} (hd : Unique d) (a : Auc3) : Unique (sqlInsAuc3 a d).2 := by
  unfold sqlInsAuc3
  split
  · exact hd
  · rename_i hno
    refine { hd with keys3 := ?_ }
    simp only [List.map_append, List.map_cons, List.map_nil]
    rw [nodup_snoc]
    refine ⟨hd.keys3, fun h => ?_⟩
    rcases List.mem_map.mp h with ⟨r, hr, e⟩
    exact hno (List.any_eq_true.mpr ⟨r, hr, by simp [e]⟩)

theorem Unique.updSqn {d : Db} (hd : Unique d) (id : Int) (q : Nat) : Unique (sqlUpdSqn id q d).2 := by
  refine { hd with keys3 := ?_ }
  show (List.map _ (List.map _ _)).Nodup
  rw [map_map_ite]
  · exact hd.keys3
  · intro a; rfl

theorem Unique.indAdd {d : Db} (hd : Unique d) (v : Bytes) : Unique (sqlIndAdd v d).2 := by
  unfold sqlIndAdd
  split
  · exact hd
  · rename_i hno
    refine { hd with inds := ?_, vlrs := ?_ }
    · simp only [List.map_append, List.map_cons, List.map_nil]
      rw [nodup_snoc]
      exact ⟨hd.inds, newInd_fresh _⟩
    · simp only [List.map_append, List.map_cons, List.map_nil]
      rw [nodup_snoc]
      refine ⟨hd.vlrs, fun h => ?_⟩
      rcases List.mem_map.mp h with ⟨r, hr, e⟩
      exact hno (List.any_eq_true.mpr ⟨r, hr, by simp [e]⟩)

theorem Unique.indDel {d : Db} (hd : Unique d) (v : Bytes) : Unique (sqlIndDel v d).2 :=
  { hd with
    inds := nodup_filter_map _ _ _ hd.inds
    vlrs := nodup_filter_map _ _ _ hd.vlrs }

theorem unique_op (op : Op) : Sat (Keeps Unique) op.run := by
  refine Sat.op (Keeps.pre _) op ?_
  intro g hg d h
  cases hg with
  | create _ => exact h.create _ _ _
  | del => exact h.delById _
  | del2 => exact h.delAuc2 _
  | del3 => exact h.delAuc3 _
  | aud2d => exact h.delAuc2 _
  | aud3d => exact h.delAuc3 _
  | aud2i _ _ => exact h.insAuc2 _
  | aud3i _ _ => exact h.insAuc3 _
  | msisdn _ => exact h.setMsisdn _ _
  | noMsisdn => exact h.delMsisdn _
  | imei _ => exact h.updSub _ _ (fun _ => rfl) (fun _ => rfl) (fun _ => rfl)
  | @nam i v p | @purge i v p =>
    cases p <;> exact h.updSub _ _ (fun _ => rfl) (fun _ => rfl) (fun _ => rfl)
  | @lu1 i n p v t | @lu2 i n p v t =>
    cases p <;> exact h.updSub _ _ (fun _ => rfl) (fun _ => rfl) (fun _ => rfl)
  | ind _ => exact h.indAdd _
  | indDel _ => exact h.indDel _
  | sqn => exact h.updSqn _ _

end Verif.Db

namespace Verif.Db

theorem eq_of_nodup_filterMap {α β} {l : List α} {f : α → Option β} (h : (l.filterMap f).Nodup)
    {a a' : α} (ha : a ∈ l) (ha' : a' ∈ l) {x : β} (hx : f a = some x) (hx' : f a' = some x) :
    a = a' := by
  induction l with
  | nil => cases ha
  | cons y l ih =>
    have tailcase : ∀ c ∈ l, f c = some x → x ∈ l.filterMap f :=
      fun c hc hcx => List.mem_filterMap.mpr ⟨c, hc, hcx⟩
    cases hy : f y with
    | none =>
      rw [List.filterMap_cons_none hy] at h
      have hne : ∀ c, f c = some x → c ≠ y := by
        intro c hc hcy; subst hcy; rw [hy] at hc; simp at hc
      exact ih h (by simpa [hne a hx] using ha) (by simpa [hne a' hx'] using ha')
    | some z =>
      rw [List.filterMap_cons_some hy, List.nodup_cons] at h
      rcases List.mem_cons.mp ha with rfl | ha1
      · rcases List.mem_cons.mp ha' with rfl | ha1'
        · rfl
        · exfalso
          rw [hx] at hy
          simp only [Option.some.injEq] at hy
          exact h.1 (hy ▸ tailcase a' ha1' hx')
      · rcases List.mem_cons.mp ha' with rfl | ha1'
        · exfalso
          rw [hx'] at hy
          simp only [Option.some.injEq] at hy
          exact h.1 (hy ▸ tailcase a ha1 hx)
        · exact ih h.2 ha1 ha1'

end Verif.Db
