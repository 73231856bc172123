import Verif.Auc.History
import Verif.Hlr.Lemmas
/-! # Further lemmas on authentication -/
namespace Verif.Auc
open Verif Verif.Db Verif.Hlr

/-! ## Stored keys can be read back -/

theorem hexVal_of_xdigit {c : UInt8} (h : isXDigit c = true) : ∃ v, hexVal c = some v := by
  unfold isXDigit isDigit at h
  unfold hexVal
  by_cases h1 : (48 ≤ c && c ≤ 57) = true
  · exact ⟨_, if_pos h1⟩
  · rw [if_neg h1]
    by_cases h2 : (97 ≤ c && c ≤ 102) = true
    · exact ⟨_, if_pos h2⟩
    · rw [if_neg h2]
      by_cases h3 : (65 ≤ c && c ≤ 70) = true
      · exact ⟨_, if_pos h3⟩
      · simp_all

theorem hexparse_total : ∀ (t : Bytes), t.length % 2 = 0 → (∀ c ∈ t, isXDigit c = true) →
    ∃ x, hexparse t = some x ∧ x.length = t.length / 2
  | [], _, _ => ⟨[], rfl, rfl⟩
  | [_], h, _ => by simp at h
  | a :: c :: t, h, hx => by
    obtain ⟨v, hv⟩ := hexVal_of_xdigit (hx a (by simp))
    obtain ⟨u, hu⟩ := hexVal_of_xdigit (hx c (by simp))
    obtain ⟨x, hp, hl⟩ := hexparse_total t (by simp at h; omega) (fun y hy => hx y (by simp [hy]))
    refine ⟨(v * 16 + u) :: x, ?_, ?_⟩
    · simp only [hexparse, hv, hu, hp]
    · simp only [List.length_cons, hl]; omega

theorem hexCol_total {lo hi : Nat} {t : Bytes} (h1 : 2 * lo ≤ t.length) (h2 : t.length ≤ 2 * hi)
    (h3 : t.length % 2 = 0) (h4 : ∀ c ∈ t, isXDigit c = true) : ∃ x, hexCol lo hi t = some x := by
  obtain ⟨x, hx, hl⟩ := hexparse_total t h3 h4
  unfold hexCol
  rw [if_neg (by omega), if_neg (by omega), hx]
  exact ⟨x, by simp [hl]⟩

theorem load2_total {a : Auc2} (h : Key2Ok a) : ∃ g, load2 a = some g ∧ g.algo ≠ .none := by
  obtain ⟨h1, h2, h3⟩ := h
  obtain ⟨x, hx⟩ := hexCol_total (lo := 16) (hi := 16) (t := a.ki) (by omega) (by omega) (by omega) h3
  refine ⟨{ algo := a.algo, ki := x }, by simp [load2, hx], ?_⟩
  intro h
  simp only at h
  rw [h] at h1; simp at h1

theorem load3_total {a : Auc3} (h : Key3Ok a) :
    ∃ u, load3 a = some u ∧ u.algo ≠ .none ∧ u.bl ≤ 28 := by
  obtain ⟨h1, h2, h3, h4⟩ := h
  obtain ⟨k, hk⟩ := hexCol_total (lo := 16) (hi := 32) (t := a.k) (by have := h2.1; omega)
    (by have := h2.2.1; omega) h2.2.2.1 h2.2.2.2
  have hal : a.algo ≠ .none := by intro h; rw [h] at h1; simp at h1
  rcases h4 with ⟨t, e, _, ht⟩ | ⟨t, e, e2, ht⟩
  · obtain ⟨o, ho⟩ := hexCol_total (lo := 16) (hi := 32) (t := t) (by have := ht.1; omega)
      (by have := ht.2.1; omega) ht.2.2.1 ht.2.2.2
    exact ⟨⟨a.algo, k, o, true, a.sqn, a.indBitlen, 0, false⟩, by simp [load3, hk, e, ho], hal, h3⟩
  · obtain ⟨o, ho⟩ := hexCol_total (lo := 16) (hi := 32) (t := t) (by have := ht.1; omega)
      (by have := ht.2.1; omega) ht.2.2.1 ht.2.2.2
    exact ⟨⟨a.algo, k, o, false, a.sqn, a.indBitlen, 0, false⟩, by simp [load3, hk, e, e2, ho], hal, h3⟩

/-- Keys of a subscriber in a database with well-formed key records. -/
theorem authKeys_ok {d : Db} (hK : KeysOk d) {r : SubRow} (hU : Unique d) (hr : r ∈ d.subs) :
    authKeys d r.imsi =
      if key2 d r.id = none ∧ key3 d r.id = none then .err (-ENOKEY)
      else .keys r.id ((key2 d r.id).bind load2) ((key3 d r.id).bind load3) := by
  have hf : d.subs.find? (fun x => x.imsi == r.imsi) = some r := abs_of_mem hU hr
  unfold authKeys
  rw [hf]
  simp only [loadKeys]
  have h2 : ∀ a, key2 d r.id = some a → ∃ g, load2 a = some g := by
    intro a ha
    obtain ⟨g, hg, _⟩ := load2_total (hK.1 a (List.mem_of_find?_eq_some ha))
    exact ⟨g, hg⟩
  cases h3 : key3 d r.id with
  | none =>
    cases hk2 : key2 d r.id with
    | none => simp
    | some a =>
      obtain ⟨g, hg⟩ := h2 a hk2
      simp [hg]
  | some a =>
    obtain ⟨u, hu, _⟩ := load3_total (hK.2 a (List.mem_of_find?_eq_some h3))
    simp [hu]

theorem authKeys_unknown {d : Db} {imsi : Bytes} (h : ¬ Known d imsi) :
    authKeys d imsi = .err (-ENOENT) := by
  unfold authKeys
  have : d.subs.find? (fun r => r.imsi == imsi) = none := by
    rw [List.find?_eq_none]; intro r hr hh; exact h ⟨r, hr, by simpa using hh⟩
  rw [this]

theorem authKeys_known {d : Db} {imsi : Bytes} {rc : Int} (h : authKeys d imsi = .err rc)
    (hk : Known d imsi) (hK : KeysOk d) (hU : Unique d) : rc = -ENOKEY := by
  obtain ⟨r, hr, rfl⟩ := hk
  rw [authKeys_ok hK hU hr] at h
  split at h
  · cases h; rfl
  · simp at h

theorem authKeys_u {d : Db} (hK : KeysOk d) {imsi : Bytes} {id : Int} {g : Option Aud2} {u : Aud3}
    (h : authKeys d imsi = .keys id g (some u)) : u.bl ≤ 28 ∧ u.algo ≠ .none := by
  obtain ⟨_, _, h3⟩ := authKeys_keys h
  cases hk : key3 d id with
  | none => rw [hk] at h3; simp at h3
  | some a =>
    obtain ⟨u', hu, h1, h2⟩ := load3_total (hK.2 a (List.mem_of_find?_eq_some hk))
    rw [hk] at h3
    have h3 : some u = load3 a := h3
    rw [hu] at h3; cases h3
    exact ⟨h2, h1⟩

theorem authKeys_g {d : Db} (hK : KeysOk d) {imsi : Bytes} {id : Int} {g : Aud2} {u : Option Aud3}
    (h : authKeys d imsi = .keys id (some g) u) : g.algo ≠ .none := by
  obtain ⟨_, h2, _⟩ := authKeys_keys h
  cases hk : key2 d id with
  | none => rw [hk] at h2; simp at h2
  | some a =>
    obtain ⟨g', hg, h1⟩ := load2_total (hK.1 a (List.mem_of_find?_eq_some hk))
    rw [hk] at h2
    have h2 : some g = load2 a := h2
    rw [hg] at h2; cases h2
    exact h1

theorem filter_algo2 {g : Option Aud2} (h : ∀ x, g = some x → x.algo ≠ .none) :
    Option.filter (fun a : Aud2 => a.algo != Algo.none) g = g := by
  cases g with
  | none => rfl
  | some x => simp [Option.filter, h x rfl]

/-! ## Low bits -/

theorem nextSqn_low {bl ind sqn : Nat} (hbl : bl ≤ 48) (h : ind < 2 ^ bl) :
    nextSqn bl ind sqn % 2 ^ 48 % 2 ^ bl = ind := by
  unfold nextSqn
  have d1 : 2 ^ 48 ∣ 2 ^ 64 := Nat.pow_dvd_pow 2 (by omega)
  have d2 : 2 ^ bl ∣ 2 ^ 48 := Nat.pow_dvd_pow 2 hbl
  rw [Nat.mod_mod_of_dvd _ d1, Nat.mod_mod_of_dvd _ d2, Nat.add_comm, Nat.add_mul_mod_self_right,
    Nat.mod_eq_of_lt h]

theorem genUmts_low {c : Crypto} {a : Aud3} {rand : Bytes} {v : Vec} {a' : Aud3}
    (hx : a.algo ≠ .xor3g) (h : genUmts c a rand = (some v, a')) :
    (∀ x y, v.umts = some (x, y) → x % 2 ^ a.bl = a.ind) := by
  unfold genUmts at h
  rw [if_neg hx] at h
  split at h
  · simp at h
  · rename_i h1
    split at h
    · simp at h
    · rename_i h2
      dsimp only at h
      split at h
      · simp at h
      · simp only [Prod.mk.injEq, Option.some.injEq] at h
        obtain ⟨rfl, _⟩ := h
        intro x y hxy
        simp only [Option.some.injEq, Prod.mk.injEq] at hxy
        rw [← hxy.1]
        have : ¬ 28 < a.bl := h1
        exact nextSqn_low (by omega) (by omega)

theorem oneVec_low {c : Crypto} {g : Option Aud2} {a : Aud3} {rs : Option (Bytes × Bytes)}
    {rand : Bytes} {v : Vec} (hx : a.algo ≠ .xor3g) (h : (oneVec c g (some a) rs rand).1 = some v) :
    ∀ x y, v.umts = some (x, y) → x % 2 ^ a.bl = a.ind := by
  unfold oneVec at h
  dsimp only at h
  have key : ∀ {w : Vec}, (match rs with
      | some (ra, au) => genUmtsAuts c a ra au rand
      | none => genUmts c a rand).1 = some w → ∀ x y, w.umts = some (x, y) → x % 2 ^ a.bl = a.ind := by
    intro w hw
    split at hw
    · unfold genUmtsAuts at hw
      split at hw
      · simp at hw
      · rename_i ms _
        have := genUmts_low (a := { a with sqn := ms % 2 ^ 48 }) (a' := _) hx (Prod.ext hw rfl)
        exact this
    · exact genUmts_low hx (Prod.ext hw rfl)
  split at h
  · simp at h
  · rename_i w hw
    split at h
    · simp only [Option.some.injEq] at h; subst h; exact key hw
    · split at h
      · simp at h
      · simp only [Option.some.injEq] at h
        subst h
        intro x y hxy
        exact key hw x y hxy

theorem vecLoop_low (c : Crypto) (rands : Nat → Option Bytes) (g : Option Aud2)
    (rs : Option (Bytes × Bytes)) : ∀ (n i : Nat) (a : Aud3), a.algo ≠ .xor3g →
    ∀ x ∈ sqnsOf (vecLoop c rands g rs n i (some a)).1, x % 2 ^ a.bl = a.ind
  | 0, i, a, _ => by simp [vecLoop, sqnsOf]
  | n + 1, i, a, hxor => by
    intro x hx
    unfold vecLoop at hx
    split at hx
    · simp [sqnsOf] at hx
    · rename_i r hr
      dsimp only at hx
      have hs := (oneVec_from c g (some a) (if i = 0 then rs else none) r).2.2 a rfl
      obtain ⟨s, hs⟩ := hs
      split at hx
      · simp [sqnsOf] at hx
      · rename_i v hv
        simp only [sqnsOf, List.filterMap_cons] at hx
        have hrec : x ∈ sqnsOf (vecLoop c rands g rs n (i + 1)
            (some { a with sqn := s })).1 → x % 2 ^ a.bl = a.ind :=
          fun h => vecLoop_low c rands g rs n (i + 1) { a with sqn := s } hxor x h
        rw [hs] at hx
        cases hu : v.umts with
        | none => rw [hu] at hx; exact hrec hx
        | some p =>
          rw [hu] at hx
          simp only [Option.map_some, List.mem_cons] at hx
          rcases hx with rfl | hx
          · exact oneVec_low hxor hv p.1 p.2 hu
          · exact hrec hx

/-! ## All vectors are generated when nothing fails -/

theorem vecLoop_full (c : Crypto) (rands : Nat → Option Bytes) (g : Option Aud2)
    (hr : ∀ i, rands i ≠ none) (hg : ∀ al k r, c.gsm al k r ≠ none)
    (hu : ∀ al k o p s q r, c.umts al k o p s q r ≠ none) :
    ∀ (n i : Nat) (u : Option Aud3), (g.isSome ∨ u.isSome) →
    (∀ a, u = some a → a.bl ≤ 28 ∧ a.ind < 2 ^ a.bl) →
    (vecLoop c rands g none n i u).1.length = n
  | 0, i, u, _, _ => rfl
  | n + 1, i, u, h1, h2 => by
    unfold vecLoop
    cases hri : rands i with
    | none => exact absurd hri (hr i)
    | some r =>
      dsimp only
      have hif : (if i = 0 then (none : Option (Bytes × Bytes)) else none) = none := by split <;> rfl
      rw [hif]
      have hone : ∃ v u', oneVec c g u none r = (some v, u') := by
        unfold oneVec
        cases u with
        | none =>
          cases g with
          | none => simp at h1
          | some g =>
            dsimp only
            cases hgg : c.gsm g.algo g.ki r with
            | none => exact absurd hgg (hg _ _ _)
            | some p => exact ⟨_, _, rfl⟩
        | some a =>
          obtain ⟨hb, hi⟩ := h2 a rfl
          have hgen : ∃ v a', genUmts c a r = (some v, a') := by
            unfold genUmts
            split
            · unfold genXor
              cases hc : c.umts a.algo a.k a.opc a.isOp a.sep a.sqn r with
              | none => exact absurd hc (hu _ _ _ _ _ _ _)
              | some p => exact ⟨_, _, rfl⟩
            rw [if_neg (by unfold indBitlenMax; omega), if_neg (by omega)]
            dsimp only
            cases hc : c.umts a.algo a.k a.opc a.isOp a.sep (nextSqn a.bl a.ind a.sqn) r with
            | none => exact absurd hc (hu _ _ _ _ _ _ _)
            | some p => exact ⟨_, _, rfl⟩
          obtain ⟨v, a', hv⟩ := hgen
          dsimp only
          rw [hv]
          dsimp only
          cases g with
          | none => exact ⟨_, _, rfl⟩
          | some g =>
            dsimp only
            cases hgg : c.gsm g.algo g.ki r with
            | none => exact absurd hgg (hg _ _ _)
            | some p => exact ⟨_, _, rfl⟩
      obtain ⟨v, u', hv⟩ := hone
      rw [hv]
      dsimp only
      have hfrom := oneVec_from c g u none r
      dsimp only at hfrom
      rw [hv] at hfrom
      obtain ⟨_, h3, h4⟩ := hfrom
      rw [List.length_cons, vecLoop_full c rands g hr hg hu n (i + 1) u']
      · rcases h1 with h1 | h1
        · exact .inl h1
        · right
          cases u with
          | none => simp at h1
          | some a => obtain ⟨s, hs⟩ := h4 a rfl; simp only at hs; simp [hs]
      · intro a' ha'
        cases u with
        | none => have := h3 rfl; simp only at this; rw [this] at ha'; simp at ha'
        | some a =>
          obtain ⟨s, hs⟩ := h4 a rfl
          simp only at hs
          rw [hs] at ha'
          cases ha'
          exact h2 a rfl

end Verif.Auc
