import Verif.Auc.Model
import Verif.Db.Hoare
/-! # Helper lemmas about vector generation -/
namespace Verif.Auc
open Verif Verif.Db

theorem nextSqn_eq {bl ind sqn : Nat} (hind : ind < 2 ^ bl)
    (hb : (sqn / 2 ^ bl + 2) * 2 ^ bl ≤ 2 ^ 64) :
    nextSqn bl ind sqn = (sqn / 2 ^ bl + 1) * 2 ^ bl + ind := by
  have hp : 0 < 2 ^ bl := Nat.two_pow_pos bl
  generalize hP : 2 ^ bl = P at *
  have h1 : sqn < (sqn / P + 1) * P := by
    have := Nat.lt_div_mul_add (a := sqn) hp
    rw [Nat.add_mul, Nat.one_mul]; exact this
  have e2 : (sqn / P + 2) * P = (sqn / P + 1) * P + P := by
    rw [Nat.add_mul, Nat.add_mul]; omega
  have hlt : sqn + P < 2 ^ 64 := by omega
  unfold nextSqn
  rw [hP, Nat.mod_eq_of_lt hlt, Nat.add_div_right _ hp]
  exact Nat.mod_eq_of_lt (by omega)

/-- The sequence number visible in a vector. -/
def Vec.sqn? (v : Vec) : Option Nat := v.umts.map (·.1)

/-- Shape of a successful UMTS generation. -/
theorem genUmts_ok {c : Crypto} {a : Aud3} {rand : Bytes} {v : Vec} {a' : Aud3}
    (hx : a.algo ≠ .xor3g) (hb : (a.sqn / 2 ^ a.bl + 2) * 2 ^ a.bl ≤ 2 ^ 48) (h : genUmts c a rand = (some v, a')) :
    a' = { a with sqn := (a.sqn / 2 ^ a.bl + 1) * 2 ^ a.bl + a.ind } ∧ a.ind < 2 ^ a.bl
    ∧ v.sqn? = some ((a.sqn / 2 ^ a.bl + 1) * 2 ^ a.bl + a.ind) := by
  unfold genUmts at h
  rw [if_neg hx] at h
  split at h
  · simp at h
  split at h
  · simp at h
  rename_i hbl hind
  have hind : a.ind < 2 ^ a.bl := by omega
  have hs := nextSqn_eq (sqn := a.sqn) hind (Nat.le_trans hb (by decide))
  have hlt : (a.sqn / 2 ^ a.bl + 1) * 2 ^ a.bl + a.ind < 2 ^ 48 := by
    have e2 : (a.sqn / 2 ^ a.bl + 2) * 2 ^ a.bl = (a.sqn / 2 ^ a.bl + 1) * 2 ^ a.bl + 2 ^ a.bl := by
      rw [Nat.add_mul, Nat.add_mul]; omega
    omega
  dsimp only at h
  split at h
  · simp at h
  · rename_i u kc sres hc
    simp only [Prod.mk.injEq, Option.some.injEq] at h
    obtain ⟨h1, h2⟩ := h
    rw [← h1, ← h2, hs]
    refine ⟨rfl, hind, ?_⟩
    simp only [Vec.sqn?, Option.map_some, Option.some.injEq]
    exact Nat.mod_eq_of_lt hlt

/-- XOR-3G: the sequence number is shown and stays. -/
theorem genXor_ok {c : Crypto} {a : Aud3} {rand : Bytes} {v : Vec} {a' : Aud3}
    (h : genXor c a rand = (some v, a')) :
    a' = a ∧ v.sqn? = some (a.sqn % 2 ^ 48) ∧ v.rand = rand
    ∧ ∃ x, v.umts = some (a.sqn % 2 ^ 48, x)
      ∧ c.umts a.algo a.k a.opc a.isOp a.sep a.sqn rand = some (x, v.kc, v.sres) := by
  unfold genXor at h
  split at h
  · simp at h
  · rename_i u kc sres hc
    simp only [Prod.mk.injEq, Option.some.injEq] at h
    obtain ⟨rfl, rfl⟩ := h
    exact ⟨rfl, rfl, rfl, u, rfl, hc⟩

theorem genXor_snd (c : Crypto) (a : Aud3) (rand : Bytes) : (genXor c a rand).2 = a := by
  unfold genXor
  split <;> rfl

theorem genUmts_xor {c : Crypto} {a : Aud3} {rand : Bytes} (hx : a.algo = .xor3g) :
    genUmts c a rand = genXor c a rand := by
  unfold genUmts; rw [if_pos hx]

theorem genUmts_fail {c : Crypto} {a : Aud3} {rand : Bytes} {a' : Aud3}
    (h : genUmts c a rand = (none, a')) : a' = a := by
  unfold genUmts at h
  split at h
  · have := genXor_snd c a rand; rw [h] at this; exact this
  split at h
  · simp only [Prod.mk.injEq, true_and] at h; exact h.symm
  split at h
  · simp only [Prod.mk.injEq, true_and] at h; exact h.symm
  dsimp only at h
  split at h
  · simp only [Prod.mk.injEq, true_and] at h; exact h.symm
  · simp at h

/-- One turn without AUTS, with 3G keys. -/
theorem oneVec_3g (c : Crypto) (aud2 : Option Aud2) (a : Aud3) (rand : Bytes)
    (hx : a.algo ≠ .xor3g) (hb : (a.sqn / 2 ^ a.bl + 2) * 2 ^ a.bl ≤ 2 ^ 48) :
    let x := oneVec c aud2 (some a) none rand
    let s := (a.sqn / 2 ^ a.bl + 1) * 2 ^ a.bl + a.ind
    (∃ v, x = (some v, some { a with sqn := s }) ∧ a.ind < 2 ^ a.bl ∧ v.sqn? = some s)
    ∨ x = (none, some a)
    ∨ (x = (none, some { a with sqn := s }) ∧ a.ind < 2 ^ a.bl) := by
  intro x s
  simp only [x, oneVec]
  rcases hg : genUmts c a rand with ⟨_ | v, a'⟩
  · right; left
    rw [genUmts_fail hg]
  · obtain ⟨h1, h2, h3⟩ := genUmts_ok hx hb hg
    cases aud2 with
    | none => left; exact ⟨v, by simp only [h1]; rfl, h2, h3⟩
    | some g =>
      dsimp only
      cases c.gsm g.algo g.ki rand with
      | none => right; right; exact ⟨by simp only [h1]; rfl, h2⟩
      | some p => left; exact ⟨{ v with kc := p.1, sres := p.2 }, by simp only [h1]; rfl, h2, h3⟩

/-- The whole loop without AUTS, with 3G keys: vector `k` has sequence number
`(q + 1 + k) * 2^bl + ind` where `q` is the stored SEQ; the number left behind is
that of the last 3G vector computed. -/
theorem vecLoop_3g (c : Crypto) (rands : Nat → Option Bytes) (aud2 : Option Aud2)
    (resync : Option (Bytes × Bytes)) (n i : Nat) (a : Aud3) (hi : resync = none ∨ i ≠ 0)
    (hxor : a.algo ≠ .xor3g) (hb : (a.sqn / 2 ^ a.bl + n + 1) * 2 ^ a.bl ≤ 2 ^ 48) :
    let r := vecLoop c rands aud2 resync n i (some a)
    let sq := fun k => (a.sqn / 2 ^ a.bl + k) * 2 ^ a.bl + a.ind
    r.1.map Vec.sqn? = (List.range r.1.length).map (fun k => some (sq (1 + k)))
    ∧ (0 < r.1.length → a.ind < 2 ^ a.bl)
    ∧ ∃ m, r.1.length ≤ m ∧ m ≤ n ∧ m ≤ r.1.length + 1 ∧ (r.1.length = n → m = n)
      ∧ (0 < m → a.ind < 2 ^ a.bl)
      ∧ r.2 = some (if m = 0 then a else { a with sqn := sq m }) := by
  induction n generalizing i a with
  | zero => exact ⟨rfl, by simp [vecLoop], 0, by simp [vecLoop]⟩
  | succ n ih =>
    intro r sq
    have hpos : 0 < 2 ^ a.bl := Nat.two_pow_pos _
    have hb2 : (a.sqn / 2 ^ a.bl + 2) * 2 ^ a.bl ≤ 2 ^ 48 :=
      Nat.le_trans (Nat.mul_le_mul_right _ (by omega)) hb
    have hr : r = vecLoop c rands aud2 resync (n + 1) i (some a) := rfl
    unfold vecLoop at hr
    cases hrand : rands i with
    | none =>
      simp only [hrand] at hr
      rw [hr]
      exact ⟨rfl, by simp, 0, by simp⟩
    | some x =>
      have hres : (if i = 0 then resync else none) = none := by
        rcases hi with h | h
        · simp [h]
        · simp [h]
      simp only [hrand, hres] at hr
      rcases oneVec_3g c aud2 a x hxor hb2 with ⟨v, he, hind, hv⟩ | he | ⟨he, hind⟩
      · rw [he] at hr
        simp only at hr
        have hq : (((a.sqn / 2 ^ a.bl + 1) * 2 ^ a.bl + a.ind) / 2 ^ a.bl) = a.sqn / 2 ^ a.bl + 1 := by
          rw [Nat.mul_comm, Nat.mul_add_div hpos, Nat.div_eq_of_lt hind]
        have ih' := ih (i + 1) { a with sqn := (a.sqn / 2 ^ a.bl + 1) * 2 ^ a.bl + a.ind }
          (.inr (by omega)) hxor (by
            simp only [hq]
            exact Nat.le_trans (Nat.mul_le_mul_right _ (by omega)) hb)
        simp only [hq] at ih'
        generalize hy : vecLoop c rands aud2 resync n (i + 1)
          (some { a with sqn := (a.sqn / 2 ^ a.bl + 1) * 2 ^ a.bl + a.ind }) = y at hr ih'
        obtain ⟨h1, h2, m, h3, h4, h5, h6, h7, h8⟩ := ih'
        rw [hr]
        refine ⟨?_, fun _ => hind, m + 1, ?_, ?_, ?_, ?_, fun _ => hind, ?_⟩
        · simp only [List.map_cons, List.length_cons, hv, h1]
          rw [List.range_succ_eq_map, List.map_cons, List.map_map]
          congr 1
          apply List.map_congr_left
          intro k _
          simp only [Function.comp, sq]
          congr 3
          omega
        · simp only [List.length_cons]; omega
        · omega
        · simp only [List.length_cons]; omega
        · simp only [List.length_cons]; omega
        · rw [h8]
          congr 1
          simp only [sq]
          by_cases hm : m = 0
          · subst hm; simp
          · simp only [hm, if_false, Nat.add_eq_zero_iff, Nat.one_ne_zero, and_false]
            congr 3
            omega
      · rw [he] at hr
        simp only at hr
        rw [hr]
        exact ⟨rfl, by simp, 0, by simp⟩
      · rw [he] at hr
        simp only at hr
        rw [hr]
        exact ⟨rfl, by simp, 1, by simp, by omega, by simp, by simp, fun _ => hind, by simp [sq]⟩

end Verif.Auc
