import Verif.Config.Model
import Verif.Mslookup.MdnsLemmas
/-! # Words, lines and single commands of the configuration -/
namespace Verif.Config
open Verif Verif.Sys Verif.Mslookup Verif.Mslookup.Mdns

theorem Kw.of_text (k : Kw) : Kw.of k.text = some k := by
  cases k <;> decide +kernel

theorem Rej.of_text (r : Rej) : Rej.of r.text = some r := by
  cases r <;> decide +kernel

/-- A word as the command line is made of: not empty, without white space. -/
def GoodWord (w : Bytes) : Prop := w ≠ [] ∧ ∀ c ∈ w, isSpace c = false

instance (w : Bytes) : Decidable (GoodWord w) := inferInstanceAs (Decidable (_ ∧ _))

theorem Kw.good (k : Kw) : GoodWord k.text := by cases k <;> decide +kernel
theorem Rej.good (r : Rej) : GoodWord r.text := by cases r <;> decide +kernel

theorem digit_notSpace {c : UInt8} (h : 48 ≤ c ∧ c ≤ 57) : isSpace c = false := by
  unfold isSpace
  have h1 : c ≠ 32 := by rintro rfl; exact absurd h.1 (by decide)
  have h2 : ¬ c ≤ 13 := by
    intro h3
    exact absurd (UInt8.le_trans h.1 h3) (by decide)
  simp [h1, h2]

theorem dec_good (n : Nat) : GoodWord (dec n) := by
  obtain ⟨-, h2, h3⟩ := decGo_spec 10 n
  exact ⟨h3 (by decide), fun c hc => digit_notSpace (h2 c hc)⟩

theorem rangeVal_dec {lo hi n : Nat} (h1 : lo ≤ n) (h2 : n ≤ hi) (h3 : n < 10 ^ 10) : rangeVal lo hi (dec n) = some n := by
  unfold rangeVal
  rw [if_neg (dec_good n).1, show digitsVal 0 (dec n) = some n from digitsVal_dec h3]
  exact if_pos ⟨h1, h2⟩

theorem rangeVal_bounds {lo hi n : Nat} {w : Bytes} (h : rangeVal lo hi w = some n) : lo ≤ n ∧ n ≤ hi := by
  unfold rangeVal at h
  split at h
  · cases h
  · split at h
    · split at h
      · cases h; assumption
      · cases h
    · cases h

/-! ## Lines -/

theorem splitWords_word {w : Bytes} (h : ∀ c ∈ w, isSpace c = false) (acc rest : Bytes) :
    splitWords acc (w ++ rest) = splitWords (acc ++ w) rest := by
  induction w generalizing acc with
  | nil => simp
  | cons c w ih =>
    rw [List.cons_append, splitWords, h c List.mem_cons_self, if_neg (by decide),
      ih (fun x hx => h x (List.mem_cons_of_mem _ hx))]
    simp

theorem splitWords_line {ws : List Bytes} (h : ∀ w ∈ ws, GoodWord w) : splitWords [] ([32].intercalate ws) = ws := by
  induction ws with
  | nil => rfl
  | cons w ws ih =>
    have hw := h w List.mem_cons_self
    have ih := ih fun x hx => h x (List.mem_cons_of_mem _ hx)
    cases ws with
    | nil =>
      show splitWords [] (w ++ []) = _
      rw [splitWords_word hw.2]
      show (if w = [] then [] else [w]) = _
      rw [if_neg hw.1]
    | cons x ws =>
      have e : ([32] : Bytes).intercalate (w :: x :: ws) = w ++ (32 :: ([32] : Bytes).intercalate (x :: ws)) := by
        simp [List.intercalate, List.intersperse]
      rw [e, splitWords_word hw.2, List.nil_append, splitWords, if_pos (by decide), if_neg hw.1, ih]

/-- A line is read as it was written. -/
theorem tokens_text {l : Line} (h : ∀ w ∈ l.2, GoodWord w) {w : Bytes} {ws : List Bytes} (hl : l.2 = w :: ws)
    (h1 : w.head? ≠ some 33) (h2 : w.head? ≠ some 35) : tokens l.text = l := by
  obtain ⟨k, l2⟩ := l
  dsimp only at hl h
  subst hl
  have hw := h w List.mem_cons_self
  obtain ⟨c, t, rfl⟩ : ∃ c t, w = c :: t := by
    cases w with
    | nil => exact absurd rfl hw.1
    | cons c t => exact ⟨c, t, rfl⟩
  have hc : isSpace c = false := hw.2 c List.mem_cons_self
  have hc32 : (c == 32) = false := by
    rw [beq_eq_false_iff_ne]; rintro rfl; exact absurd hc (by decide)
  have hi : ∃ r, ([32] : Bytes).intercalate ((c :: t) :: ws) = c :: r := by
    cases ws <;> exact ⟨_, rfl⟩
  obtain ⟨r, hr⟩ := hi
  have hd : (Line.text (k, (c :: t) :: ws)).dropWhile (· == 32) = ([32] : Bytes).intercalate ((c :: t) :: ws) := by
    unfold Line.text
    dsimp only
    rw [hr]
    induction k with
    | zero => simp [hc32]
    | succ k ih => simpa [List.replicate_succ] using ih
  have hlen : (Line.text (k, (c :: t) :: ws)).length - (([32] : Bytes).intercalate ((c :: t) :: ws)).length = k := by
    unfold Line.text
    simp
  have hs := splitWords_line h
  unfold tokens
  dsimp only
  rw [hd, hlen, hr]
  have n1 : c ≠ 33 := fun e => h1 (by rw [e]; rfl)
  have n2 : c ≠ 35 := fun e => h2 (by rw [e]; rfl)
  congr 1
  split
  · rename_i heq; cases heq; exact absurd rfl n1
  · rename_i heq; cases heq; exact absurd rfl n2
  · rw [← hr]; exact hs

theorem Kw.head (k : Kw) : k.text.head? ≠ some 33 ∧ k.text.head? ≠ some 35 := by cases k <;> decide +kernel

theorem tokens_kw {i : Nat} {k : Kw} {ws : List Bytes} (h : ∀ w ∈ ws, GoodWord w) :
    tokens (Line.text (i, k.text :: ws)) = (i, k.text :: ws) := by
  refine tokens_text (l := (i, k.text :: ws)) ?_ rfl k.head.1 k.head.2
  intro w hw
  rcases List.mem_cons.1 hw with rfl | hw
  · exact k.good
  · exact h w hw

/-! ## APNs -/

/-- The labels of an APN are not empty. -/
def goodApn (acc : Bytes) : Bytes → Bool
  | [] => !acc.isEmpty
  | c :: s => if c = 46 then !acc.isEmpty && goodApn [] s else goodApn (acc ++ [c]) s

theorem u8len {n : Nat} (h : n < 256) : n.toUInt8.toNat = n := by
  rw [toNat_toUInt8]; omega

theorem apnEncGo_ne (acc s : Bytes) : apnEncGo acc s ≠ [] := by
  induction s generalizing acc with
  | nil => simp [apnEncGo]
  | cons c s ih =>
    unfold apnEncGo
    split
    · simp
    · exact ih _

theorem apnEncGo_length (acc s : Bytes) : (apnEncGo acc s).length = acc.length + s.length + 1 := by
  induction s generalizing acc with
  | nil => simp [apnEncGo]
  | cons c s ih =>
    unfold apnEncGo
    split
    · simp [ih]; try omega
    · rw [ih]; simp; omega

theorem apnDec_encGo (s : Bytes) : ∀ (acc : Bytes) (f : Nat), goodApn acc s = true → acc.length + s.length < 256 →
    acc.length + s.length + 1 ≤ f → apnDec f (apnEncGo acc s) = some (acc ++ s) := by
  induction s with
  | nil =>
    intro acc f hg hl hf
    obtain ⟨f, rfl⟩ : ∃ g, f = g + 1 := ⟨f - 1, by omega⟩
    have ha : acc ≠ [] := by
      intro e; rw [e] at hg; exact absurd hg (by decide)
    have hp : 0 < acc.length := List.length_pos_iff.2 ha
    have hu := u8len (n := acc.length) (by omega)
    rw [apnEncGo, apnDec, if_neg, hu, if_neg (Nat.lt_irrefl _), List.drop_length, List.take_length]
    · show Option.map _ (apnDec f []) = _
      cases f <;> simp [apnDec]
    · intro e
      rw [e] at hu
      have : (0 : UInt8).toNat = 0 := rfl
      omega
  | cons c s ih =>
    intro acc f hg hl hf
    rw [List.length_cons] at hl hf
    by_cases hc : c = 46
    · subst hc
      rw [goodApn, if_pos rfl, Bool.and_eq_true] at hg
      obtain ⟨f, rfl⟩ : ∃ g, f = g + 1 := ⟨f - 1, by omega⟩
      have ha : acc ≠ [] := by
        intro e; rw [e] at hg; exact absurd hg.1 (by decide)
      have hp : 0 < acc.length := List.length_pos_iff.2 ha
      have hu := u8len (n := acc.length) (by omega)
      have hlen : (apnEncGo [] s).length = s.length + 1 := by simp [apnEncGo_length]
      rw [apnEncGo, if_pos rfl, apnDec, if_neg, hu, if_neg, List.drop_left, List.take_left,
        ih [] f hg.2 (by simp; omega) (by simp; omega)]
      · rw [List.length_append, hlen]
        simp
      · rw [List.length_append]; omega
      · intro e
        rw [e] at hu
        have : (0 : UInt8).toNat = 0 := rfl
        omega
    · rw [goodApn, if_neg hc] at hg
      rw [apnEncGo, if_neg hc, ih _ f hg (by simp; omega) (by simp; omega)]
      simp

/-- An APN with non-empty labels is printed as it was configured. -/
theorem apnText_enc {a : Bytes} (h : goodApn [] a = true) (hl : a.length ≤ 99) : apnText (apnEnc a) = a := by
  unfold apnText apnEnc
  rw [apnDec_encGo a [] _ h (by simp; omega) (by rw [apnEncGo_length]; simp)]
  rfl

end Verif.Config
