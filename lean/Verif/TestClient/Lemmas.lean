import Verif.TestClient.Spec
/-! # Proofs about gsup_test_client -/
namespace Verif.TestClient
open Verif Verif.Gsup

/-! ## The IMSIs are different -/

/-- The number a string of digits stands for. -/
def value (d : Bytes) : Nat := d.foldl (fun n c => n * 10 + (c.toNat - 48)) 0

theorem value_digits (k : Nat) : ∀ n, n < 10 ^ k → value (digits k n) = n := by
  induction k with
  | zero => intro n h; simp at h; subst h; rfl
  | succ k ih =>
    intro n h
    have h1 : n / 10 < 10 ^ k := by
      apply Nat.div_lt_of_lt_mul; rw [Nat.pow_succ] at h; omega
    unfold digits value
    rw [List.foldl_append]
    have := ih _ h1
    unfold value at this
    rw [this]
    simp only [List.foldl_cons, List.foldl_nil]
    have h2 : ((48 + n % 10).toUInt8).toNat = 48 + n % 10 := by
      simp only [Nat.toUInt8_eq, UInt8.toNat_ofNat']; omega
    rw [h2]; omega

theorem digits_length (k : Nat) : ∀ n, (digits k n).length = k := by
  induction k with
  | zero => intro n; rfl
  | succ k ih => intro n; unfold digits; rw [List.length_append, ih]; rfl

theorem imsiOf_inj {i j : Nat} (hi : i < 10000) (hj : j < 10000) (h : imsiOf i = imsiOf j) : i = j := by
  have h1 := value_digits 15 (901790000000000 + i) (by omega)
  have h2 := value_digits 15 (901790000000000 + j) (by omega)
  unfold imsiOf at h
  rw [h] at h1
  omega

theorem strlcpy_short {x : Bytes} (h : x.length ≤ 16) : strlcpy 17 x = x := by
  unfold strlcpy; exact List.take_of_length_le h

theorem imsiOf_short (i : Nat) : (imsiOf i).length ≤ 16 := by unfold imsiOf; rw [digits_length]; decide

theorem imsiOf_ne (i : Nat) : imsiOf i ≠ [] := by
  intro h
  have : (imsiOf i).length = 15 := digits_length 15 _
  rw [h] at this; cases this

/-! ## The specification, one event later -/

theorem loops_snoc (l : List Ev) (e : Ev) : (l ++ [e]).countP Ev.isLoop = l.countP Ev.isLoop + if e.isLoop then 1 else 0 := by
  rw [List.countP_append]; simp [List.countP_cons]

theorem afterAsk_snoc (l : List Ev) (e : Ev) : ∀ i, afterAsk i (l ++ [e]) = if i < l.countP Ev.isLoop then afterAsk i l ++ [e] else [] := by
  induction l with
  | nil => intro i; cases e <;> cases i <;> simp [afterAsk]
  | cons a l ih =>
    intro i
    cases a with
    | loop L =>
      cases i with
      | zero => simp [afterAsk, List.countP_cons, Ev.isLoop]
      | succ i => simp only [List.cons_append, afterAsk, ih i, List.countP_cons, Ev.isLoop, if_true]; congr 1; simp
    | rx L m => cases i <;> simp only [List.cons_append, afterAsk, ih, List.countP_cons, Ev.isLoop] <;> congr 1
    | expire k => cases i <;> simp only [List.cons_append, afterAsk, ih, List.countP_cons, Ev.isLoop] <;> congr 1

theorem afterAsk_none (l : List Ev) : ∀ i, ¬ i < l.countP Ev.isLoop → afterAsk i l = [] := by
  induction l with
  | nil => intro i _; cases i <;> rfl
  | cons a l ih =>
    intro i h
    cases a with
    | loop L =>
      cases i with
      | zero => simp [List.countP_cons, Ev.isLoop] at h
      | succ i => rw [afterAsk]; apply ih; simp [List.countP_cons, Ev.isLoop] at h; omega
    | rx L m => cases i <;> rw [afterAsk] <;> apply ih <;> simpa [List.countP_cons, Ev.isLoop] using h
    | expire k => cases i <;> rw [afterAsk] <;> apply ih <;> simpa [List.countP_cons, Ev.isLoop] using h

theorem saiAnswer_snoc (l : List Ev) (e : Ev) (i : Nat) (h : i < l.countP Ev.isLoop) :
    saiAnswer (l ++ [e]) i = (saiAnswer l i).or (ans SEND_AUTH_INFO i e) := by
  unfold saiAnswer
  rw [afterAsk_snoc, if_pos h, List.findSome?_append]
  congr 1
  simp only [List.findSome?_cons, List.findSome?_nil]
  cases ans SEND_AUTH_INFO i e <;> rfl

theorem saiAnswer_new (l : List Ev) (e : Ev) (i : Nat) (h : ¬ i < l.countP Ev.isLoop) :
    saiAnswer (l ++ [e]) i = none := by
  unfold saiAnswer; rw [afterAsk_snoc, if_neg h]; rfl

theorem luAnswer_new (l : List Ev) (e : Ev) (i : Nat) (h : ¬ i < l.countP Ev.isLoop) :
    luAnswer (l ++ [e]) i = none := by
  unfold luAnswer; rw [afterAsk_snoc, if_neg h]; rfl

theorem dropThrough_snoc (p : Ev → Bool) (e : Ev) : ∀ l : List Ev,
    dropThrough p (l ++ [e]) = if l.any p then dropThrough p l ++ [e] else [] := by
  intro l
  induction l with
  | nil => simp [dropThrough]
  | cons a l ih =>
    simp only [List.cons_append, dropThrough, List.any_cons, ih]
    by_cases h : p a = true <;> simp [h]

theorem dropThrough_none (p : Ev → Bool) : ∀ l : List Ev, l.any p = false → dropThrough p l = [] := by
  intro l
  induction l with
  | nil => intro _; rfl
  | cons a l ih => intro h; simp only [List.any_cons, Bool.or_eq_false_iff] at h; simp only [dropThrough, h.1, Bool.false_eq_true, if_false]; exact ih h.2

theorem any_isSome (f : Ev → Option Nat) : ∀ l : List Ev, l.any (fun e => (f e).isSome) = (l.findSome? f).isSome := by
  intro l
  induction l with
  | nil => rfl
  | cons a l ih => simp only [List.any_cons, List.findSome?_cons, ih]; cases f a <;> simp

theorem luAnswer_none (l : List Ev) (i : Nat) (h : saiAnswer l i = none) : luAnswer l i = none := by
  unfold luAnswer
  rw [dropThrough_none]
  · rfl
  · rw [any_isSome]; unfold saiAnswer at h; rw [h]; rfl

theorem luAnswer_snoc (l : List Ev) (e : Ev) (i : Nat) (h : i < l.countP Ev.isLoop) :
    luAnswer (l ++ [e]) i = if (saiAnswer l i).isSome then (luAnswer l i).or (ans UPDATE_LOCATION i e) else none := by
  unfold luAnswer
  rw [afterAsk_snoc, if_pos h, dropThrough_snoc, any_isSome]
  show List.findSome? _ (if (saiAnswer l i).isSome then _ else _) = _
  split
  · rw [List.findSome?_append]; congr 1
    simp only [List.findSome?_cons, List.findSome?_nil]
    cases ans UPDATE_LOCATION i e <;> rfl
  · rfl

theorem asked_le (l : List Ev) : asked l ≤ l.countP Ev.isLoop := Nat.min_le_right ..
theorem asked_le' (l : List Ev) : asked l ≤ 10000 := Nat.min_le_left ..

/-! ## Counting -/

theorem countP_congr' {p q : Nat → Bool} : ∀ {l : List Nat}, (∀ i ∈ l, p i = q i) → l.countP p = l.countP q := by
  intro l
  induction l with
  | nil => intro _; rfl
  | cons a l ih =>
    intro h
    rw [List.countP_cons, List.countP_cons, ih (fun i hi => h i (List.mem_cons_of_mem _ hi)), h a List.mem_cons_self]

/-- One more is counted. -/
theorem countP_one {p q : Nat → Bool} (j : Nat) : ∀ n, j < n → (∀ i, i < n → i ≠ j → q i = p i) → p j = false → q j = true →
    (List.range n).countP q = (List.range n).countP p + 1 := by
  intro n
  induction n with
  | zero => intro h; omega
  | succ n ih =>
    intro h hpq hp hq
    rw [List.range_succ, List.countP_append, List.countP_append]
    by_cases hj : j = n
    · subst hj
      rw [countP_congr' (q := p) (fun i hi => hpq i (by have := List.mem_range.1 hi; omega) (by have := List.mem_range.1 hi; omega))]
      simp [List.countP_cons, hp, hq]
    · rw [ih (by omega) (fun i hi => hpq i (by omega)) hp hq]
      have : q n = p n := hpq n (by omega) (fun h => hj h.symm)
      simp only [List.countP_cons, List.countP_nil, this]; omega

/-- How many changes by one. -/
theorem howMany_one {l l' : List Ev} {p q : Nat → Bool} (j : Nat) (hl : asked l' = asked l) (hj : j < asked l)
    (h : ∀ i, i < asked l → i ≠ j → q i = p i) (hp : p j = false) (hq : q j = true) :
    howMany l' q = howMany l p + 1 := by
  unfold howMany; rw [hl]; exact countP_one j _ hj h hp hq

theorem howMany_same {l l' : List Ev} {p q : Nat → Bool} (hl : asked l' = asked l) (h : ∀ i, i < asked l → q i = p i) :
    howMany l' q = howMany l p := by
  unfold howMany; rw [hl]; exact countP_congr' (fun i hi => h i (List.mem_range.1 hi))

theorem howMany_new {l l' : List Ev} {p q : Nat → Bool} (hl : asked l' = asked l + 1) (h : ∀ i, i < asked l → q i = p i)
    (hn : q (asked l) = false) : howMany l' q = howMany l p := by
  unfold howMany
  rw [hl, List.range_succ, List.countP_append, countP_congr' (q := p) (fun i hi => h i (List.mem_range.1 hi))]
  simp [List.countP_cons, hn]

end Verif.TestClient
