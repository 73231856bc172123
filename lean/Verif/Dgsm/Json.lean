import Verif.Tool.FormatSpec
/-!
# Reading JSON: `json.loads()` of Python's standard library, as the scripts in `contrib/dgsm` use it

Proved here: it reads every text of the grammar `Verif.Tool.Spec.Text`.
-/
namespace Verif.Dgsm
open Verif Verif.Tool Verif.Tool.Spec

/-- White space of JSON (`json.loads()`, freeswitch_dialplan_dgsm.py 26, esme_dgsm.py 63). -/
def isBlank (c : UInt8) : Bool := c == 32 || c == 9 || c == 10 || c == 13

/-- White space is skipped between the parts of a text (`json.loads()`). -/
def skip (s : Bytes) : Bytes := s.dropWhile isBlank

/-- A character that stands for itself in a string (`json.loads()`; the output is ASCII). -/
def isPlain (c : UInt8) : Bool := decide (32 ≤ c) && decide (c ≤ 126) && c != 34 && c != 92

/-- A decimal digit (`json.loads()`). -/
def isDigit (c : UInt8) : Bool := decide (48 ≤ c) && decide (c ≤ 57)

/-- A string, after its first quote, and what follows (`json.loads()`, freeswitch_dialplan_dgsm.py 26,
esme_dgsm.py 63).  Simplified: a string with escapes in it is an error. -/
def readStr (s : Bytes) : Option (Bytes × Bytes) :=
  match splitFirst 34 s with
  | some (a, r) => if a.all isPlain then some (a, r) else none
  | none => none

/-- A number, and what follows (`json.loads()`).  Simplified: a sign, a fraction or an exponent is an error. -/
def readNum (s : Bytes) : Option (Json × Bytes) :=
  let ds := s.takeWhile isDigit
  let r := s.dropWhile isDigit
  if ds.isEmpty || (ds.head? == some 48 && ds != [48]) then none
  else if r.head? == some 46 || r.head? == some 101 || r.head? == some 69 then none
  else some (.num (value ds), r)

/-- What follows the text `p`, which must come first (`json.loads()`). -/
def after (p s : Bytes) : Option Bytes := if p.isPrefixOf s then some (s.drop p.length) else none

mutual
/-- A value, and what follows (`json.loads()`); `n` bounds the depth of the recursion.  Simplified: `null`
is an error. -/
def readVal : Nat → Bytes → Option (Json × Bytes)
  | 0, _ => none
  | n + 1, s =>
    let s := skip s
    match s with
    | [] => none
    | c :: r =>
      if c = 34 then (readStr r).map (fun p => (.str p.1, p.2))
      else if c = 91 then (if (skip r).head? = some 93 then some (.arr [], (skip r).drop 1) else (readItems n r).map (fun p => (.arr p.1, p.2)))
      else if c = 123 then (if (skip r).head? = some 125 then some (.obj [], (skip r).drop 1) else (readMembers n r).map (fun p => (.obj p.1, p.2)))
      else if c = 116 then (after (b "true") s).map (fun r => (.bool true, r))
      else if c = 102 then (after (b "false") s).map (fun r => (.bool false, r))
      else readNum s
/-- The rest of an array (`json.loads()`). -/
def readItems : Nat → Bytes → Option (List Json × Bytes)
  | 0, _ => none
  | n + 1, s => match readVal n s with
    | none => none
    | some (j, r) => match skip r with
      | [] => none
      | c :: r => if c = 93 then some ([j], r) else if c = 44 then (readItems n r).map (fun p => (j :: p.1, p.2)) else none
/-- The rest of an object (`json.loads()`). -/
def readMembers : Nat → Bytes → Option (List (Bytes × Json) × Bytes)
  | 0, _ => none
  | n + 1, s => match skip s with
    | [] => none
    | c :: r => if c ≠ 34 then none else match readStr r with
      | none => none
      | some (k, r) => match skip r with
        | [] => none
        | c :: r => if c ≠ 58 then none else match readVal n r with
          | none => none
          | some (j, r) => match skip r with
            | [] => none
            | c :: r => if c = 125 then some ([(k, j)], r) else if c = 44 then (readMembers n r).map (fun p => ((k, j) :: p.1, p.2)) else none
end

/-- `json.loads()` (freeswitch_dialplan_dgsm.py 26, esme_dgsm.py 63); `none` for an exception. -/
def loads (s : Bytes) : Option Json :=
  match readVal (s.length + 1) s with
  | some (j, r) => if (skip r).isEmpty then some j else none
  | none => none

/-! ## It reads what it should -/

/-- What may follow a value. -/
def Stop (r : Bytes) : Prop := ∀ c, r.head? = some c → c = 44 ∨ c = 93 ∨ c = 125 ∨ isBlank c = true

theorem skip_blank {w : Bytes} (h : Blank w) (s : Bytes) : skip (w ++ s) = skip s := by
  induction w with
  | nil => rfl
  | cons c w ih =>
    have hc : isBlank c = true := by
      rcases h c (by simp) with e | e | e | e <;> rw [e] <;> rfl
    show (c :: (w ++ s)).dropWhile isBlank = _
    rw [List.dropWhile_cons_of_pos hc]
    exact ih (fun x hx => h x (by simp [hx]))

theorem skip_cons {c : UInt8} (h : isBlank c = false) (s : Bytes) : skip (c :: s) = c :: s := by
  show (c :: s).dropWhile isBlank = _
  rw [List.dropWhile_cons_of_neg (by rw [h]; exact Bool.false_ne_true)]

theorem plain_all {s : Bytes} (h : Plain s) : s.all isPlain = true := by
  rw [List.all_eq_true]
  intro c hc
  obtain ⟨h1, h2, h3, h4⟩ := h c hc
  simp [isPlain, h1, h2, h3, h4]

theorem splitFirst_at {x : UInt8} {s : Bytes} (h : x ∉ s) (r : Bytes) : splitFirst x (s ++ x :: r) = some (s, r) := by
  induction s with
  | nil => simp [splitFirst]
  | cons c s ih =>
    rw [List.cons_append, splitFirst, if_neg (fun e => h (by simp [e])), ih (fun hm => h (by simp [hm]))]
    rfl

theorem readStr_plain {s : Bytes} (h : Plain s) (r : Bytes) : readStr (s ++ 34 :: r) = some (s, r) := by
  unfold readStr
  rw [splitFirst_at (fun hm => (h 34 hm).2.2.1 rfl)]
  dsimp only
  rw [plain_all h, if_pos rfl]

theorem digits_take {ds r : Bytes} (h : ∀ c ∈ ds, 48 ≤ c ∧ c ≤ 57) (hr : ∀ c, r.head? = some c → isDigit c = false) :
    (ds ++ r).takeWhile isDigit = ds ∧ (ds ++ r).dropWhile isDigit = r := by
  induction ds with
  | nil =>
    cases r with
    | nil => exact ⟨rfl, rfl⟩
    | cons c r => simp [hr c rfl]
  | cons c ds ih =>
    have hc : isDigit c = true := by obtain ⟨h1, h2⟩ := h c (by simp); simp [isDigit, h1, h2]
    obtain ⟨i1, i2⟩ := ih (fun x hx => h x (by simp [hx]))
    rw [List.cons_append, List.takeWhile_cons_of_pos hc, List.dropWhile_cons_of_pos hc, i1, i2]
    exact ⟨rfl, rfl⟩

theorem Stop.cases {r : Bytes} (h : Stop r) {c : UInt8} (hc : r.head? = some c) : isDigit c = false ∧ c ≠ 46 ∧ c ≠ 101 ∧ c ≠ 69 := by
  have key : ∀ x : UInt8, x ∈ [(44 : UInt8), 93, 125, 32, 9, 10, 13] → isDigit x = false ∧ x ≠ 46 ∧ x ≠ 101 ∧ x ≠ 69 := by decide +kernel
  refine key c ?_
  rcases h c hc with e | e | e | e
  · simp [e]
  · simp [e]
  · simp [e]
  · simp [isBlank] at e
    simp
    rcases e with ((e | e) | e) | e <;> simp [e]

theorem readNum_decimal {ds r : Bytes} {n : Nat} (h : Decimal ds n) (hr : Stop r) : readNum (ds ++ r) = some (.num n, r) := by
  obtain ⟨h0, h1, h2, h3⟩ := h
  obtain ⟨e1, e2⟩ := digits_take h1 (fun c hc => (hr.cases hc).1)
  unfold readNum
  dsimp only
  rw [e1, e2, if_neg, if_neg, h3]
  · intro hc
    cases hh : r.head? with
    | none => rw [hh] at hc; simp at hc
    | some c => rw [hh] at hc; obtain ⟨-, a1, a2, a3⟩ := hr.cases hh; simp [a1, a2, a3] at hc
  · intro hc
    simp only [Bool.or_eq_true, Bool.and_eq_true, beq_iff_eq, bne_iff_ne, List.isEmpty_iff] at hc
    rcases hc with hc | ⟨hc1, hc2⟩
    · exact h0 hc
    · exact hc2 (h2 hc1)

theorem text_head {j : Json} {s : Bytes} (h : Text j s) : ∃ c t, s = c :: t ∧ isBlank c = false ∧ c ≠ 93 ∧ c ≠ 125 := by
  cases h with
  | str s _ => exact ⟨34, _, rfl, by decide +kernel, by decide, by decide⟩
  | num n ds h =>
    obtain ⟨h0, h1, -, -⟩ := h
    cases s with
    | nil => exact absurd rfl h0
    | cons c t =>
      refine ⟨c, t, rfl, ?_⟩
      have := h1 c (by simp)
      have key : ∀ x : UInt8, 48 ≤ x ∧ x ≤ 57 → isBlank x = false ∧ x ≠ 93 ∧ x ≠ 125 := by
        intro x hx
        have hx1 : 48 ≤ x.toNat := hx.1
        have hx2 : x.toNat ≤ 57 := hx.2
        have ne : ∀ y : UInt8, y.toNat < 48 ∨ 57 < y.toNat → x ≠ y := by intro y hy e; subst e; omega
        refine ⟨?_, ne 93 (by decide), ne 125 (by decide)⟩
        simp [isBlank, ne 32 (by decide), ne 9 (by decide), ne 10 (by decide), ne 13 (by decide)]
      exact key c this
  | true => exact ⟨116, b "rue", by decide +kernel, by decide +kernel, by decide, by decide⟩
  | false => exact ⟨102, b "alse", by decide +kernel, by decide +kernel, by decide, by decide⟩
  | arr l s _ => exact ⟨91, _, rfl, by decide +kernel, by decide, by decide⟩
  | obj l s _ => exact ⟨123, _, rfl, by decide +kernel, by decide, by decide⟩

theorem items_head {l : List Json} {s : Bytes} (h : Items l s) : ∃ c t, s = c :: t ∧ isBlank c = false ∧ c ≠ 93 ∧ c ≠ 125 := by
  cases h with
  | one j s h => exact text_head h
  | more j l s w t h _ _ => obtain ⟨c, u, e, h1⟩ := text_head h; exact ⟨c, _, by rw [e]; rfl, h1⟩

theorem members_head {l : List (Bytes × Json)} {s : Bytes} (h : Members l s) : ∃ t, s = 34 :: t := by
  cases h with
  | one => exact ⟨_, rfl⟩
  | more => exact ⟨_, rfl⟩

theorem after_prefix (p r : Bytes) : after p (p ++ r) = some r := by
  unfold after
  rw [if_pos (List.isPrefixOf_iff_prefix.2 (List.prefix_append p r)), List.drop_left]

theorem Stop.cons {c : UInt8} (h : c = 44 ∨ c = 93 ∨ c = 125) (r : Bytes) : Stop (c :: r) := by
  intro x hx
  cases hx
  rcases h with h | h | h
  · exact .inl h
  · exact .inr (.inl h)
  · exact .inr (.inr (.inl h))

mutual
theorem readVal_text {j : Json} {s : Bytes} (h : Text j s) : ∀ n w r, s.length ≤ n → Blank w → Stop r → readVal n (w ++ (s ++ r)) = some (j, r) := by
  cases h with
  | str s hp =>
    intro n w r hn hw hr
    obtain ⟨n, rfl⟩ : ∃ m, n = m + 1 := ⟨n - 1, by simp at hn; omega⟩
    rw [readVal, skip_blank hw, List.cons_append, skip_cons (by decide +kernel), List.append_assoc]
    dsimp only
    rw [if_pos rfl, List.singleton_append, readStr_plain hp]
    rfl
  | num k ds hd =>
    intro n w r hn hw hr
    obtain ⟨c, t, e, hb, -⟩ := text_head (Text.num k s hd)
    obtain ⟨n, rfl⟩ : ∃ m, n = m + 1 := ⟨n - 1, by rw [e] at hn; simp at hn; omega⟩
    have hc := hd.2.1 c (by simp [e])
    have hx1 : 48 ≤ c.toNat := hc.1
    have hx2 : c.toNat ≤ 57 := hc.2
    have ne : ∀ y : UInt8, 57 < y.toNat ∨ y.toNat < 48 → c ≠ y := by intro y hy e; subst e; omega
    have hs : skip (s ++ r) = s ++ r := by rw [e]; exact skip_cons hb _
    have hnum := readNum_decimal hd hr
    rw [readVal, skip_blank hw, hs]
    rw [e] at hnum ⊢
    rw [List.cons_append] at hnum ⊢
    dsimp only
    rw [if_neg (ne 34 (by decide)), if_neg (ne 91 (by decide)), if_neg (ne 123 (by decide)), if_neg (ne 116 (by decide)), if_neg (ne 102 (by decide))]
    exact hnum
  | true =>
    intro n w r hn hw hr
    have e : b "true" = 116 :: b "rue" := by decide +kernel
    obtain ⟨n, rfl⟩ : ∃ m, n = m + 1 := ⟨n - 1, by rw [e] at hn; simp at hn; omega⟩
    have hs : skip (b "true" ++ r) = 116 :: (b "rue" ++ r) := by rw [e]; exact skip_cons (by decide +kernel) _
    rw [readVal, skip_blank hw, hs]
    dsimp only
    rw [if_neg (by decide), if_neg (by decide), if_neg (by decide), if_pos rfl, ← List.cons_append, ← e, after_prefix]
    rfl
  | false =>
    intro n w r hn hw hr
    have e : b "false" = 102 :: b "alse" := by decide +kernel
    obtain ⟨n, rfl⟩ : ∃ m, n = m + 1 := ⟨n - 1, by rw [e] at hn; simp at hn; omega⟩
    have hs : skip (b "false" ++ r) = 102 :: (b "alse" ++ r) := by rw [e]; exact skip_cons (by decide +kernel) _
    rw [readVal, skip_blank hw, hs]
    dsimp only
    rw [if_neg (by decide), if_neg (by decide), if_neg (by decide), if_neg (by decide), if_pos rfl, ← List.cons_append, ← e, after_prefix]
    rfl
  | arr l x hi =>
    intro n w r hn hw hr
    obtain ⟨n, rfl⟩ : ∃ m, n = m + 1 := ⟨n - 1, by simp at hn; omega⟩
    obtain ⟨c, t, e, hb, hc, -⟩ := items_head hi
    have := readItems_items hi n [] r (by simp at hn; omega) (by intro _ h; cases h)
    rw [readVal, skip_blank hw, List.cons_append, skip_cons (by decide +kernel)]
    dsimp only
    have hs : skip (x ++ [93] ++ r) = x ++ [93] ++ r := by rw [e]; exact skip_cons hb _
    rw [if_neg (by decide), if_pos rfl, hs, if_neg]
    · rw [List.append_assoc]
      rw [List.nil_append] at this
      show (readItems n (x ++ (93 :: r))).map _ = _
      rw [this]; rfl
    · rw [e]; intro h; cases h; exact hc rfl
  | obj l x hi =>
    intro n w r hn hw hr
    obtain ⟨n, rfl⟩ : ∃ m, n = m + 1 := ⟨n - 1, by simp at hn; omega⟩
    obtain ⟨t, e⟩ := members_head hi
    have := readMembers_members hi n [] r (by simp at hn; omega) (by intro _ h; cases h)
    rw [readVal, skip_blank hw, List.cons_append, skip_cons (by decide +kernel)]
    dsimp only
    have hs : skip (x ++ [125] ++ r) = x ++ [125] ++ r := by rw [e]; exact skip_cons (by decide +kernel) _
    rw [if_neg (by decide), if_neg (by decide), if_pos rfl, hs, if_neg]
    · rw [List.append_assoc]
      rw [List.nil_append] at this
      show (readMembers n (x ++ (125 :: r))).map _ = _
      rw [this]; rfl
    · rw [e]; intro h; cases h
theorem readItems_items {l : List Json} {s : Bytes} (h : Items l s) : ∀ n w r, s.length + 1 ≤ n → Blank w →
    readItems n (w ++ (s ++ 93 :: r)) = some (l, r) := by
  cases h with
  | one j s ht =>
    intro n w r hn hw
    obtain ⟨n, rfl⟩ : ∃ m, n = m + 1 := ⟨n - 1, by omega⟩
    rw [readItems, readVal_text ht n w (93 :: r) (by omega) hw (.cons (.inr (.inl rfl)) r)]
    dsimp only
    rw [skip_cons (by decide +kernel)]
    dsimp only
    rw [if_pos rfl]
  | more j l s w' t ht hw' hi =>
    intro n w r hn hw
    obtain ⟨n, rfl⟩ : ∃ m, n = m + 1 := ⟨n - 1, by omega⟩
    simp only [List.length_append, List.length_cons] at hn
    rw [readItems, List.append_assoc, List.cons_append, readVal_text ht n w _ (by omega) hw (.cons (.inl rfl) _)]
    dsimp only
    rw [skip_cons (by decide +kernel)]
    dsimp only
    rw [if_neg (by decide), if_pos rfl, List.append_assoc, readItems_items hi n w' r (by omega) hw']
    rfl
theorem readMembers_members {l : List (Bytes × Json)} {s : Bytes} (h : Members l s) : ∀ n w r, s.length + 1 ≤ n → Blank w →
    readMembers n (w ++ (s ++ 125 :: r)) = some (l, r) := by
  cases h with
  | one k j w' s hp hw' ht =>
    intro n w r hn hw
    obtain ⟨n, rfl⟩ : ∃ m, n = m + 1 := ⟨n - 1, by omega⟩
    simp only [List.length_append, List.length_cons] at hn
    have e : w ++ (34 :: (k ++ 34 :: 58 :: (w' ++ s)) ++ 125 :: r) = w ++ 34 :: (k ++ 34 :: (58 :: (w' ++ (s ++ 125 :: r)))) := by
      simp only [List.cons_append, List.append_assoc]
    rw [e, readMembers, skip_blank hw, skip_cons (by decide +kernel)]
    dsimp only
    rw [if_neg (by simp), readStr_plain hp]
    dsimp only
    rw [skip_cons (by decide +kernel)]
    dsimp only
    rw [if_neg (by simp), readVal_text ht n w' (125 :: r) (by omega) hw' (.cons (.inr (.inr rfl)) r)]
    dsimp only
    rw [skip_cons (by decide +kernel)]
    dsimp only
    rw [if_pos rfl]
  | more k j l w' s w'' t hp hw' ht hw'' hi =>
    intro n w r hn hw
    obtain ⟨n, rfl⟩ : ∃ m, n = m + 1 := ⟨n - 1, by omega⟩
    simp only [List.length_append, List.length_cons] at hn
    have e : w ++ (34 :: (k ++ 34 :: 58 :: (w' ++ s)) ++ 44 :: (w'' ++ t) ++ 125 :: r)
        = w ++ 34 :: (k ++ 34 :: (58 :: (w' ++ (s ++ 44 :: (w'' ++ (t ++ 125 :: r)))))) := by
      simp only [List.cons_append, List.append_assoc]
    rw [e, readMembers, skip_blank hw, skip_cons (by decide +kernel)]
    dsimp only
    rw [if_neg (by simp), readStr_plain hp]
    dsimp only
    rw [skip_cons (by decide +kernel)]
    dsimp only
    rw [if_neg (by simp), readVal_text ht n w' _ (by omega) hw' (.cons (.inl rfl) _)]
    dsimp only
    rw [skip_cons (by decide +kernel)]
    dsimp only
    rw [if_neg (by decide), if_pos rfl, readMembers_members hi n w'' r (by omega) hw'']
    rfl
end

/-- Every text of the grammar is read as what it stands for, also with white space at its end. -/
theorem loads_text {j : Json} {s w : Bytes} (h : Text j s) (hw : Blank w) : loads (s ++ w) = some j := by
  unfold loads
  have hs : Stop w := by
    intro c hc
    refine .inr (.inr (.inr ?_))
    cases w with
    | nil => cases hc
    | cons x w =>
      cases hc
      rcases hw c (by simp) with e | e | e | e <;> rw [e] <;> rfl
  have h1 := readVal_text h ((s ++ w).length + 1) [] w (by simp; omega) (by intro _ h; cases h) hs
  rw [List.nil_append] at h1
  rw [h1]
  dsimp only
  have := skip_blank hw []
  rw [List.append_nil] at this
  rw [this]
  exact if_pos rfl

end Verif.Dgsm
