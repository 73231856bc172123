import Verif.Sql2c.Model
import Verif.Sql2c.File
/-!
# C88: the statements in the program are those of the SQL file
-/
namespace Verif.Sql2c
open Verif

/-! ## Specification -/

/-- The text of a file, given its lines. -/
def Spec.text (lines : List Bytes) : Bytes := lines.flatMap fun l => l ++ [10]

/-- A statement as it is written in the file: with its semicolon before the last newline. -/
def Spec.written (s : Bytes) : Bytes := s.dropLast ++ [59, 10]

/-- The list of statements of a file: written one after the other they are the file, except for empty lines; within a statement no line ends
in a semicolon. -/
structure Spec.Statements (lines ss : List Bytes) : Prop where
  all : ss.flatMap Spec.written = Spec.text (lines.filter (· ≠ []))
  ends : ∀ s ∈ ss, s.getLast? = some 10
  single : ∀ s ∈ ss, ∀ p q, s ≠ p ++ [59, 10] ++ q

/-- What the script expects of a file: no quotes, backslashes or newlines in its lines, no line of semicolons only, none with two at its end, and
the last line that is not empty ends in a semicolon. -/
structure Spec.Wf (lines : List Bytes) : Prop where
  plain : ∀ l ∈ lines, 34 ∉ l ∧ 92 ∉ l ∧ 10 ∉ l
  single : ∀ l ∈ lines, l ≠ [59] ∧ ∀ p, l ≠ p ++ [59, 59]
  ended : ∀ l, (lines.filter (· ≠ [])).getLast? = some l → l.getLast? = some 59

/-! ## One line -/

theorem compile_char {c : UInt8} (h1 : c ≠ 34) (h2 : c ≠ 92) (h3 : c ≠ 10) (cur : Bytes) (acc : List Bytes) (r : Bytes) :
    compile .str (some cur) acc (c :: r) = compile .str (some (cur ++ [c])) acc r := by
  simp only [compile, h1, h2, h3, if_false, Option.getD_some]

theorem compile_str (l rest : Bytes) (h : 34 ∉ l ∧ 92 ∉ l ∧ 10 ∉ l) (cur : Bytes) (acc : List Bytes) :
    compile .str (some cur) acc (l ++ rest) = compile .str (some (cur ++ l)) acc rest := by
  induction l generalizing cur with
  | nil => rw [List.append_nil]; rfl
  | cons c l ih =>
    have h1 : c ≠ 34 := fun e => h.1 (e ▸ List.mem_cons_self)
    have h2 : c ≠ 92 := fun e => h.2.1 (e ▸ List.mem_cons_self)
    have h3 : c ≠ 10 := fun e => h.2.2 (e ▸ List.mem_cons_self)
    rw [List.cons_append, compile_char h1 h2 h3]
    rw [ih ⟨fun e => h.1 (List.mem_cons_of_mem _ e), fun e => h.2.1 (List.mem_cons_of_mem _ e), fun e => h.2.2 (List.mem_cons_of_mem _ e)⟩]
    simp

theorem compile_quote (l rest : Bytes) (h : 34 ∉ l ∧ 92 ∉ l ∧ 10 ∉ l) (cur : Option Bytes) (acc : List Bytes) :
    compile .code cur acc (quote l ++ rest) = compile .code (some (cur.getD [] ++ l ++ [10])) acc rest := by
  have e : quote l ++ rest = 34 :: (l ++ (92 :: 110 :: 34 :: rest)) := by simp [quote]
  have e1 : compile .code cur acc (34 :: (l ++ (92 :: 110 :: 34 :: rest))) = compile .str (some (cur.getD [])) acc (l ++ (92 :: 110 :: 34 :: rest)) := by
    simp only [compile, if_true]
  have e2 : ∀ x, compile .str (some x) acc (92 :: 110 :: 34 :: rest) = compile .code (some (x ++ [10])) acc rest := by
    intro x
    simp [compile]
  rw [e, e1, compile_str l _ h, e2]

theorem sedLine_open {l : Bytes} {c : UInt8} (hl : l.getLast? = some c) (hc : c ≠ 59) : sedLine l = quote l := by
  have h1 : subst1 l = quote l := by
    unfold subst1
    rw [hl]
    dsimp only
    rw [if_neg hc]
  have h2 : (quote l).getLast? = some 34 := by simp [quote, List.getLast?_cons]
  unfold sedLine subst2
  rw [h1, h2, if_neg (by decide)]

theorem sedLine_end {l : Bytes} {c : UInt8} (hl : l.getLast? = some c) (hc : c ≠ 59) : sedLine (l ++ [59]) = quote l ++ [44] := by
  have h1 : subst1 (l ++ [59]) = quote l ++ [59] := by
    unfold subst1
    rw [List.getLast?_concat]
    dsimp only
    rw [if_pos rfl, List.dropLast_concat, hl]
    dsimp only
    rw [if_neg hc]
  unfold sedLine subst2
  rw [h1, List.getLast?_concat, if_pos rfl, List.dropLast_concat]

/-! ## The file -/

/-- The statements, with `cur` the beginning of the first. -/
def split : Option Bytes → List Bytes → List Bytes
  | cur, [] => cur.toList
  | cur, l :: ls =>
    if l = [] then split cur ls
    else if l.getLast? = some 59 then (cur.getD [] ++ l.dropLast ++ [10]) :: split none ls
    else split (some (cur.getD [] ++ l ++ [10])) ls

theorem snoc_of_last {l : Bytes} {c : UInt8} (h : l.getLast? = some c) : l = l.dropLast ++ [c] := by
  have hne : l ≠ [] := by rintro rfl; cases h
  rw [List.getLast?_eq_some_getLast hne] at h
  rw [← Option.some.inj h]
  exact (List.dropLast_concat_getLast hne).symm

theorem mem_of_dropLast {l : Bytes} {c : UInt8} (h : c ∈ l.dropLast) : c ∈ l := List.dropLast_subset l h

theorem compile_split (lines : List Bytes) (hp : ∀ l ∈ lines, 34 ∉ l ∧ 92 ∉ l ∧ 10 ∉ l) (hs : ∀ l ∈ lines, l ≠ [59] ∧ ∀ p, l ≠ p ++ [59, 59])
    (cur : Option Bytes) (acc : List Bytes) : compile .code cur acc (sql2c lines) = some (acc ++ split cur lines) := by
  induction lines generalizing cur acc with
  | nil => rfl
  | cons l ls ih =>
    have ih := ih (fun x h => hp x (List.mem_cons_of_mem _ h)) (fun x h => hs x (List.mem_cons_of_mem _ h))
    have hp := hp l List.mem_cons_self
    have hs := hs l List.mem_cons_self
    have e : sql2c (l :: ls) = sedLine l ++ (10 :: sql2c ls) := by simp [sql2c]
    have nl : ∀ cur acc, compile .code cur acc (10 :: sql2c ls) = compile .code cur acc (sql2c ls) := fun _ _ => rfl
    rw [e]
    unfold split
    by_cases h0 : l = []
    · subst h0
      rw [if_pos rfl]
      show compile .code cur acc (10 :: sql2c ls) = _
      rw [nl, ih]
    · rw [if_neg h0]
      cases hl : l.getLast? with
      | none => exact absurd (List.getLast?_eq_none_iff.1 hl) h0
      | some c =>
        by_cases hc : c = 59
        · subst hc
          rw [if_pos rfl]
          have hl' := snoc_of_last hl
          have hp' : 34 ∉ l.dropLast ∧ 92 ∉ l.dropLast ∧ 10 ∉ l.dropLast :=
            ⟨fun h => hp.1 (mem_of_dropLast h), fun h => hp.2.1 (mem_of_dropLast h), fun h => hp.2.2 (mem_of_dropLast h)⟩
          cases hm : l.dropLast.getLast? with
          | none =>
            rw [List.getLast?_eq_none_iff.1 hm] at hl'
            exact absurd hl' hs.1
          | some c' =>
            have hc' : c' ≠ 59 := by
              rintro rfl
              rw [snoc_of_last hm] at hl'
              exact hs.2 l.dropLast.dropLast (by rw [List.append_assoc] at hl'; exact hl')
            have e1 : sedLine l = quote l.dropLast ++ [44] := by
              rw [hl']; rw [List.dropLast_concat]; exact sedLine_end hm hc'
            rw [e1, List.append_assoc, compile_quote _ _ hp']
            show compile .code none (acc ++ [cur.getD [] ++ l.dropLast ++ [10]]) (10 :: sql2c ls) = _
            rw [nl, ih]
            simp
        · rw [if_neg (fun e => hc (Option.some.inj e)), sedLine_open hl hc, compile_quote _ _ hp, nl, ih]

theorem last_filter_cons {l : Bytes} {ls : List Bytes} (h0 : l ≠ []) (hne : ls.filter (· ≠ []) ≠ []) :
    ((l :: ls).filter (· ≠ [])).getLast? = (ls.filter (· ≠ [])).getLast? := by
  rw [List.filter_cons_of_pos (by simpa using h0)]
  cases h : ls.filter (· ≠ []) with
  | nil => exact absurd h hne
  | cons a as => simp [List.getLast?_cons]

/-- No line of it ends in a semicolon. -/
def NoEnd (s : Bytes) : Prop := ∀ p q, s ≠ p ++ [59, 10] ++ q

theorem line_noEnd {l a q : Bytes} (h10 : 10 ∉ l) (hl : l.getLast? ≠ some 59) (h : l ++ [10] = a ++ [59] ++ (10 :: q)) : False := by
  rcases List.append_eq_append_iff.1 h with ⟨x, h4, h5⟩ | ⟨x, h4, h5⟩
  · cases x with
    | nil =>
      rw [List.append_nil] at h4
      exact hl (by rw [← h4]; simp)
    | cons y ys =>
      have := congrArg List.length h5
      simp at this
  · cases x with
    | nil =>
      rw [List.append_nil] at h4
      exact hl (by rw [h4]; simp)
    | cons y ys =>
      rw [List.cons_append] at h5
      have hy : y = 10 := (List.cons.inj h5).1.symm
      exact h10 (by rw [h4, hy]; simp)

theorem noEnd_append {cur l : Bytes} (hcur : NoEnd cur) (hlast : cur = [] ∨ cur.getLast? = some 10) (h10 : 10 ∉ l)
    (hl : l.getLast? ≠ some 59) : NoEnd (cur ++ l ++ [10]) := by
  intro p q e
  rw [List.append_assoc, List.append_assoc] at e
  rcases List.append_eq_append_iff.1 e with ⟨a, h1, h2⟩ | ⟨c, h1, h2⟩
  · exact line_noEnd (a := a) (q := q) h10 hl (by rw [h2]; simp)
  · cases c with
    | nil =>
      rw [List.nil_append] at h2
      exact line_noEnd (a := []) (q := q) h10 hl (by rw [← h2]; simp)
    | cons y ys =>
      rw [List.cons_append, List.cons_append] at h2
      obtain ⟨hy, h2⟩ := List.cons.inj h2
      cases ys with
      | nil =>
        rcases hlast with hlast | hlast
        · rw [hlast] at h1; simp at h1
        · rw [h1, List.getLast?_concat, ← hy] at hlast
          cases hlast
      | cons z zs =>
        have h2' : 10 :: q = z :: (zs ++ (l ++ [10])) := h2
        obtain ⟨hz, -⟩ := List.cons.inj h2'
        exact hcur p zs (by rw [h1, ← hy, ← hz]; simp)

theorem split_spec (lines : List Bytes) (hp : ∀ l ∈ lines, 10 ∉ l) (hs : ∀ l ∈ lines, l ≠ [59] ∧ ∀ p, l ≠ p ++ [59, 59])
    (cur : Option Bytes) (hc : NoEnd (cur.getD [])) (hcl : cur.getD [] = [] ∨ (cur.getD []).getLast? = some 10)
    (he : ∀ l, (lines.filter (· ≠ [])).getLast? = some l → l.getLast? = some 59) (hn : lines.filter (· ≠ []) = [] → cur = none) :
    (split cur lines).flatMap Spec.written = cur.getD [] ++ Spec.text (lines.filter (· ≠ []))
    ∧ (∀ s ∈ split cur lines, s.getLast? = some 10) ∧ ∀ s ∈ split cur lines, NoEnd s := by
  induction lines generalizing cur with
  | nil =>
    cases hn rfl
    exact ⟨rfl, (fun s h => by cases h), (fun s h => by cases h)⟩
  | cons l ls ih =>
    have ih := ih (fun x h => hp x (List.mem_cons_of_mem _ h)) (fun x h => hs x (List.mem_cons_of_mem _ h))
    have hp := hp l List.mem_cons_self
    have hs := hs l List.mem_cons_self
    unfold split
    by_cases h0 : l = []
    · subst h0
      rw [if_pos rfl]
      rw [List.filter_cons_of_neg (by simp)] at he hn ⊢
      exact ih cur hc hcl he hn
    · rw [if_neg h0]
      have hf : (l :: ls).filter (· ≠ []) = l :: ls.filter (· ≠ []) := List.filter_cons_of_pos (by simpa using h0)
      have he' : ∀ x, (ls.filter (· ≠ [])).getLast? = some x → x.getLast? = some 59 := by
        intro x hx
        refine he x ?_
        rw [last_filter_cons h0 ?_]
        · exact hx
        · intro e; rw [e] at hx; cases hx
      rw [hf]
      by_cases hl : l.getLast? = some 59
      · rw [if_pos hl]
        have hl' := snoc_of_last hl
        have hm : l.dropLast.getLast? ≠ some 59 := by
          intro hm
          rw [snoc_of_last hm, List.append_assoc] at hl'
          exact hs.2 _ hl'
        obtain ⟨h1, h2, h3⟩ := ih none (fun p q e => by simp at e) (.inl rfl) he' (fun _ => rfl)
        refine ⟨?_, ?_, ?_⟩
        · rw [List.flatMap_cons, h1]
          show (cur.getD [] ++ l.dropLast ++ [10]).dropLast ++ [59, 10] ++ ([] ++ Spec.text _) = cur.getD [] ++ (l ++ [10] ++ Spec.text _)
          rw [List.dropLast_concat]
          conv => rhs; rw [hl']
          simp
        · intro s hs'
          rcases List.mem_cons.1 hs' with rfl | hs'
          · simp
          · exact h2 s hs'
        · intro s hs'
          rcases List.mem_cons.1 hs' with rfl | hs'
          · exact noEnd_append hc hcl (fun h => hp (mem_of_dropLast h)) hm
          · exact h3 s hs'
      · rw [if_neg hl]
        have hne : ls.filter (· ≠ []) ≠ [] := by
          intro e
          refine hl (he l ?_)
          rw [hf, e]
          rfl
        obtain ⟨h1, h2, h3⟩ := ih (some (cur.getD [] ++ l ++ [10])) (noEnd_append hc hcl hp hl) (.inr (by simp)) he' (fun e => absurd e hne)
        refine ⟨?_, h2, h3⟩
        rw [h1]
        show cur.getD [] ++ l ++ [10] ++ Spec.text _ = cur.getD [] ++ (l ++ [10] ++ Spec.text _)
        simp

/-- **C88.** For every SQL file as the script expects it, the compiler accepts the result, and the statements in the program are those of the
file, in order and to the last letter.

Missing: quotes, backslashes and what else is excluded by `Wf` (`c88_quote_violated`, `c88_comment_violated`). -/
theorem c88_statements_partial (lines : List Bytes) (h : Spec.Wf lines) : ∃ ss, stmts lines = some ss ∧ Spec.Statements lines ss := by
  refine ⟨split none lines, ?_, ?_⟩
  · have := compile_split lines h.plain h.single none []
    rwa [List.nil_append] at this
  · obtain ⟨h1, h2, h3⟩ := split_spec lines (fun l hl => (h.plain l hl).2.2) h.single none (fun p q e => by simp at e) (.inl rfl) h.ended (fun _ => rfl)
    exact ⟨h1, h2, h3⟩

/-- There is only one such list of statements. -/
theorem c88_unique (lines ss ss' : List Bytes) (h : Spec.Statements lines ss) (h' : Spec.Statements lines ss') : ss = ss' := by
  have key : ∀ ss ss' : List Bytes, (∀ s ∈ ss, s.getLast? = some 10) → (∀ s ∈ ss', s.getLast? = some 10) → (∀ s ∈ ss, NoEnd s) → (∀ s ∈ ss', NoEnd s) →
      ss.flatMap Spec.written = ss'.flatMap Spec.written → ss = ss' := by
    intro ss
    induction ss with
    | nil =>
      intro ss' _ _ _ _ e
      cases ss' with
      | nil => rfl
      | cons s ss' => have := congrArg List.length e; simp [Spec.written] at this
    | cons s ss ih =>
      intro ss' h1 h2 h3 h4 e
      cases ss' with
      | nil => have := congrArg List.length e; simp [Spec.written] at this
      | cons s' ss' =>
        rw [List.flatMap_cons, List.flatMap_cons] at e
        have half : ∀ (x y : Bytes) (r r' : Bytes), x.getLast? = some 10 → y.getLast? = some 10 → NoEnd y →
            Spec.written x ++ r = Spec.written y ++ r' → y.dropLast.length ≤ x.dropLast.length := by
          intro x y r r' hx hy hN e
          apply Nat.le_of_not_lt
          intro hlt
          unfold Spec.written at e
          rw [List.append_assoc, List.append_assoc] at e
          rcases List.append_eq_append_iff.1 e with ⟨a, e1, e2⟩ | ⟨c, e1, e2⟩
          · cases a with
            | nil => rw [e1] at hlt; simp at hlt
            | cons u us =>
              rw [List.cons_append, List.cons_append] at e2
              obtain ⟨hu, e2⟩ := List.cons.inj e2
              have hy' := snoc_of_last hy
              cases us with
              | nil => exact absurd (List.cons.inj e2).1 (by decide)
              | cons v vs =>
                rw [List.cons_append, List.cons_append] at e2
                obtain ⟨hv, -⟩ := List.cons.inj e2
                exact hN x.dropLast (vs ++ [10]) (by rw [hy', e1, ← hu, ← hv]; simp)
          · rw [e1] at hlt; simp at hlt; omega
        have g1 := h1 s List.mem_cons_self
        have g2 := h2 s' List.mem_cons_self
        have l1 := half s s' _ _ g1 g2 (h4 s' List.mem_cons_self) e
        have l2 := half s' s _ _ g2 g1 (h3 s List.mem_cons_self) e.symm
        have hlen : (Spec.written s).length = (Spec.written s').length := by simp [Spec.written] at l1 l2 ⊢; omega
        obtain ⟨e1, e2⟩ := List.append_inj e hlen
        have e3 : s.dropLast = s'.dropLast := List.append_cancel_right e1
        have : s = s' := by rw [snoc_of_last g1, snoc_of_last g2, e3]
        subst this
        rw [ih ss' (fun x h => h1 x (List.mem_cons_of_mem _ h)) (fun x h => h2 x (List.mem_cons_of_mem _ h)) (fun x h => h3 x (List.mem_cons_of_mem _ h))
          (fun x h => h4 x (List.mem_cons_of_mem _ h)) e2]
  exact key ss ss' h.ends h'.ends h.single h'.single (h.all.trans h'.all.symm)

/-! ## Violations -/

/-- C88 is violated by a line with quotes in it, as in a name or a comment: the program cannot be compiled. -/
theorem c88_quote_violated : stmts [b "CREATE TABLE t (", b "  \"x\" INTEGER", b ");"] = none := by decide +kernel

/-- C88 is violated by a comment after the semicolon: the two statements become one string, of which SQLite runs only the first
statement. -/
theorem c88_comment_violated : stmts [b "PRAGMA a = 1; -- first", b "PRAGMA b = 2;"] = some [b "PRAGMA a = 1; -- first\nPRAGMA b = 2\n"] := by decide +kernel

/-! ## Examples -/

theorem wf_of {ls : List Bytes} (h1 : ∀ l ∈ ls, 34 ∉ l ∧ 92 ∉ l ∧ 10 ∉ l) (h2 : ∀ l ∈ ls, l ≠ [59] ∧ l.dropLast.getLast? ≠ some 59)
    (h3 : ((ls.filter (· ≠ [])).getLast?.map (·.getLast?)) = some (some 59)) : Spec.Wf ls := by
  refine ⟨h1, ?_, ?_⟩
  · intro l hl
    refine ⟨(h2 l hl).1, fun p e => (h2 l hl).2 ?_⟩
    rw [e, show p ++ [59, 59] = (p ++ [59]) ++ [59] by simp, List.dropLast_concat, List.getLast?_concat]
  · intro l hl
    rw [hl] at h3
    exact Option.some.inj h3

/-- `hlr.sql` is as the script expects it. -/
theorem hlrSql_wf : Spec.Wf hlrSql := wf_of (by decide +kernel) (by decide +kernel) (by decide +kernel)

/-- `hlr.sql` has eight statements, of which the last sets the version. -/
theorem c88_hlr_sql : (stmts hlrSql).map (fun ss => (ss.length, ss.getLast?.map (fun s => (s.reverse.take 24).reverse))) = some (8, some (b "PRAGMA user_version = 7\n")) := by decide +kernel

end Verif.Sql2c
