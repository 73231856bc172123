import Verif.Start.Getopt
import Verif.Start.CmdSpec
/-!
# `getopt_long` reads command lines as documented
-/
namespace Verif.Start
open Verif

/-- The option string and the table of long options are those of the documentation `ds`. -/
structure Agree (o : Opts) (ds : List Doc) : Prop where
  long : ∀ d ∈ ds, ∃ l ∈ o.long, l.name = d.long ∧ l.arg = d.arg ∧
    ∀ c, d.short = some c → l.flag = false ∧ l.val = c.toNat
  docs : ∀ l ∈ o.long, ∃ d ∈ ds, d.long = l.name
  uniq : ∀ l ∈ o.long, ∀ m ∈ o.long, (l.name = m.name ∨ (l.flag = m.flag ∧ l.val = m.val)) → l = m
  duniq : ∀ d ∈ ds, ∀ e ∈ ds, d.long = e.long → d = e
  short : ∀ s ∈ o.short, ∃ d ∈ ds, d.short = some s.1 ∧ d.arg = s.2
  shorts : ∀ d ∈ ds, ∀ c, d.short = some c → (c, d.arg) ∈ o.short
  suniq : ∀ s ∈ o.short, ∀ t ∈ o.short, s.1 = t.1 → s = t
  names : ∀ l ∈ o.long, l.name ≠ [] ∧ 61 ∉ l.name
  dash : ∀ s ∈ o.short, s.1 ≠ 45
  several : findLong o.long [] = none

/-- What getopt_long() returns for an option. -/
def Opts.tok (o : Opts) (i : Item) : Tok :=
  match o.long.find? (fun l => l.name == i.name) with
  | some l => l.tok i.arg
  | none => .bad

variable {o : Opts} {ds : List Doc}

theorem Agree.find (h : Agree o ds) {l : Long} (hl : l ∈ o.long) : o.long.find? (fun x => x.name == l.name) = some l := by
  cases hf : o.long.find? (fun x => x.name == l.name) with
  | none => have := List.find?_eq_none.1 hf l hl; simp at this
  | some m =>
    have h1 := List.find?_some hf
    have h2 := List.mem_of_find?_eq_some hf
    rw [h.uniq m h2 l hl (.inl (eq_of_beq h1))]

theorem Agree.tok (h : Agree o ds) {l : Long} (hl : l ∈ o.long) (a : Option Bytes) : o.tok ⟨l.name, a⟩ = l.tok a := by
  unfold Opts.tok; rw [h.find hl]

theorem cutEq_no {w : Bytes} (h : (61 : UInt8) ∉ w) : cutEq w = (w, none) := by
  induction w with
  | nil => rfl
  | cons c w ih =>
    simp only [List.mem_cons, not_or] at h
    rw [cutEq, if_neg (fun e => h.1 e.symm), ih h.2]

theorem cutEq_eq {w a : Bytes} (h : (61 : UInt8) ∉ w) : cutEq (w ++ 61 :: a) = (w, some a) := by
  induction w with
  | nil => simp [cutEq]
  | cons c w ih =>
    simp only [List.mem_cons, not_or] at h
    rw [List.cons_append, cutEq, if_neg (fun e => h.1 e.symm), ih h.2]

theorem cutEq_inv (w : Bytes) : (61 : UInt8) ∉ (cutEq w).1 ∧
    w = (cutEq w).1 ++ (match (cutEq w).2 with | none => [] | some a => 61 :: a) := by
  induction w with
  | nil => simp [cutEq]
  | cons c w ih =>
    rw [cutEq]
    by_cases hc : c = 61
    · subst hc; simp
    · rw [if_neg hc]
      refine ⟨?_, ?_⟩
      · simp only [List.mem_cons, not_or]; exact ⟨fun e => hc e.symm, ih.1⟩
      · simpa using ih.2

/-- A name stands for the option the program finds. -/
theorem Agree.findLong (h : Agree o ds) {w : Bytes} {d : Doc} (hn : Names ds w d) :
    ∃ l ∈ o.long, findLong o.long w = some l ∧ l.name = d.long ∧ l.arg = d.arg := by
  cases hn with
  | full hd =>
    obtain ⟨l, hl, h1, h2, _⟩ := h.long d hd
    refine ⟨l, hl, ?_, h1, h2⟩
    unfold Start.findLong
    rw [← h1, h.find hl]
  | part hd hw hp hu =>
    obtain ⟨l, hl, h1, h2, _⟩ := h.long d hd
    refine ⟨l, hl, ?_, h1, h2⟩
    have key : ∀ m ∈ o.long, w <+: m.name → m = l := by
      intro m hm hwm
      obtain ⟨d', hd', e⟩ := h.docs m hm
      have := hu d' hd' (e ▸ hwm)
      subst this
      exact h.uniq m hm l hl (.inl (by rw [h1, e]))
    unfold Start.findLong
    cases hf : o.long.find? (fun x => x.name == w) with
    | some m =>
      have e := eq_of_beq (by have := List.find?_some hf; exact this)
      have hm := List.mem_of_find?_eq_some hf
      dsimp only
      rw [key m hm (e ▸ List.prefix_rfl)]
    | none =>
      dsimp only
      cases hx : o.long.filter (fun x => w.isPrefixOf x.name) with
      | nil =>
        have : l ∈ o.long.filter (fun x => w.isPrefixOf x.name) :=
          List.mem_filter.2 ⟨hl, List.isPrefixOf_iff_prefix.2 (h1 ▸ hp)⟩
        rw [hx] at this; cases this
      | cons x xs =>
        have hin : ∀ y ∈ x :: xs, y = l := by
          intro y hy
          rw [← hx] at hy
          obtain ⟨hy1, hy2⟩ := List.mem_filter.1 hy
          exact key y hy1 (List.isPrefixOf_iff_prefix.1 hy2)
        dsimp only
        have hx0 := hin x (by simp)
        subst hx0
        rw [if_pos]
        rw [List.all_eq_true]
        intro y hy
        rw [hin y (by simp [hy])]
        simp

/-- What the program finds is what the name stands for. -/
theorem Agree.names_of (h : Agree o ds) {w : Bytes} {l : Long} (hf : Start.findLong o.long w = some l) :
    l ∈ o.long ∧ ∃ d, Names ds w d ∧ d.long = l.name ∧ d.arg = l.arg := by
  have doc : ∀ m ∈ o.long, ∃ d ∈ ds, d.long = m.name ∧ d.arg = m.arg := by
    intro m hm
    obtain ⟨d, hd, e⟩ := h.docs m hm
    obtain ⟨l', hl', h1, h2, _⟩ := h.long d hd
    have := h.uniq l' hl' m hm (.inl (h1.trans e))
    subst this
    exact ⟨d, hd, e, h2.symm⟩
  have hw : w ≠ [] := by
    intro e; subst e; rw [h.several] at hf; cases hf
  unfold Start.findLong at hf
  cases hx : o.long.find? (fun x => x.name == w) with
  | some m =>
    rw [hx] at hf
    cases hf
    have e := eq_of_beq (by have := List.find?_some hx; exact this)
    have hm := List.mem_of_find?_eq_some hx
    obtain ⟨d, hd, h1, h2⟩ := doc l hm
    refine ⟨hm, d, ?_, h1, h2⟩
    rw [← e, ← h1]; exact .full hd
  | none =>
    rw [hx] at hf
    dsimp only at hf
    cases hy : o.long.filter (fun x => w.isPrefixOf x.name) with
    | nil => rw [hy] at hf; cases hf
    | cons x xs =>
      rw [hy] at hf
      dsimp only at hf
      split at hf
      · rename_i ha
        cases hf
        have hall : ∀ y ∈ l :: xs, y ∈ o.long ∧ w <+: y.name := by
          intro y hy'
          rw [← hy] at hy'
          obtain ⟨h1, h2⟩ := List.mem_filter.1 hy'
          exact ⟨h1, List.isPrefixOf_iff_prefix.1 h2⟩
        have hl := hall l (by simp)
        obtain ⟨d, hd, h1, h2⟩ := doc l hl.1
        refine ⟨hl.1, d, .part hd hw (h1 ▸ hl.2) ?_, h1, h2⟩
        intro d' hd' hp
        obtain ⟨m, hm, e1, _, _⟩ := h.long d' hd'
        have hmem : m ∈ o.long.filter (fun x => w.isPrefixOf x.name) :=
          List.mem_filter.2 ⟨hm, List.isPrefixOf_iff_prefix.2 (e1 ▸ hp)⟩
        rw [hy] at hmem
        have hml : m = l := by
          rcases List.mem_cons.1 hmem with e | hmx
          · exact e
          · have := List.all_eq_true.1 ha m hmx
            simp only [Bool.and_eq_true, beq_iff_eq] at this
            exact h.uniq m hm l hl.1 (.inr ⟨this.1.2, this.2⟩)
        subst hml
        exact h.duniq d' hd' d hd (by rw [h1, e1])
      · cases hf

theorem Names.no_eq (h : Agree o ds) {w : Bytes} {d : Doc} (hn : Names ds w d) : (61 : UInt8) ∉ w ∧ w ≠ [] := by
  cases hn with
  | full hd =>
    obtain ⟨l, hl, h1, _, _⟩ := h.long d hd
    have := h.names l hl
    rw [h1] at this
    exact ⟨this.2, this.1⟩
  | part hd hw hp hu =>
    obtain ⟨l, hl, h1, _, _⟩ := h.long d hd
    have := (h.names l hl).2
    rw [h1] at this
    exact ⟨fun hm => this (hp.subset hm), hw⟩

theorem Agree.sfind (h : Agree o ds) {d : Doc} {c : UInt8} (hd : d ∈ ds) (hc : d.short = some c) :
    o.short.find? (fun s => s.1 == c) = some (c, d.arg) := by
  have hm := h.shorts d hd c hc
  cases hf : o.short.find? (fun s => s.1 == c) with
  | none => have := List.find?_eq_none.1 hf _ hm; simp at this
  | some s =>
    have e := eq_of_beq (by have := List.find?_some hf; exact this)
    rw [h.suniq s (List.mem_of_find?_eq_some hf) _ hm e]

theorem Agree.stok (h : Agree o ds) {d : Doc} {c : UInt8} (hd : d ∈ ds) (hc : d.short = some c) (a : Option Bytes) :
    o.tok ⟨d.long, a⟩ = .opt c.toNat a := by
  obtain ⟨l, hl, h1, _, h3⟩ := h.long d hd
  rw [← h1, h.tok hl]
  obtain ⟨e1, e2⟩ := h3 c hc
  simp [Long.tok, e1, e2]

/-- A word of one-letter options without arguments, before something else. -/
theorem Agree.cluster (h : Agree o ds) {fs : List Doc} (hf : Flags ds fs) (u : Bytes) :
    Start.cluster o.short (letters fs ++ u) =
      (fs.map (fun d => o.tok ⟨d.long, none⟩) ++ (Start.cluster o.short u).1, (Start.cluster o.short u).2) := by
  induction fs with
  | nil => simp [letters]
  | cons d fs ih =>
    obtain ⟨hd, ha, hs⟩ := hf d (by simp)
    obtain ⟨c, hc⟩ := Option.isSome_iff_exists.1 hs
    have ih := ih (fun x hx => hf x (by simp [hx]))
    have e : letters (d :: fs) ++ u = c :: (letters fs ++ u) := by simp [letters, hc]
    rw [e, Start.cluster, h.sfind hd hc]
    dsimp only
    rw [ha]
    simp only [Bool.false_eq_true, if_false]
    rw [ih, List.map_cons, h.stok hd hc]
    rfl

theorem letters_ne {fs : List Doc} (hne : fs ≠ []) (hf : Flags ds fs) : ∃ c u, letters fs = c :: u := by
  cases fs with
  | nil => exact absurd rfl hne
  | cons d fs =>
    obtain ⟨_, _, hs⟩ := hf d (by simp)
    obtain ⟨c, hc⟩ := Option.isSome_iff_exists.1 hs
    exact ⟨c, letters fs, by simp [letters, hc]⟩

theorem letters_dash (h : Agree o ds) {fs : List Doc} (hf : Flags ds fs) : (45 : UInt8) ∉ letters fs := by
  intro hm
  obtain ⟨d, hd, hs⟩ := List.mem_filterMap.1 hm
  obtain ⟨hd', _, _⟩ := hf d hd
  exact h.dash _ (h.shorts d hd' 45 hs) rfl

/-- The word case of `scan` for one-letter options. -/
theorem scan_cluster (posix : Bool) {c : UInt8} (u : Bytes) (ws : List Bytes) (hc : c ≠ 45) :
    scan o posix ((45 :: c :: u) :: ws) =
      match (cluster o.short (c :: u)).2 with
      | none => ((cluster o.short (c :: u)).1 ++ (scan o posix ws).1, (scan o posix ws).2)
      | some v => match ws with
        | [] => ((cluster o.short (c :: u)).1 ++ [.bad], [])
        | a :: ws' => ((cluster o.short (c :: u)).1 ++ .opt v (some a) :: (scan o posix ws').1, (scan o posix ws').2) := by
  rw [scan.eq_def]; dsimp only
  rw [if_neg (by simp [hc])]
  split
  · rename_i e; simp [hc] at e
  · rename_i c' w' hne e
    simp only [List.cons.injEq, true_and] at e
    obtain ⟨rfl, rfl⟩ := e
    rfl
  · rename_i hne1 hne2
    exact absurd rfl (hne2 c u)

theorem scan_long (posix : Bool) (w : Bytes) (ws : List Bytes) (hw : w ≠ []) :
    scan o posix ((45 :: 45 :: w) :: ws) =
      match longWord o.long w with
        | .inl t => (t :: (scan o posix ws).1, (scan o posix ws).2)
        | .inr f => match ws with
          | [] => ([.bad], [])
          | a :: ws' => (f a :: (scan o posix ws').1, (scan o posix ws').2) := by
  rw [scan.eq_def]; dsimp only; rw [if_neg (by simp [hw])]
  rfl

theorem scan_word (posix : Bool) {w : Bytes} (ws : List Bytes) (hw : IsWord w) :
    scan o posix (w :: ws) = if posix then ([], w :: ws) else ((scan o posix ws).1, w :: (scan o posix ws).2) := by
  have hne : w ≠ [45, 45] := by
    rcases hw with rfl | h
    · simp
    · exact h _
  rw [scan.eq_def]; dsimp only; rw [if_neg hne]
  split
  · rename_i e
    rcases hw with e' | h
    · simp at e'
    · exact absurd rfl (h _)
  · rename_i e
    rcases hw with e' | h
    · simp at e'
    · exact absurd rfl (h _)
  · rfl

/-- **Whatever a command line says as documented, the program reads.** -/
theorem Agree.reads (h : Agree o ds) {posix : Bool} {ws : List Bytes} {is : List Item} {ps : List Bytes}
    (hc : Cmdline ds posix ws is ps) : scan o posix ws = (is.map o.tok, ps) := by
  induction hc with
  | nil => simp [scan]
  | stop ws => rw [scan.eq_def]; dsimp only; rw [if_pos rfl]; rfl
  | word hp hw _ ih => subst hp; rw [scan_word _ _ hw, ih]; rfl
  | words hp hw => subst hp; rw [scan_word _ _ hw]; rfl
  | long hn ha _ ih =>
    obtain ⟨l, hl, h1, h2, h3⟩ := h.findLong hn
    obtain ⟨hw1, hw2⟩ := hn.no_eq h
    rw [scan_long _ _ _ hw2, longWord, cutEq_no hw1]
    dsimp only
    rw [h1]
    dsimp only
    rw [h3, ha]
    simp only [Bool.false_eq_true, if_false]
    rw [ih, List.map_cons, ← h2, h.tok hl]
  | longNext hn ha _ ih =>
    obtain ⟨l, hl, h1, h2, h3⟩ := h.findLong hn
    obtain ⟨hw1, hw2⟩ := hn.no_eq h
    rw [scan_long _ _ _ hw2, longWord, cutEq_no hw1]
    dsimp only
    rw [h1]
    dsimp only
    rw [h3, ha]
    simp only [if_true]
    rw [ih, List.map_cons, ← h2, h.tok hl]
  | longEq hn ha _ ih =>
    obtain ⟨l, hl, h1, h2, h3⟩ := h.findLong hn
    obtain ⟨hw1, hw2⟩ := hn.no_eq h
    rw [scan_long _ _ _ (by simp), longWord, cutEq_eq hw1]
    dsimp only
    rw [h1]
    dsimp only
    rw [h3, ha]
    simp only [if_true]
    rw [ih, List.map_cons, ← h2, h.tok hl]
  | @flags fs ws is ps hne hf _ ih =>
    obtain ⟨c, u, e⟩ := letters_ne hne hf
    have hdash := letters_dash h hf
    have hcl := h.cluster hf []
    rw [List.append_nil, e] at hcl
    rw [e] at hdash ⊢
    rw [scan_cluster _ _ _ (fun e => hdash (by simp [e])), hcl]
    simp [Start.cluster, ih, Function.comp_def]
  | @glued fs d c a ws is ps hf hd hs ha hane _ ih =>
    have hcl := h.cluster hf (c :: a)
    have hlast : Start.cluster o.short (c :: a) = ([.opt c.toNat (some a)], none) := by
      rw [Start.cluster, h.sfind hd hs]
      dsimp only
      rw [ha]
      cases a with
      | nil => exact absurd rfl hane
      | cons x a => rfl
    have hdash := letters_dash h hf
    have hc45 : c ≠ 45 := fun e => h.dash _ (h.shorts d hd c hs) e
    obtain ⟨x, u, e, hx⟩ : ∃ x u, letters fs ++ c :: a = x :: u ∧ x ≠ 45 := by
      cases hl : letters fs with
      | nil => exact ⟨c, a, rfl, hc45⟩
      | cons y v => exact ⟨y, v ++ c :: a, rfl, fun e => hdash (by rw [hl]; simp [e])⟩
    rw [e] at hcl ⊢
    rw [scan_cluster _ _ _ hx, hcl, hlast]
    simp [ih, Function.comp_def, h.stok hd hs]
  | @next fs d c a ws is ps hf hd hs ha _ ih =>
    have hcl := h.cluster hf [c]
    have hlast : Start.cluster o.short [c] = ([], some c.toNat) := by
      rw [Start.cluster, h.sfind hd hs]
      dsimp only
      rw [ha]
      rfl
    have hdash := letters_dash h hf
    have hc45 : c ≠ 45 := fun e => h.dash _ (h.shorts d hd c hs) e
    obtain ⟨x, u, e, hx⟩ : ∃ x u, letters fs ++ [c] = x :: u ∧ x ≠ 45 := by
      cases hl : letters fs with
      | nil => exact ⟨c, [], rfl, hc45⟩
      | cons y v => exact ⟨y, v ++ [c], rfl, fun e => hdash (by rw [hl]; simp [e])⟩
    rw [e] at hcl ⊢
    rw [scan_cluster _ _ _ hx, hcl, hlast]
    simp [ih, Function.comp_def, h.stok hd hs]

/-- What is in a word of one-letter options that is read without error. -/
theorem Agree.cluster_inv (h : Agree o ds) (u : Bytes) (hb : .bad ∉ (Start.cluster o.short u).1) :
    ∃ fs, Flags ds fs ∧
      ((u = letters fs ∧ (Start.cluster o.short u).2 = none) ∨
       (∃ d c a, d ∈ ds ∧ d.short = some c ∧ d.arg = true ∧ a ≠ [] ∧ u = letters fs ++ c :: a ∧ (Start.cluster o.short u).2 = none) ∨
       (∃ d c, d ∈ ds ∧ d.short = some c ∧ d.arg = true ∧ u = letters fs ++ [c] ∧ (Start.cluster o.short u).2 = some c.toNat)) := by
  induction u with
  | nil => exact ⟨[], (by intro d hd; cases hd), .inl ⟨rfl, rfl⟩⟩
  | cons c w ih =>
    rw [Start.cluster] at hb ⊢
    cases hf : o.short.find? (fun s => s.1 == c) with
    | none => rw [hf] at hb; simp at hb
    | some s =>
      have hm := List.mem_of_find?_eq_some hf
      have e : s.1 = c := eq_of_beq (by have := List.find?_some hf; exact this)
      obtain ⟨d, hd, h1, h2⟩ := h.short s hm
      rw [e] at h1
      rw [hf] at hb
      dsimp only at hb ⊢
      cases hs : s.2 with
      | true =>
        rw [hs] at hb h2
        simp only [if_true] at hb ⊢
        refine ⟨[], (by intro d hd; cases hd), .inr ?_⟩
        cases w with
        | nil => exact .inr ⟨d, c, hd, h1, h2, rfl, rfl⟩
        | cons x w => exact .inl ⟨d, c, x :: w, hd, h1, h2, by simp, rfl, rfl⟩
      | false =>
        rw [hs] at hb h2
        simp only [Bool.false_eq_true, if_false] at hb ⊢
        obtain ⟨fs, hfs, hcase⟩ := ih (fun hx => hb (by simp [hx]))
        refine ⟨d :: fs, ?_, ?_⟩
        · intro x hx
          rcases List.mem_cons.1 hx with rfl | hx
          · exact ⟨hd, h2, by simp [h1]⟩
          · exact hfs x hx
        · have el : letters (d :: fs) = c :: letters fs := by simp [letters, h1]
          rcases hcase with ⟨e1, e2⟩ | ⟨d', c', a, g1, g2, g3, g4, e1, e2⟩ | ⟨d', c', g1, g2, g3, e1, e2⟩
          · exact .inl ⟨by rw [el, e1], e2⟩
          · exact .inr (.inl ⟨d', c', a, g1, g2, g3, g4, by rw [el, e1]; rfl, e2⟩)
          · exact .inr (.inr ⟨d', c', g1, g2, g3, by rw [el, e1]; rfl, e2⟩)

theorem not_word {w : Bytes} (h : ¬ IsWord w) : ∃ c u, w = 45 :: c :: u := by
  unfold IsWord at h
  simp only [not_or] at h
  cases w with
  | nil => exact absurd (fun u e => by cases e) h.2
  | cons c w =>
    have : c = 45 := by
      apply Classical.byContradiction
      intro hc
      exact h.2 (fun u e => hc (by cases e; rfl))
    subst this
    cases w with
    | nil => exact absurd rfl h.1
    | cons d w => exact ⟨d, w, rfl⟩

/-- **Whatever is read without error is a command line as documented.** -/
theorem Agree.said (h : Agree o ds) (posix : Bool) (ws : List Bytes) (hb : .bad ∉ (scan o posix ws).1) :
    ∃ is, Cmdline ds posix ws is (scan o posix ws).2 := by
  suffices H : ∀ n, ∀ ws : List Bytes, ws.length ≤ n → .bad ∉ (scan o posix ws).1 → ∃ is, Cmdline ds posix ws is (scan o posix ws).2 from
    H ws.length ws (Nat.le_refl _) hb
  intro n
  induction n with
  | zero =>
    intro ws hl _
    cases ws with
    | nil => exact ⟨[], by simpa [scan] using Cmdline.nil⟩
    | cons w ws => simp at hl
  | succ n ih =>
    intro ws hl hb
    cases ws with
    | nil => exact ⟨[], by simpa [scan] using Cmdline.nil⟩
    | cons w ws =>
      have hl' : ws.length ≤ n := by simpa using hl
      by_cases hw : IsWord w
      · rw [scan_word _ _ hw] at hb ⊢
        cases posix with
        | true => exact ⟨[], .words rfl hw⟩
        | false =>
          obtain ⟨is, hi⟩ := ih ws hl' (by simpa using hb)
          exact ⟨is, .word rfl hw hi⟩
      · obtain ⟨c, u, rfl⟩ := not_word hw
        by_cases hc : c = 45
        · subst hc
          by_cases hu : u = []
          · subst hu
            refine ⟨[], ?_⟩
            rw [scan.eq_def]; dsimp only; rw [if_pos rfl]
            exact .stop ws
          · rw [scan_long _ _ _ hu] at hb ⊢
            obtain ⟨hce, heq⟩ := cutEq_inv u
            unfold longWord at hb ⊢
            cases hf : Start.findLong o.long (cutEq u).1 with
            | none => rw [hf] at hb; simp at hb
            | some l =>
              obtain ⟨hlm, d, hn, hd1, hd2⟩ := h.names_of hf
              rw [hf] at hb
              dsimp only at hb ⊢
              cases hq : (cutEq u).2 with
              | some a =>
                rw [hq] at hb heq
                dsimp only at hb heq ⊢
                cases hla : l.arg with
                | false => rw [hla] at hb; simp at hb
                | true =>
                  rw [hla] at hb
                  obtain ⟨is, hi⟩ := ih ws hl' (fun hx => hb (by simp [hx]))
                  refine ⟨⟨d.long, some a⟩ :: is, ?_⟩
                  rw [heq]
                  exact .longEq hn (hd2.trans hla) hi
              | none =>
                rw [hq] at hb heq
                dsimp only at hb heq ⊢
                rw [List.append_nil] at heq
                rw [← heq] at hn
                cases hla : l.arg with
                | false =>
                  rw [hla] at hb
                  simp only [Bool.false_eq_true, if_false] at hb ⊢
                  obtain ⟨is, hi⟩ := ih ws hl' (fun hx => hb (by simp [hx]))
                  exact ⟨⟨d.long, none⟩ :: is, .long hn (hd2.trans hla) hi⟩
                | true =>
                  rw [hla] at hb
                  simp only [if_true] at hb ⊢
                  cases ws with
                  | nil => simp at hb
                  | cons a ws' =>
                    obtain ⟨is, hi⟩ := ih ws' (by simp at hl'; omega) (fun hx => hb (by simp [hx]))
                    exact ⟨⟨d.long, some a⟩ :: is, .longNext hn (hd2.trans hla) hi⟩
        · rw [scan_cluster _ _ _ hc] at hb ⊢
          have hb1 : .bad ∉ (Start.cluster o.short (c :: u)).1 := by
            intro hx
            apply hb
            split
            · simp [hx]
            · split <;> simp [hx]
          obtain ⟨fs, hfs, hcase⟩ := h.cluster_inv (c :: u) hb1
          rcases hcase with ⟨e1, e2⟩ | ⟨d, c', a, g1, g2, g3, g4, e1, e2⟩ | ⟨d, c', g1, g2, g3, e1, e2⟩
          · rw [e2] at hb ⊢
            dsimp only at hb ⊢
            obtain ⟨is, hi⟩ := ih ws hl' (fun hx => hb (by simp [hx]))
            rw [e1]
            have hne : fs ≠ [] := by intro e; subst e; cases e1
            exact ⟨_, .flags hne hfs hi⟩
          · rw [e2] at hb ⊢
            dsimp only at hb ⊢
            obtain ⟨is, hi⟩ := ih ws hl' (fun hx => hb (by simp [hx]))
            rw [e1]
            exact ⟨_, .glued hfs g1 g2 g3 g4 hi⟩
          · rw [e2] at hb ⊢
            dsimp only at hb ⊢
            cases ws with
            | nil => simp at hb
            | cons a ws' =>
              dsimp only at hb ⊢
              obtain ⟨is, hi⟩ := ih ws' (by simp at hl'; omega) (fun hx => hb (by simp [hx]))
              rw [e1]
              exact ⟨_, .next hfs g1 g2 g3 hi⟩

/-- The items of a command line have the names of options and arguments where they should. -/
theorem Cmdline.items {posix : Bool} {ws : List Bytes} {is : List Item} {ps : List Bytes} (hc : Cmdline ds posix ws is ps) :
    ∀ i ∈ is, ∃ d ∈ ds, d.long = i.name ∧ i.arg.isSome = d.arg := by
  have hn : ∀ {w : Bytes} {d : Doc}, Names ds w d → d ∈ ds := by
    intro w d h; cases h with
    | full h => exact h
    | part h => exact h
  have hfl : ∀ {fs : List Doc}, Flags ds fs → ∀ i ∈ fs.map (fun d => (⟨d.long, none⟩ : Item)), ∃ d ∈ ds, d.long = i.name ∧ i.arg.isSome = d.arg := by
    intro fs hf i hi
    obtain ⟨d, hd, rfl⟩ := List.mem_map.1 hi
    obtain ⟨h1, h2, _⟩ := hf d hd
    exact ⟨d, h1, rfl, by simp [h2]⟩
  induction hc with
  | nil => intro i hi; cases hi
  | stop ws => intro i hi; cases hi
  | word _ _ _ ih => exact ih
  | words _ _ => intro i hi; cases hi
  | long h1 h2 _ ih =>
    intro i hi
    rcases List.mem_cons.1 hi with rfl | hi
    · exact ⟨_, hn h1, rfl, by simp [h2]⟩
    · exact ih i hi
  | longNext h1 h2 _ ih =>
    intro i hi
    rcases List.mem_cons.1 hi with rfl | hi
    · exact ⟨_, hn h1, rfl, by simp [h2]⟩
    · exact ih i hi
  | longEq h1 h2 _ ih =>
    intro i hi
    rcases List.mem_cons.1 hi with rfl | hi
    · exact ⟨_, hn h1, rfl, by simp [h2]⟩
    · exact ih i hi
  | flags _ hf _ ih =>
    intro i hi
    rcases List.mem_append.1 hi with hi | hi
    · exact hfl hf i hi
    · exact ih i hi
  | glued hf hd _ ha _ _ ih =>
    intro i hi
    rcases List.mem_append.1 hi with hi | hi
    · exact hfl hf i hi
    · rcases List.mem_cons.1 hi with rfl | hi
      · exact ⟨_, hd, rfl, by simp [ha]⟩
      · exact ih i hi
  | next hf hd _ ha _ ih =>
    intro i hi
    rcases List.mem_append.1 hi with hi | hi
    · exact hfl hf i hi
    · rcases List.mem_cons.1 hi with rfl | hi
      · exact ⟨_, hd, rfl, by simp [ha]⟩
      · exact ih i hi

end Verif.Start
