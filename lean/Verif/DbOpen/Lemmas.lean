import Verif.DbOpen.Spec
/-! # Lemmas for C18–C20: statement sequences -/
namespace Verif.DbOpen
open Verif Verif.Db

/-- All connection states on the way through a list of statements. -/
def prefixes : List Stmt → Conn → List Conn
  | [], c => [c]
  | st :: l, c => c :: match step c st with
    | none => []
    | some c' => prefixes l c'

/-- All statements succeed. -/
def runAll : List Stmt → Conn → Option Conn
  | [], c => some c
  | st :: l, c => match step c st with
    | none => none
    | some c' => runAll l c'

def Res.conn : Res → Conn
  | .done c _ => c
  | .err c _ => c
  | .died c => c

theorem mem_prefixes_self (l : List Stmt) (c : Conn) : c ∈ prefixes l c := by
  cases l <;> simp [prefixes]

theorem run_mem (l : List Stmt) (c : Conn) (s : Script) : (run l c s).conn ∈ prefixes l c := by
  induction l generalizing c s with
  | nil => simp [run, prefixes, Res.conn]
  | cons st l ih =>
    match s with
    | [] =>
      simp only [run, prefixes]
      cases step c st with
      | none => simp [Res.conn]
      | some c' => exact List.mem_cons_of_mem _ (ih c' [])
    | .ok :: s =>
      simp only [run, prefixes]
      cases step c st with
      | none => simp [Res.conn]
      | some c' => exact List.mem_cons_of_mem _ (ih c' s)
    | .ioerr :: s => simp [run, prefixes, Res.conn]
    | .crash :: s => simp [run, prefixes, Res.conn]

theorem run_done (l : List Stmt) (c : Conn) (s : Script) {c' s'} (h : run l c s = .done c' s') :
    runAll l c = some c' := by
  induction l generalizing c s with
  | nil => simp [run] at h; simp [runAll, h.1]
  | cons st l ih =>
    match s with
    | [] =>
      simp only [run] at h
      simp only [runAll]
      split at h
      · simp at h
      · rename_i c1 hc; rw [hc]; exact ih c1 [] h
    | .ok :: s =>
      simp only [run] at h
      simp only [runAll]
      split at h
      · simp at h
      · rename_i c1 hc; rw [hc]; exact ih c1 s h
    | .ioerr :: s => simp [run] at h
    | .crash :: s => simp [run] at h

theorem run_nil (l : List Stmt) (c : Conn) {c'} (h : runAll l c = some c') :
    run l c [] = .done c' [] := by
  induction l generalizing c with
  | nil => simp [runAll] at h; simp [run, h]
  | cons st l ih =>
    simp only [run]
    simp only [runAll] at h
    split at h
    · simp at h
    · rename_i c1 hc; rw [hc]; exact ih c1 h

theorem run_none {l : List Stmt} {c : Conn} (h : runAll l c = none) (s : Script) (c' s') :
    run l c s ≠ .done c' s' := by
  intro h'
  have := run_done l c s h'
  simp [h] at this

theorem run_crash (l : List Stmt) (c : Conn) (i : Nat) {c'} (hi : i < l.length)
    (h : (prefixes l c)[i]? = some c') :
    run l c (List.replicate i .ok ++ [.crash]) = .died c' := by
  induction l generalizing c i with
  | nil => simp at hi
  | cons st l ih =>
    cases i with
    | zero => simp only [prefixes, List.getElem?_cons_zero, Option.some.injEq] at h; simp [run, h]
    | succ i =>
      simp only [prefixes, List.getElem?_cons_succ] at h
      simp only [List.replicate_succ, List.cons_append, run]
      split at h
      · simp at h
      · rename_i c1 hc
        rw [hc]
        exact ih c1 i (by simpa using hi) h

/-! ## Tables -/

/-- ALTER TABLE ADD COLUMN on a table. -/
def addColT (x : Table) (n : Cn) : Table :=
  { cols := x.cols ++ [{ name := n }], rows := x.rows.map (· ++ [.null]) }

theorem any_name_iff {l : List Col} {n : Cn} :
    l.any (·.name == n) = true ↔ n ∈ l.map (·.name) := by
  simp [List.any_eq_true, List.mem_map]

theorem TabOk.any {cols : List Col} {x : Table} (h : TabOk cols x) (n : Cn) :
    x.cols.any (·.name == n) = cols.any (·.name == n) := by
  rw [Bool.eq_iff_iff, any_name_iff, any_name_iff]
  exact (h.perm.map _).mem_iff

theorem lookup_append {α β} [BEq α] [LawfulBEq α] (l l' : List (α × β)) (a : α) :
    (l ++ l').lookup a = ((l.lookup a).orElse (fun _ => l'.lookup a)) := by
  induction l with
  | nil => simp [List.lookup]
  | cons p l ih =>
    obtain ⟨k, v⟩ := p
    simp only [List.cons_append, List.lookup]
    cases h : (a == k) <;> simp [ih]

theorem lookup_zip_none {ns : List Cn} {r : List Val} {c : Cn} (h : c ∉ ns) :
    (ns.zip r).lookup c = none := by
  induction ns generalizing r with
  | nil => simp
  | cons n ns ih =>
    cases r with
    | nil => simp
    | cons v r =>
      simp only [List.mem_cons, not_or] at h
      have : (c == n) = false := by simp [h.1]
      simp [List.lookup, this, ih h.2]

theorem lookup_zip_some {ns : List Cn} {r : List Val} {c : Cn} (h : c ∈ ns)
    (hl : r.length = ns.length) : ∃ v, (ns.zip r).lookup c = some v := by
  induction ns generalizing r with
  | nil => simp at h
  | cons n ns ih =>
    cases r with
    | nil => simp at hl
    | cons v r =>
      cases hc : (c == n) with
      | true => exact ⟨v, by simp [List.lookup, hc]⟩
      | false =>
        have hne : c ≠ n := by intro he; subst he; simp at hc
        obtain ⟨w, hw⟩ := ih (r := r) (by simpa [hne] using h) (by simpa using hl)
        exact ⟨w, by simp [List.lookup, hc, hw]⟩

theorem valAt_append_old {cols : List Col} {r : List Val} {n c : Cn}
    (hl : r.length = cols.length) (hc : c ∈ cols.map (·.name)) :
    valAt (cols ++ [{ name := n }]) (r ++ [.null]) c = valAt cols r c := by
  unfold valAt
  rw [List.map_append, List.zip_append (by simp [hl]), lookup_append]
  obtain ⟨v, hv⟩ := lookup_zip_some hc (r := r) (by simp [hl])
  simp [hv]

theorem valAt_append_new {cols : List Col} {r : List Val} {n : Cn}
    (hl : r.length = cols.length) (hc : n ∉ cols.map (·.name)) :
    valAt (cols ++ [{ name := n }]) (r ++ [.null]) n = .null := by
  unfold valAt
  rw [List.map_append, List.zip_append (by simp [hl]), lookup_append, lookup_zip_none hc]
  simp

theorem addColT_values_old {x : Table} {n c : Cn} (ha : ∀ r ∈ x.rows, r.length = x.cols.length)
    (hc : c ∈ x.cols.map (·.name)) : (addColT x n).values c = x.values c := by
  unfold Table.values addColT
  rw [List.map_map]
  apply List.map_congr_left
  intro r hr
  exact valAt_append_old (ha r hr) hc

theorem addColT_values_new {x : Table} {n : Cn} (ha : ∀ r ∈ x.rows, r.length = x.cols.length)
    (hc : n ∉ x.cols.map (·.name)) : ∀ v ∈ (addColT x n).values n, v = .null := by
  intro v hv
  unfold Table.values addColT at hv
  rw [List.map_map, List.mem_map] at hv
  obtain ⟨r, hr, rfl⟩ := hv
  exact valAt_append_new (ha r hr) hc

theorem TabOk.addCol {cols : List Col} {x : Table} (h : TabOk cols x) {n : Cn}
    (hn : cols.any (·.name == n) = false) : TabOk (cols ++ [pl n]) (addColT x n) := by
  have hx : n ∉ x.cols.map (·.name) := by
    rw [← any_name_iff, h.any, hn]; simp
  refine ⟨?_, ?_, ?_⟩
  · exact h.perm.append (List.Perm.refl _)
  · intro r hr
    simp only [addColT, List.mem_map] at hr ⊢
    obtain ⟨r', hr', rfl⟩ := hr
    simp [h.arity r' hr']
  · intro col hcol
    rw [List.mem_append] at hcol
    rcases hcol with hcol | hcol
    · rw [addColT_values_old h.arity]
      · exact h.ok col hcol
      · exact (h.perm.map _).mem_iff.2 (List.mem_map_of_mem hcol)
    · simp only [List.mem_singleton] at hcol
      subst hcol
      exact ⟨by simp [pl], by simp [pl]⟩

/-! ## Keeping data -/

theorem Keeps.refl (f : File) : Keeps f f :=
  ⟨fun _ _ _ h => .inl h, fun t c vs h h' => by simp [h] at h'⟩

theorem Keeps.trans {f g h : File} (h1 : Keeps f g) (h2 : Keeps g h) : Keeps f h := by
  refine ⟨?_, ?_⟩
  · intro t c vs hc
    rcases h1.old t c vs hc with h' | ⟨rfl, rfl, h'⟩
    · exact h2.old t c vs h'
    · rcases h2.old _ _ vs h' with h'' | ⟨_, h'', _⟩
      · exact .inr ⟨rfl, rfl, h''⟩
      · simp at h''
  · intro t c vs hc hv
    cases hg : column g t c with
    | none => exact h2.new t c vs hg hv
    | some ws =>
      rcases h1.new t c ws hc hg with h' | h'
      · exact .inl h'
      · rcases h2.old t c ws hg with h'' | ⟨rfl, rfl, _⟩
        · rw [hv] at h''; cases h''; exact .inr h'
        · exact .inl ⟨rfl, .inr rfl⟩

end Verif.DbOpen
