import Verif.DbOpen.Lemmas
/-! # Lemmas for C18–C20: the upgrade steps on a sound database -/
namespace Verif.DbOpen
open Verif Verif.Db

/-- A schema with one table replaced. -/
def setSch (sch : T → Option (List Col)) (t : T) (x : Option (List Col)) : T → Option (List Col) :=
  fun t' => if t' = t then x else sch t'

theorem TabsOk.set {sch ts} (h : TabsOk sch ts) (t : T) {cols x} (hx : TabOk cols x) :
    TabsOk (setSch sch t (some cols)) (setTab ts t (some x)) := by
  intro t'
  unfold setSch setTab
  by_cases ht : t' = t
  · simp only [ht, if_true]
    exact ⟨by simp, fun cols' hc => ⟨x, rfl, by cases hc; exact hx⟩⟩
  · simp only [ht, if_false]
    exact h t'

/-- One step from version `v` to `v + 1`, seen from outside. -/
structure StepOk (v : Nat) (f : File) : Prop where
  ex : ∃ f', runAll (upgradePath v) { durable := f } = some { durable := f' } ∧ Layout (v + 1) f' ∧
    Keeps f f' ∧ ∀ c ∈ prefixes (upgradePath v) { durable := f },
      c.durable = f ∨ c.durable = f' ∨ (Between (v + 1) c.durable ∧ Keeps f c.durable)
  mid : v < 6 → ∃ i c, i < (upgradePath v).length ∧
    (prefixes (upgradePath v) { durable := f })[i]? = some c ∧ Between (v + 1) c.durable

theorem column_set_ne (f : File) (v : Int) (i : Bool) {t t' : T} (x : Option Table) (c : Cn)
    (h : t' ≠ t) :
    column { version := v, tables := setTab f.tables t x, idx := i } t' c = column f t' c := by
  simp [column, setTab, h]

theorem keeps_version (f : File) (v : Int) (i : Bool) :
    Keeps f { version := v, tables := f.tables, idx := i } :=
  ⟨fun _ _ _ h => .inl h, fun t c vs h h' => by
    have : column { version := v, tables := f.tables, idx := i } t c = column f t c := rfl
    rw [this, h] at h'; simp at h'⟩

theorem keeps_addCol {f : File} {t : T} {x : Table} {n : Cn} (v : Int) (i : Bool)
    (hx : f.tables t = some x) (ha : ∀ r ∈ x.rows, r.length = x.cols.length)
    (hn : x.cols.any (·.name == n) = false) :
    Keeps f { version := v, tables := setTab f.tables t (some (addColT x n)), idx := i } := by
  have hn' : n ∉ x.cols.map (·.name) := by rw [← any_name_iff, hn]; simp
  refine ⟨?_, ?_⟩
  · intro t' c vs hc
    left
    by_cases ht : t' = t
    · subst ht
      simp only [column, hx, Option.bind_some] at hc
      simp only [column, setTab, if_true, Option.bind_some]
      split at hc
      · rename_i h1
        cases hc
        rw [if_pos]
        · rw [addColT_values_old ha (any_name_iff.1 h1)]
        · simp only [addColT, List.any_append, h1, Bool.true_or]
      · simp at hc
    · rw [column_set_ne _ _ _ _ _ ht]; exact hc
  · intro t' c vs hc hv
    right
    by_cases ht : t' = t
    · subst ht
      simp only [column, hx, Option.bind_some] at hc
      simp only [column, setTab, if_true, Option.bind_some] at hv
      split at hc
      · simp at hc
      · rename_i h1
        split at hv
        · rename_i h2
          have : c = n := by
            simp only [addColT, List.any_append, Bool.or_eq_true] at h2
            rcases h2 with h2 | h2
            · exact absurd h2 h1
            · simp at h2; exact h2.symm
          subst this
          cases hv
          exact addColT_values_new ha hn'
        · simp at hv
    · rw [column_set_ne _ _ _ _ _ ht, hc] at hv; simp at hv

/-- ADD COLUMN outside a transaction. -/
theorem step_addCol {f : File} {t : T} {x : Table} {n : Cn} (hx : f.tables t = some x)
    (hn : x.cols.any (·.name == n) = false) :
    step { durable := f } (.addCol t n) =
      some { durable := { f with tables := setTab f.tables t (some (addColT x n)) } } := by
  simp [step, Conn.table, Conn.cur, hx, hn, Conn.setTable, Conn.put, addColT]

theorem step_pragma (f : File) (v : Int) :
    step { durable := f } (.pragma v) = some { durable := { f with version := v } } := by
  simp [step, Conn.cur, Conn.put]

/-- Steps 1, 2 and 4: one new column, then the version number. -/
theorem stepOk_addCol (v : Nat) (n : Cn) (f : File) (hv : v + 1 ≤ 6)
    (hp : upgradePath v = [.addCol .subscriber n, .pragma ((v + 1 : Nat) : Int)])
    (hs : setSch (schema v) .subscriber (some (subscriberCols v ++ [pl n])) = schema (v + 1))
    (hn : (subscriberCols v).any (·.name == n) = false) (h : Layout v f) : StepOk v f := by
  obtain ⟨x, hx, hok⟩ := (h.2 .subscriber).2 _ rfl
  have hn' : x.cols.any (·.name == n) = false := by rw [hok.any]; exact hn
  have hl := h.2.set .subscriber (hok.addCol hn)
  rw [hs] at hl
  refine ⟨⟨{ version := ((v + 1 : Nat) : Int), idx := f.idx
             tables := setTab f.tables .subscriber (some (addColT x n)) }, ?_, ⟨rfl, hl⟩,
    keeps_addCol _ _ hx hok.arity hn', ?_⟩, fun _ => ⟨1, _, by simp [hp], by
      rw [hp]
      simp only [prefixes, step_addCol hx hn', step_pragma]
      rfl, ⟨by omega, hv, by simp [h.1], .inl hl⟩⟩⟩
  · rw [hp]
    simp only [runAll, step_addCol hx hn', step_pragma]
  · intro c hc
    rw [hp] at hc
    simp only [prefixes, step_addCol hx hn', step_pragma, List.mem_cons, List.not_mem_nil,
      or_false] at hc
    rcases hc with rfl | rfl | rfl
    · exact .inl rfl
    · refine .inr (.inr ⟨⟨by omega, hv, ?_, .inl hl⟩, keeps_addCol _ _ hx hok.arity hn'⟩)
      simp [h.1]
    · exact .inr (.inl rfl)

theorem stepOk0 (f : File) (h : Layout 0 f) : StepOk 0 f :=
  stepOk_addCol 0 .lastLuSeen f (by omega) rfl (by funext t; cases t <;> rfl) rfl h
theorem stepOk1 (f : File) (h : Layout 1 f) : StepOk 1 f :=
  stepOk_addCol 1 .imei f (by omega) rfl (by funext t; cases t <;> rfl) rfl h
theorem stepOk3 (f : File) (h : Layout 3 f) : StepOk 3 f :=
  stepOk_addCol 3 .lastLuSeenPs f (by omega) rfl (by funext t; cases t <;> rfl) rfl h

theorem stepOk4 (f : File) (h : Layout 4 f) : StepOk 4 f := by
  obtain ⟨x, hx, hok⟩ := (h.2 .subscriber).2 _ rfl
  have hn1 : x.cols.any (·.name == .vlrViaProxy) = false := by rw [hok.any]; rfl
  have hok1 := hok.addCol (n := .vlrViaProxy) rfl
  have hn2 : (addColT x .vlrViaProxy).cols.any (·.name == .sgsnViaProxy) = false := by
    rw [hok1.any]; rfl
  have hok2 := hok1.addCol (n := .sgsnViaProxy) rfl
  have hl1 := h.2.set .subscriber hok1
  have hl2 := hl1.set .subscriber hok2
  have hs : setSch (setSch (schema 4) .subscriber (some (subscriberCols 4 ++ [pl .vlrViaProxy])))
      .subscriber (some (subscriberCols 4 ++ [pl .vlrViaProxy] ++ [pl .sgsnViaProxy]))
      = schema 5 := by funext t; cases t <;> rfl
  rw [hs] at hl2
  let f1 : File := { f with tables := setTab f.tables .subscriber (some (addColT x .vlrViaProxy)) }
  have hx1 : f1.tables .subscriber = some (addColT x .vlrViaProxy) := by simp [f1, setTab]
  let f2 : File := { f with
    tables := setTab f1.tables .subscriber (some (addColT (addColT x .vlrViaProxy) .sgsnViaProxy)) }
  have e1 : step { durable := f } (.addCol .subscriber .vlrViaProxy) = some { durable := f1 } :=
    step_addCol hx hn1
  have e2 : step { durable := f1 } (.addCol .subscriber .sgsnViaProxy) = some { durable := f2 } :=
    step_addCol hx1 hn2
  have k1 : Keeps f f1 := keeps_addCol _ _ hx hok.arity hn1
  have k2 : Keeps f f2 := k1.trans (keeps_addCol _ _ hx1 hok1.arity hn2)
  have k3 : Keeps f { f2 with version := 5 } := k2.trans (keeps_version f2 5 f2.idx)
  refine ⟨⟨{ f2 with version := 5 }, ?_, ⟨rfl, hl2⟩, k3, ?_⟩, fun _ => ⟨2, { durable := f2 },
    by simp [upgradePath], by simp only [upgradePath, prefixes, e1, e2, step_pragma]; rfl,
    ⟨by omega, by omega, by simp [f2, h.1], .inl hl2⟩⟩⟩
  · simp only [upgradePath, runAll, e1, e2, step_pragma]
  · intro c hc
    simp only [upgradePath, prefixes, e1, e2, step_pragma, List.mem_cons, List.not_mem_nil,
      or_false] at hc
    rcases hc with rfl | rfl | rfl | rfl
    · exact .inl rfl
    · exact .inr (.inr ⟨⟨by omega, by omega, by simp [f1, h.1], .inr ⟨rfl, hl1⟩⟩, k1⟩)
    · exact .inr (.inr ⟨⟨by omega, by omega, by simp [f2, h.1], .inl hl2⟩, k2⟩)
    · exact .inr (.inl rfl)

theorem tabOk_empty (cols : List Col) : TabOk cols { cols := cols } :=
  ⟨List.Perm.refl _, by simp, fun col _ => by simp [colOk, Table.values]⟩

theorem stepOk5 (f : File) (h : Layout 5 f) : StepOk 5 f := by
  have hx : f.tables .ind = none := (h.2 .ind).1 rfl
  have hl := h.2.set .ind (tabOk_empty [key .ind, key .vlr])
  have hs : setSch (schema 5) .ind (some [key .ind, key .vlr]) = schema 6 := by
    funext t; cases t <;> rfl
  rw [hs] at hl
  let f1 : File := { f with tables := setTab f.tables .ind (some { cols := indCols }) }
  have e1 : step { durable := f } (.create false .ind indCols) = some { durable := f1 } := by
    simp [step, Conn.cur, hx, Conn.put, f1]
  have k1 : Keeps f f1 := by
    refine ⟨?_, ?_⟩
    · intro t c vs hc
      left
      by_cases ht : t = .ind
      · subst ht; simp [column, hx] at hc
      · rw [← hc]; exact column_set_ne f f.version f.idx _ c ht
    · intro t c vs hc hv
      right
      by_cases ht : t = .ind
      · subst ht
        simp only [column, f1, setTab, if_true, Option.bind_some] at hv
        split at hv
        · cases hv; simp [Table.values]
        · simp at hv
      · have := column_set_ne f f.version f.idx (some { cols := indCols }) c ht
        rw [show column f1 t c = column f t c from this, hc] at hv
        simp at hv
  refine ⟨⟨{ f1 with version := 6 }, ?_, ⟨rfl, hl⟩, k1.trans (keeps_version f1 6 f1.idx), ?_⟩,
    fun _ => ⟨1, { durable := f1 }, by simp [upgradePath], by
      simp only [upgradePath, prefixes, e1, step_pragma]; rfl,
      ⟨by omega, by omega, by simp [f1, h.1], .inl hl⟩⟩⟩
  · simp only [upgradePath, runAll, e1, step_pragma]
  · intro c hc
    simp only [upgradePath, prefixes, e1, step_pragma, List.mem_cons, List.not_mem_nil,
      or_false] at hc
    rcases hc with rfl | rfl | rfl
    · exact .inl rfl
    · exact .inr (.inr ⟨⟨by omega, by omega, by simp [f1, h.1], .inl hl⟩, k1⟩)
    · exact .inr (.inl rfl)

end Verif.DbOpen
