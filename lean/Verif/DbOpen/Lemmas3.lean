import Verif.DbOpen.Lemmas2
/-! # Lemmas for C18–C20: the two upgrade steps that copy a table -/
namespace Verif.DbOpen
open Verif Verif.Db

/-- The name a version 3 column had in version 2. -/
def oldName (c : Cn) : Cn := if c = .mscNumber then .hlrNumber else c

theorem valAt_sel2 (g : Cn → Val) (c : Cn) (h : c ∈ selV3) :
    valAt subscrV3 (selV2.map g) c = g (oldName c) := by
  cases c <;> first | rfl | simp [selV3] at h

theorem valAt_sel3 (g : Cn → Val) (c : Cn) (h : c ∈ selV3) :
    valAt subscrV3 (selV3.map g) c = g c := by
  cases c <;> first | rfl | simp [selV3] at h

theorem any_subscrV3 (c : Cn) : subscrV3.any (·.name == c) = true ↔ c ∈ selV3 := by
  cases c <;> decide

/-- subscriber_backup after the first copy. -/
def backupT (x : Table) : Table :=
  { cols := subscrV3, rows := x.rows.map (fun r => selV2.map (valAt x.cols r)) }

/-- The new subscriber table after the second copy. -/
def copyT (x : Table) : Table :=
  { cols := subscrV3, rows := (backupT x).rows.map (fun r => selV3.map (valAt subscrV3 r)) }

theorem backupT_values (x : Table) (c : Cn) (h : c ∈ selV3) :
    (backupT x).values c = x.values (oldName c) := by
  simp only [Table.values, backupT, List.map_map]
  apply List.map_congr_left
  intro r _
  exact valAt_sel2 _ c h

theorem copyT_values (x : Table) (c : Cn) (h : c ∈ selV3) :
    (copyT x).values c = x.values (oldName c) := by
  rw [← backupT_values x c h]
  simp only [Table.values, copyT, List.map_map]
  apply List.map_congr_left
  intro r _
  exact valAt_sel3 _ c h

theorem subscrV3_old : ∀ col ∈ subscrV3, col.name ∈ selV3 ∧
    { col with name := oldName col.name } ∈ subscriberCols 2 := by decide

theorem subscrV3_colOk {x : Table} (h : TabOk (subscriberCols 2) x) :
    ∀ col ∈ subscrV3, colOk col (x.values (oldName col.name)) := by
  intro col hcol
  exact h.ok _ (subscrV3_old col hcol).2

theorem copyT_ok {x : Table} (h : TabOk (subscriberCols 2) x) : TabOk (subscriberCols 3) (copyT x) := by
  have hp : subscrV3.Perm (subscriberCols 3) := by decide
  refine ⟨hp, ?_, ?_⟩
  · intro r hr
    simp only [copyT, List.mem_map] at hr
    obtain ⟨r', _, rfl⟩ := hr
    simp only [copyT, List.length_map]
    rfl
  · intro col hcol
    have hcol := hp.mem_iff.2 hcol
    rw [copyT_values x _ (subscrV3_old col hcol).1]
    exact subscrV3_colOk h col hcol

theorem keeps_copyT {f : File} {x : Table} (v : Int) (i : Bool) (hx : f.tables .subscriber = some x)
    (h : TabOk (subscriberCols 2) x) :
    Keeps f { version := v, tables := setTab f.tables .subscriber (some (copyT x)), idx := i } := by
  have hcol : ∀ c, c ∈ selV3 →
      column { version := v, tables := setTab f.tables .subscriber (some (copyT x)), idx := i }
        .subscriber c = some (x.values (oldName c)) := by
    intro c hc
    simp only [column, setTab, if_true, Option.bind_some]
    rw [if_pos (show ((copyT x).cols.any (·.name == c)) = true from (any_subscrV3 c).2 hc),
      copyT_values x c hc]
  refine ⟨?_, ?_⟩
  · intro t c vs hc
    by_cases ht : t = .subscriber
    · subst ht
      simp only [column, hx, Option.bind_some, h.any] at hc
      split at hc
      · rename_i h1
        cases hc
        by_cases hc : c = .hlrNumber
        · subst hc
          exact .inr ⟨rfl, rfl, hcol .mscNumber (by decide)⟩
        · left
          have hs : c ∈ selV3 ∧ oldName c = c := by
            revert h1 hc
            cases c <;> decide
          rw [hcol c hs.1, hs.2]
      · simp at hc
    · rw [column_set_ne _ _ _ _ _ ht]; exact .inl hc
  · intro t c vs hc hv
    by_cases ht : t = .subscriber
    · subst ht
      simp only [column, hx, Option.bind_some, h.any] at hc
      split at hc
      · simp at hc
      · rename_i h1
        left
        refine ⟨rfl, ?_⟩
        simp only [column, setTab, if_true, Option.bind_some] at hv
        split at hv
        · rename_i h2
          have h2 := (any_subscrV3 c).1 h2
          revert h1 h2
          cases c <;> decide
        · simp at hv
    · rw [column_set_ne _ _ _ _ _ ht, hc] at hv; simp at hv

theorem setTab_setTab (ts : T → Option Table) (t : T) (x y : Option Table) :
    setTab (setTab ts t x) t y = setTab ts t y := by
  funext t'; unfold setTab; split <;> rfl

theorem setTab_none_self (t : T) : setTab (fun _ => none) t none = fun _ => none := by
  funext t'; unfold setTab; split <;> rfl

/-- The connection states of the step to version 3. -/
theorem stepOk2 (f : File) (h : Layout 2 f) : StepOk 2 f := by
  obtain ⟨x, hx, hok⟩ := (h.2 .subscriber).2 _ rfl
  have hl := h.2.set .subscriber (copyT_ok hok)
  have hs : setSch (schema 2) .subscriber (some (subscriberCols 3)) = schema 3 := by
    funext t; cases t <;> rfl
  rw [hs] at hl
  let tb (y : Table) : T → Option Table := setTab (fun _ => none) .subscriberBackup (some y)
  let fd : File := { f with tables := setTab f.tables .subscriber none, idx := false }
  let fe : File := { fd with tables := setTab fd.tables .subscriber (some { cols := subscrV3 }) }
  let ff : File := { f with tables := setTab f.tables .subscriber (some (copyT x)), idx := false }
  let c1 : Conn := { durable := f, work := some f }
  let c2 : Conn := { durable := f, work := some f, temp := tb { cols := subscrV3 } }
  let c3 : Conn := { durable := f, work := some f, temp := tb (backupT x) }
  let c4 : Conn := { durable := f, work := some fd, temp := tb (backupT x) }
  let c5 : Conn := { durable := f, work := some fe, temp := tb (backupT x) }
  let c6 : Conn := { durable := f, work := some ff, temp := tb (backupT x) }
  let c7 : Conn := { durable := f, work := some ff }
  let c8 : Conn := { durable := ff }
  let c9 : Conn := { durable := { ff with version := 3 } }
  have e1 : step { durable := f } .begin = some c1 := rfl
  have e2 : step c1 (.create true .subscriberBackup subscrV3) = some c2 := rfl
  have e3 : step c2 (.copy .subscriberBackup .subscriber selV2) = some c3 := by
    have t1 : c2.table .subscriberBackup = some { cols := subscrV3 } := rfl
    have t2 : c2.table .subscriber = some x := by
      simp [c2, Conn.table, tb, setTab, Conn.cur, hx]
    have t3 : (selV2.all (fun n => x.cols.any (·.name == n)) && selV2.length == subscrV3.length)
        = true := by
      simp only [hok.any]; decide
    simp only [step, t1, t2]
    rw [if_pos t3, if_pos]
    · simp [Conn.setTable, c2, c3, tb, setTab_setTab, backupT]
      simp [setTab]
    · intro col hcol
      have := backupT_values x _ (subscrV3_old col hcol).1
      have e := subscrV3_colOk hok col hcol
      rw [← this] at e
      simpa [backupT] using e
  have e4 : step c3 (.drop .subscriber) = some c4 := by
    simp [step, Conn.table, c3, c4, tb, setTab, Conn.cur, hx, Conn.setTable, Conn.put, fd]
  have e5 : step c4 (.create false .subscriber subscrV3) = some c5 := by
    simp [step, c4, c5, Conn.cur, fd, fe, setTab, Conn.put]
  have e6 : step c5 (.copy .subscriber .subscriberBackup selV3) = some c6 := by
    have t1 : c5.table .subscriber = some { cols := subscrV3 } := by
      simp [c5, Conn.table, tb, setTab, Conn.cur, fe]
    have t2 : c5.table .subscriberBackup = some (backupT x) := rfl
    have t3 : (selV3.all (fun n => (backupT x).cols.any (·.name == n)) &&
        selV3.length == subscrV3.length) = true := by
      simp only [backupT]; decide
    simp only [step, t1, t2]
    rw [if_pos t3, if_pos]
    · simp only [Conn.setTable, c5, c6, tb, setTab]
      simp [Conn.put, Conn.cur, fe, fd, ff, setTab_setTab]
      rfl
    · intro col hcol
      have := copyT_values x _ (subscrV3_old col hcol).1
      have e := subscrV3_colOk hok col hcol
      rw [← this] at e
      simpa [copyT, backupT] using e
  have e7 : step c6 (.drop .subscriberBackup) = some c7 := by
    simp [step, Conn.table, c6, c7, tb, setTab, Conn.setTable]
    funext t; cases t <;> rfl
  have e8 : step c7 .commit = some c8 := rfl
  have e9 : step c8 (.pragma 3) = some c9 := rfl
  have k8 : Keeps f ff := keeps_copyT _ _ hx hok
  refine ⟨⟨{ ff with version := 3 }, ?_, ⟨rfl, hl⟩, k8.trans (keeps_version ff 3 ff.idx), ?_⟩,
    fun _ => ⟨8, c8, by simp [upgradePath], by
      simp only [upgradePath, prefixes, e1, e2, e3, e4, e5, e6, e7, e8, e9]; rfl,
      ⟨by omega, by omega, by simp [c8, ff, h.1], .inl hl⟩⟩⟩
  · simp only [upgradePath, runAll, e1, e2, e3, e4, e5, e6, e7, e8, e9]
    rfl
  · intro c hc
    simp only [upgradePath, prefixes, e1, e2, e3, e4, e5, e6, e7, e8, e9, List.mem_cons,
      List.not_mem_nil, or_false] at hc
    rcases hc with rfl | rfl | rfl | rfl | rfl | rfl | rfl | rfl | rfl | rfl
    iterate 8 exact .inl rfl
    · exact .inr (.inr ⟨⟨by omega, by omega, by simp [c8, ff, h.1], .inl hl⟩, k8⟩)
    · exact .inr (.inl rfl)

/-! ## Step to version 7 -/

def selAuc : List Cn := [.subscriberId, .algoId3g, .k, .op, .opc, .sqn, .indBitlen]

theorem valAt_auc (g : Cn → Val) (c : Cn) (h : c ∈ selAuc) :
    valAt auc3gCols (selAuc.map g) c = g c := by
  cases c <;> first | rfl | simp [selAuc] at h

def aucT (x : Table) : Table :=
  { cols := auc3gCols, rows := x.rows.map (fun r => selAuc.map (valAt x.cols r)) }

theorem aucT_values (x : Table) (c : Cn) (h : c ∈ selAuc) : (aucT x).values c = x.values c := by
  simp only [Table.values, aucT, List.map_map]
  apply List.map_congr_left
  intro r _
  exact valAt_auc _ c h

theorem any_auc (c : Cn) : auc3gCols.any (·.name == c) = true ↔ c ∈ selAuc := by
  cases c <;> decide

theorem auc_name : ∀ col ∈ auc3gCols, col.name ∈ selAuc := by decide

theorem aucT_ok {x : Table} (h : TabOk auc3gCols x) : TabOk auc3gCols (aucT x) := by
  refine ⟨List.Perm.refl _, ?_, ?_⟩
  · intro r hr
    simp only [aucT, List.mem_map] at hr
    obtain ⟨r', _, rfl⟩ := hr
    simp only [aucT, List.length_map]
    rfl
  · intro col hcol
    rw [aucT_values x _ (auc_name col hcol)]
    exact h.ok col hcol

theorem column_aucT {f : File} {x : Table} (v : Int) (i : Bool) (hx : f.tables .auc3g = some x)
    (h : TabOk auc3gCols x) (t : T) (c : Cn) :
    column { version := v, tables := setTab f.tables .auc3g (some (aucT x)), idx := i } t c
      = column f t c := by
  by_cases ht : t = .auc3g
  · subst ht
    simp only [column, setTab, if_true, Option.bind_some, hx, h.any]
    by_cases hc : c ∈ selAuc
    · have := (any_auc c).2 hc
      rw [if_pos (show ((aucT x).cols.any (·.name == c)) = true from this), if_pos this,
        aucT_values x c hc]
    · have : ¬ (auc3gCols.any (·.name == c) = true) := fun e => hc ((any_auc c).1 e)
      rw [if_neg (show ¬ ((aucT x).cols.any (·.name == c)) = true from this), if_neg this]
  · exact column_set_ne _ _ _ _ _ ht

theorem keeps_of_column_eq {f g : File} (h : ∀ t c, column g t c = column f t c) : Keeps f g :=
  ⟨fun t c vs hc => .inl (by rw [h, hc]), fun t c vs hc hv => by rw [h, hc] at hv; simp at hv⟩

/-- Step 7 is atomic. -/
theorem stepOk6' (f : File) (h : Layout 6 f) :
    ∃ f', runAll (upgradePath 6) { durable := f } = some { durable := f' } ∧ Layout 7 f' ∧
      Keeps f f' ∧ ∀ c ∈ prefixes (upgradePath 6) { durable := f },
        c.durable = f ∨ c.durable = f' := by
  obtain ⟨x, hx, hok⟩ := (h.2 .auc3g).2 _ rfl
  have ho : f.tables .oldAuc3g = none := (h.2 .oldAuc3g).1 rfl
  have hok' : TabOk auc3gCols x := hok
  have hl := h.2.set .auc3g (aucT_ok hok')
  have hs : setSch (schema 6) .auc3g (some auc3gCols) = schema 7 := by
    funext t; cases t <;> rfl
  rw [hs] at hl
  let fb : File := { f with tables := setTab (setTab f.tables .auc3g none) .oldAuc3g (some x) }
  let fc : File := { f with tables := setTab fb.tables .auc3g (some { cols := auc3gCols }) }
  let fd : File := { f with tables := setTab fc.tables .auc3g (some (aucT x)) }
  let fe : File := { f with tables := setTab fd.tables .oldAuc3g none }
  let c1 : Conn := { durable := f, work := some f }
  let c2 : Conn := { durable := f, work := some fb }
  let c3 : Conn := { durable := f, work := some fc }
  let c4 : Conn := { durable := f, work := some fd }
  let c5 : Conn := { durable := f, work := some fe }
  let c6 : Conn := { durable := f, work := some { fe with version := 7 } }
  let c7 : Conn := { durable := { fe with version := 7 } }
  have e1 : step { durable := f } .begin = some c1 := rfl
  have e2 : step c1 (.rename .auc3g .oldAuc3g) = some c2 := by
    simp [step, c1, c2, Conn.cur, hx, ho, Conn.put, fb]
  have e3 : step c2 (.create false .auc3g auc3gCols) = some c3 := by
    simp [step, c2, c3, Conn.cur, fb, fc, setTab, Conn.put]
  have e4 : step c3 (.copy .auc3g .oldAuc3g selAuc) = some c4 := by
    have t1 : c3.table .auc3g = some { cols := auc3gCols } := by
      simp [c3, Conn.table, setTab, Conn.cur, fc]
    have t2 : c3.table .oldAuc3g = some x := by
      simp [c3, Conn.table, setTab, Conn.cur, fc, fb]
    have t3 : (selAuc.all (fun n => x.cols.any (·.name == n)) && selAuc.length == auc3gCols.length)
        = true := by
      simp only [hok'.any]; decide
    simp only [step, t1, t2]
    rw [if_pos t3, if_pos]
    · simp [Conn.setTable, c3, c4, fd, Conn.put, Conn.cur, fc, aucT]
    · intro col hcol
      have e := hok'.ok col hcol
      rw [← aucT_values x _ (auc_name col hcol)] at e
      simpa [aucT] using e
  have e5 : step c4 (.drop .oldAuc3g) = some c5 := by
    have t1 : c4.table .oldAuc3g = some x := by
      simp [c4, Conn.table, setTab, Conn.cur, fd, fc, fb]
    simp only [step, t1]
    simp [c4, c5, Conn.setTable, Conn.cur, Conn.put, fe, fd]
  have e6 : step c5 (.pragma 7) = some c6 := rfl
  have e7 : step c6 .commit = some c7 := rfl
  have ht : fe.tables = setTab f.tables .auc3g (some (aucT x)) := by
    funext t
    simp only [fe, fd, fc, fb, setTab]
    by_cases h1 : t = .oldAuc3g
    · subst h1; simp [ho]
    · simp only [h1, if_false]
      by_cases h2 : t = .auc3g <;> simp [h2]
  have hfe : ({ fe with version := 7 } : File)
      = { version := 7, tables := setTab f.tables .auc3g (some (aucT x)), idx := f.idx } := by
    rw [← ht]
  refine ⟨{ fe with version := 7 }, ?_, ?_, ?_, ?_⟩
  · simp only [upgradePath, runAll, e1, e2, e3, e5, e6, e7]
    rw [show ([.subscriberId, .algoId3g, .k, .op, .opc, .sqn, .indBitlen] : List Cn) = selAuc from rfl,
      e4]
    simp only [e5, e6, e7]
    rfl
  · rw [hfe]; exact ⟨rfl, hl⟩
  · rw [hfe]; exact keeps_of_column_eq (column_aucT 7 f.idx hx hok')
  · intro c hc
    have e4' : step c3 (.copy .auc3g .oldAuc3g
        [.subscriberId, .algoId3g, .k, .op, .opc, .sqn, .indBitlen]) = some c4 := e4
    simp only [upgradePath, prefixes, e1, e2, e3, e4', e5, e6, e7, List.mem_cons,
      List.not_mem_nil, or_false] at hc
    rcases hc with rfl | rfl | rfl | rfl | rfl | rfl | rfl | rfl
    iterate 7 exact .inl rfl
    · exact .inr rfl

theorem stepOk6 (f : File) (h : Layout 6 f) : StepOk 6 f := by
  obtain ⟨f', h1, h2, h3, h4⟩ := stepOk6' f h
  exact ⟨⟨f', h1, h2, h3, fun c hc => (h4 c hc).imp id .inl⟩, by omega⟩

theorem stepOk (v : Nat) (hv : v < 7) (f : File) (h : Layout v f) : StepOk v f := by
  match v, hv with
  | 0, _ => exact stepOk0 f h
  | 1, _ => exact stepOk1 f h
  | 2, _ => exact stepOk2 f h
  | 3, _ => exact stepOk3 f h
  | 4, _ => exact stepOk4 f h
  | 5, _ => exact stepOk5 f h
  | 6, _ => exact stepOk6 f h

end Verif.DbOpen
