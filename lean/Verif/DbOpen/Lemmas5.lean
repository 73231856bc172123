import Verif.DbOpen.Lemmas4
/-! # Lemmas for C18–C20: bootstrap, and what "opened" implies for any file -/
namespace Verif.DbOpen
open Verif Verif.Db

theorem runAll_append (l l' : List Stmt) (c : Conn) :
    runAll (l ++ l') c = (runAll l c).bind (runAll l') := by
  induction l generalizing c with
  | nil => simp [runAll]
  | cons st l ih =>
    simp only [List.cons_append, runAll]
    cases step c st with
    | none => simp
    | some c' => simp [ih]

theorem version_of_step6 {c c' : Conn} (h : runAll (upgradePath 6) c = some c') :
    c'.durable.version = 7 ∧ c'.work = none := by
  have : upgradePath 6 = [.begin, .rename .auc3g .oldAuc3g, .create false .auc3g auc3gCols,
      .copy .auc3g .oldAuc3g [.subscriberId, .algoId3g, .k, .op, .opc, .sqn, .indBitlen],
      .drop .oldAuc3g] ++ [.pragma 7, .commit] := rfl
  rw [this, runAll_append] at h
  cases h1 : runAll [.begin, .rename .auc3g .oldAuc3g, .create false .auc3g auc3gCols,
      .copy .auc3g .oldAuc3g [.subscriberId, .algoId3g, .k, .op, .opc, .sqn, .indBitlen],
      .drop .oldAuc3g] c with
  | none => rw [h1] at h; simp at h
  | some c1 =>
    rw [h1] at h
    simp only [Option.bind_some, runAll, step] at h
    cases hw : c1.work with
    | none => simp [Conn.put, hw] at h
    | some g =>
      simp only [Conn.put, hw, Option.some.injEq] at h
      subst h
      simp

theorem version_of_loop (n : Nat) (c : Conn) (s : Script) {c' s'} (hn : n ≤ 6)
    (h : upgradeLoop (n + 1) c s = .done c' s') : c'.durable.version = 7 ∧ c'.work = none := by
  induction n generalizing c s with
  | zero =>
    simp only [upgradeLoop] at h
    cases hr : run (upgradePath (6 - 0)) c s with
    | done c1 s1 =>
      rw [hr] at h
      simp only [Res.done.injEq] at h
      rw [← h.1]
      exact version_of_step6 (run_done _ _ _ hr)
    | err c1 s1 => rw [hr] at h; simp at h
    | died c1 => rw [hr] at h; simp at h
  | succ n ih =>
    rw [upgradeLoop] at h
    cases hr : run (upgradePath (6 - (n + 1))) c s with
    | done c1 s1 => rw [hr] at h; exact ih c1 s1 (by omega) h
    | err c1 s1 => rw [hr] at h; simp at h
    | died c1 => rw [hr] at h; simp at h

theorem step_work_create {c c' : Conn} {t cols} (h : step c (.create false t cols) = some c')
    (hw : c.work = none) : c'.work = none := by
  simp only [step] at h
  split at h
  · simp at h
  · simp only [Conn.put, hw, Option.some.injEq] at h
    subst h; rfl

theorem step_work_idx {c c' : Conn} (h : step c .createIdx = some c')
    (hw : c.work = none) : c'.work = none := by
  simp only [step] at h
  split at h
  · simp at h
  · split at h
    · simp at h
    · split at h
      · simp only [Conn.put, hw, Option.some.injEq] at h
        subst h; rfl
      · simp at h

theorem version_of_bootstrap {f : File} {c : Conn} (h : runAll bootstrap { durable := f } = some c) :
    c.durable.version = 7 ∧ c.work = none := by
  simp only [bootstrap, runAll] at h
  repeat (split at h; · simp at h)
  rename_i c1 h1 _ c2 h2 _ c3 h3 _ c4 h4 _ c5 h5 _ c6 h6 _ c7 h7 _ c8 h8
  have w1 := step_work_create h1 rfl
  have w2 := step_work_create h2 w1
  have w3 := step_work_create h3 w2
  have w4 := step_work_create h4 w3
  have w5 := step_work_create h5 w4
  have w6 := step_work_create h6 w5
  have w7 := step_work_idx h7 w6
  simp only [step, Conn.put, w7, Option.some.injEq] at h8
  simp only [Option.some.injEq] at h
  subst h h8
  exact ⟨rfl, rfl⟩

/-- The empty file's way to version 7. -/
theorem bootstrap_empty {f : File} (h : Empty f) :
    ∃ f', runAll bootstrap { durable := f } = some { durable := f' } ∧ Layout 7 f' ∧ f'.idx = true ∧
      (∀ t x, f'.tables t = some x → x.rows = []) ∧
      (∀ c ∈ prefixes bootstrap { durable := f }, c.durable = f ∨ c.durable = f' ∨
        (c.durable.version = 0 ∧ ∃ x, c.durable.tables .subscriber = some x ∧ x.cols = subscrV7)) ∧
      ∃ c, (prefixes bootstrap { durable := f })[1]? = some c ∧ c.durable.version = 0 ∧
        ∃ x, c.durable.tables .subscriber = some x ∧ x.cols = subscrV7 := by
  obtain ⟨hv, hi, ht⟩ := h
  let e (cols : List Col) : Option Table := some { cols := cols }
  let t1 := setTab f.tables .subscriber (e subscrV7)
  let t2 := setTab t1 .subscriberApn (e apnCols)
  let t3 := setTab t2 .subscriberMultiMsisdn (e multiMsisdnCols)
  let t4 := setTab t3 .auc2g (e auc2gCols)
  let t5 := setTab t4 .auc3g (e auc3gCols)
  let t6 := setTab t5 .ind (e indCols)
  let g (ts : T → Option Table) : Conn := { durable := { f with tables := ts } }
  have e1 : step { durable := f } (.create false .subscriber subscrV7) = some (g t1) := by
    simp [step, Conn.cur, Conn.put, ht, g, t1, e]
  have e2 : step (g t1) (.create false .subscriberApn apnCols) = some (g t2) := by
    simp [step, Conn.cur, Conn.put, ht, g, t1, t2, e, setTab]
  have e3 : step (g t2) (.create false .subscriberMultiMsisdn multiMsisdnCols) = some (g t3) := by
    simp [step, Conn.cur, Conn.put, ht, g, t1, t2, t3, e, setTab]
  have e4 : step (g t3) (.create false .auc2g auc2gCols) = some (g t4) := by
    simp [step, Conn.cur, Conn.put, ht, g, t1, t2, t3, t4, e, setTab]
  have e5 : step (g t4) (.create false .auc3g auc3gCols) = some (g t5) := by
    simp [step, Conn.cur, Conn.put, ht, g, t1, t2, t3, t4, t5, e, setTab]
  have e6 : step (g t5) (.create false .ind indCols) = some (g t6) := by
    simp [step, Conn.cur, Conn.put, ht, g, t1, t2, t3, t4, t5, t6, e, setTab]
  let c7 : Conn := { durable := { f with tables := t6, idx := true } }
  let c8 : Conn := { durable := { version := 7, tables := t6, idx := true } }
  have hs6 : t6 .subscriber = some { cols := subscrV7 } := by
    simp [t6, t5, t4, t3, t2, t1, setTab, e]
  have e7 : step (g t6) .createIdx = some c7 := by
    simp [step, Conn.cur, g, hs6, hi, Conn.put, c7, colOk, Table.values]
  have e8 : step c7 (.pragma 7) = some c8 := by
    simp [step, Conn.cur, c7, c8, Conn.put]
  have hp : prefixes bootstrap { durable := f }
      = [{ durable := f }, g t1, g t2, g t3, g t4, g t5, g t6, c7, c8] := by
    simp only [bootstrap, prefixes, e1, e2, e3, e4, e5, e6, e7, e8]
  refine ⟨{ version := 7, tables := t6, idx := true }, ?_, ⟨rfl, ?_⟩, rfl, ?_, ?_, ?_⟩
  · simp only [bootstrap, runAll, e1, e2, e3, e4, e5, e6, e7, e8]
    rfl
  · have h0 : TabsOk (fun _ => none) f.tables := fun t => ⟨fun _ => ht t, by simp⟩
    have hsub : TabOk (subscriberCols 7) { cols := subscrV7 } :=
      ⟨by decide, by simp, fun col _ => by simp [colOk, Table.values]⟩
    have := (((((h0.set .subscriber hsub).set .subscriberApn (tabOk_empty apnCols)).set
      .subscriberMultiMsisdn (tabOk_empty multiMsisdnCols)).set .auc2g (tabOk_empty auc2gCols)).set
      .auc3g (tabOk_empty auc3gCols)).set .ind (tabOk_empty indCols)
    refine Eq.subst (motive := fun s => TabsOk s t6) ?_ this
    funext t; cases t <;> rfl
  · intro t x hx
    simp only [t6, t5, t4, t3, t2, t1, setTab, e, ht] at hx
    cases t <;> simp at hx <;> rw [← hx]
  · intro c hc
    rw [hp] at hc
    simp only [List.mem_cons, List.not_mem_nil, or_false] at hc
    rcases hc with rfl | rfl | rfl | rfl | rfl | rfl | rfl | rfl | rfl
    · exact .inl rfl
    iterate 7
      refine .inr (.inr ⟨hv, ⟨{ cols := subscrV7 }, ?_, rfl⟩⟩)
      simp [g, c7, t6, t5, t4, t3, t2, t1, setTab, e]
    · exact .inr (.inl rfl)
  · rw [hp]
    exact ⟨g t1, rfl, hv, { cols := subscrV7 }, by simp [g, t1, setTab, e], rfl⟩

/-- A subscriber table of today's layout in a file that says version 0. -/
theorem halfBoot_stuck {f : File} {x : Table} (hv : f.version = 0)
    (hx : f.tables .subscriber = some x) (hc : x.cols = subscrV7) : Stuck f :=
  stuck_of_first (v := 0) hv (by omega) (by simp [hx]) rfl
    (step_addCol_dup hx (by rw [hc]; decide))

end Verif.DbOpen
