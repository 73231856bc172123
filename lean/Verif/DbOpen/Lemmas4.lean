import Verif.DbOpen.Lemmas3
/-! # Lemmas for C18–C20: the whole of db_open -/
namespace Verif.DbOpen
open Verif Verif.Db

/-- What every outcome of an upgrade leaves behind. -/
def Between' (v : Nat) (f g : File) : Prop :=
  Keeps f g ∧ ((∃ j, v ≤ j ∧ j ≤ 7 ∧ Layout j g) ∨ ∃ j, v < j ∧ Between j g)

theorem loop_ok (n v : Nat) (hv : v + n = 7) (f : File) (h : Layout v f) :
    (∃ f', upgradeLoop n { durable := f } [] = .done { durable := f' } [] ∧ Layout 7 f' ∧ Keeps f f') ∧
    ∀ s, (∀ c s', upgradeLoop n { durable := f } s = .done c s' →
            ∃ f', c = { durable := f' } ∧ Layout 7 f' ∧ Keeps f f') ∧
         Between' v f (upgradeLoop n { durable := f } s).conn.durable := by
  induction n generalizing v f with
  | zero =>
    have : v = 7 := by omega
    subst this
    refine ⟨⟨f, rfl, h, Keeps.refl f⟩, fun s => ⟨?_, Keeps.refl f, .inl ⟨7, by omega, by omega, h⟩⟩⟩
    intro c s' hc
    simp only [upgradeLoop, Res.done.injEq] at hc
    exact ⟨f, hc.1.symm, h, Keeps.refl f⟩
  | succ n ih =>
    have hn : 6 - n = v := by omega
    obtain ⟨f1, h1, h2, h3, h4⟩ := (stepOk v (by omega) f h).ex
    obtain ⟨⟨f', i1, i2, i3⟩, i4⟩ := ih (v + 1) (by omega) f1 h2
    refine ⟨⟨f', ?_, i2, h3.trans i3⟩, fun s => ?_⟩
    · simp only [upgradeLoop, hn, run_nil _ _ h1, i1]
    · simp only [upgradeLoop, hn]
      have hmem := run_mem (upgradePath v) { durable := f } s
      have hbad : ∀ c ∈ prefixes (upgradePath v) { durable := f }, Between' v f c.durable := by
        intro c hc
        rcases h4 c hc with h | h | ⟨hb, hk⟩
        · rw [h]; exact ⟨Keeps.refl f, .inl ⟨v, by omega, by omega, by assumption⟩⟩
        · rw [h]; exact ⟨h3, .inl ⟨v + 1, by omega, by omega, h2⟩⟩
        · exact ⟨hk, .inr ⟨v + 1, by omega, hb⟩⟩
      cases hr : run (upgradePath v) { durable := f } s with
      | done c s1 =>
        have hc := run_done _ _ _ hr
        rw [h1] at hc
        cases hc
        dsimp only
        obtain ⟨j1, j2, j3⟩ := i4 s1
        refine ⟨?_, h3.trans j2, ?_⟩
        · intro c s' hc
          obtain ⟨f'', q1, q2, q3⟩ := j1 c s' hc
          exact ⟨f'', q1, q2, h3.trans q3⟩
        · rcases j3 with ⟨j, a, b, c⟩ | ⟨j, a, b⟩
          · exact .inl ⟨j, by omega, b, c⟩
          · exact .inr ⟨j, by omega, b⟩
      | err c s1 =>
        rw [hr] at hmem
        exact ⟨by intro c s' hc; simp at hc, hbad c hmem⟩
      | died c =>
        rw [hr] at hmem
        exact ⟨by intro c s' hc; simp at hc, hbad c hmem⟩

/-! ## Preparing statements -/

theorem prepareOk_layout7 {f : File} (h : Layout 7 f) : prepareOk f = true := by
  unfold prepareOk
  rw [List.all_eq_true]
  intro p hp
  have key : ∀ t cols n, schema 7 t = some cols → cols.any (·.name == n) = true →
      (match f.tables t with
        | some x => x.cols.any (·.name == n)
        | none => false) = true := by
    intro t cols n hs hn
    obtain ⟨x, hx, hok⟩ := (h.2 t).2 cols hs
    rw [hx]; dsimp only; rw [hok.any]; exact hn
  have hall : needed.all (fun p => match schema 7 p.1 with
      | some cols => cols.any (·.name == p.2)
      | none => false) = true := by decide
  have := (List.all_eq_true.1 hall) p hp
  split at this
  · rename_i cols hc; exact key _ _ _ hc this
  · simp at this

theorem openEnd_file (v : Int) (c : Conn) (s : Script) : (openEnd v c s).2 = c.durable := by
  unfold openEnd
  split
  · rfl
  · split
    · rfl
    · rfl
    · split <;> rfl

theorem openEnd_opened {v : Int} {c : Conn} {s : Script} (h : (openEnd v c s).1 = .opened) :
    v = 7 ∧ prepareOk c.cur = true := by
  unfold openEnd at h
  split at h
  · simp at h
  · rename_i hv
    split at h
    · simp at h
    · simp at h
    · split at h
      · exact ⟨by omega, by assumption⟩
      · simp at h

theorem openEnd_nil {c : Conn} (h : prepareOk c.cur = true) :
    openEnd 7 c [] = (.opened, c.durable) := by
  simp [openEnd, fate, h]

/-- Upgrading a sound database. -/
theorem openUpgrade_layout {v : Nat} (hv : v ≤ 7) {f : File} (h : Layout v f) :
    (∃ f', openUpgrade true v { durable := f } [] = (.opened, f') ∧ Layout 7 f' ∧ Keeps f f') ∧
    ∀ s, Between' v f (openUpgrade true v { durable := f } s).2 ∧
      ((openUpgrade true v { durable := f } s).1 = .opened →
        Layout 7 (openUpgrade true v { durable := f } s).2) := by
  obtain ⟨⟨f', h1, h2, h3⟩, h4⟩ := loop_ok (7 - v) v (by omega) f h
  refine ⟨⟨f', ?_, h2, h3⟩, fun s => ?_⟩
  · simp only [openUpgrade, if_true, h1]
    exact openEnd_nil (prepareOk_layout7 h2)
  · obtain ⟨j1, j2⟩ := h4 s
    simp only [openUpgrade, if_true]
    cases hr : upgradeLoop (7 - v) { durable := f } s with
    | done c s' =>
      dsimp only
      rw [hr] at j2
      rw [openEnd_file]
      obtain ⟨f'', rfl, q, _⟩ := j1 c s' hr
      exact ⟨j2, fun _ => q⟩
    | err c s' => rw [hr] at j2; exact ⟨j2, by simp⟩
    | died c => rw [hr] at j2; exact ⟨j2, by simp⟩

/-- dbOpen at a version 0 … 7 file that has a subscriber table: either the upgrade
path, or nothing happened. -/
theorem dbOpen_cases {f : File} {v : Nat} (hf : f.version = v) (hv : v ≤ 7)
    (hs : (f.tables .subscriber).isSome = true) (allow : Bool) (s : Script) :
    (∃ s', dbOpen allow f s = openUpgrade allow v { durable := f } s') ∨
      ((dbOpen allow f s).1 ≠ .opened ∧ (dbOpen allow f s).2 = f) := by
  unfold dbOpen
  split
  · right; simp
  · right; simp
  · dsimp only
    rw [if_neg (by omega)]
    split
    · rename_i h0
      have : v = 0 := by omega
      subst this
      split
      · right; simp
      · split
        · left; exact ⟨_, rfl⟩
        · right
          -- bootstrap on a file with a subscriber table: the first statement fails
          obtain ⟨x, hx⟩ := Option.isSome_iff_exists.1 hs
          have hstep : step { durable := f } (.create false .subscriber subscrV7) = none := by
            simp [step, Conn.cur, hx]
          have hp : prefixes bootstrap { durable := f } = [{ durable := f }] := by
            simp [bootstrap, prefixes, hstep]
          have hm := run_mem bootstrap { durable := f } (fate (fate s).2).2
          rw [hp, List.mem_singleton] at hm
          have hn : runAll bootstrap { durable := f } = none := by
            simp [bootstrap, runAll, hstep]
          cases hr : run bootstrap { durable := f } (fate (fate s).2).2 with
          | done c s' => exact absurd hr (run_none hn _ _ _)
          | err c s' => rw [hr] at hm; simp only [Res.conn] at hm; simp [hm]
          | died c => rw [hr] at hm; simp only [Res.conn] at hm; simp [hm]
    · rw [if_pos (by omega)]
      left
      exact ⟨_, by rw [hf]; rfl⟩

theorem Layout.subscriber {v : Nat} {f : File} (h : Layout v f) :
    (f.tables .subscriber).isSome = true := by
  obtain ⟨x, hx, _⟩ := (h.2 .subscriber).2 _ rfl
  simp [hx]

theorem dbOpen_nil {f : File} {v : Nat} (hf : f.version = v) (hv : v ≤ 7)
    (hs : (f.tables .subscriber).isSome = true) (allow : Bool) :
    dbOpen allow f [] = openUpgrade allow v { durable := f } [] := by
  simp only [dbOpen, fate]
  rw [if_neg (by omega)]
  split
  · have : v = 0 := by omega
    subst this
    simp [hs]
  · rw [if_pos (by omega), hf]; rfl

/-! ## Files that can never be opened again -/

/-- If the first step fails and none of its states is durable, nothing happens. -/
theorem stuck_of_step {f : File} {v : Nat} (hf : f.version = v) (hv : v < 7)
    (hs : (f.tables .subscriber).isSome = true)
    (hn : runAll (upgradePath v) { durable := f } = none)
    (hp : ∀ c ∈ prefixes (upgradePath v) { durable := f }, c.durable = f) : Stuck f := by
  intro allow s
  rcases dbOpen_cases hf (by omega) hs allow s with ⟨s', h⟩ | h
  · rw [h]
    unfold openUpgrade
    cases allow with
    | false =>
      simp only [Bool.false_eq_true, if_false]
      refine ⟨fun e => ?_, openEnd_file _ _ _⟩
      have := (openEnd_opened e).1
      omega
    | true =>
      simp only [if_true]
      obtain ⟨n, hn'⟩ : ∃ n, 7 - v = n + 1 := ⟨6 - v, by omega⟩
      have hv' : 6 - n = v := by omega
      rw [hn']
      simp only [upgradeLoop, hv']
      have hm := run_mem (upgradePath v) { durable := f } s'
      cases hr : run (upgradePath v) { durable := f } s' with
      | done c s1 => exact absurd hr (run_none hn _ _ _)
      | err c s1 => rw [hr] at hm; exact ⟨by simp, hp c hm⟩
      | died c => rw [hr] at hm; exact ⟨by simp, hp c hm⟩
  · exact h

/-- A first statement that fails. -/
theorem stuck_of_first {f : File} {v : Nat} (hf : f.version = v) (hv : v < 7)
    (hs : (f.tables .subscriber).isSome = true) {st l} (hp : upgradePath v = st :: l)
    (hst : step { durable := f } st = none) : Stuck f := by
  refine stuck_of_step hf hv hs ?_ ?_
  · simp [hp, runAll, hst]
  · simp [hp, prefixes, hst]

theorem step_addCol_dup {f : File} {t : T} {x : Table} {n : Cn} (hx : f.tables t = some x)
    (hn : x.cols.any (·.name == n) = true) : step { durable := f } (.addCol t n) = none := by
  simp only [step, Conn.table, Conn.cur, Option.orElse, Option.getD_none, hx]
  rw [if_pos hn]

theorem between_stuck {k : Nat} {f : File} (h : Between k f) : Stuck f := by
  obtain ⟨h1, h6, hv, hl⟩ := h
  have dup : ∀ sch : T → Option (List Col), TabsOk sch f.tables →
      ∀ cols n v l, sch .subscriber = some cols → cols.any (·.name == n) = true → f.version = (v : Nat) →
        v < 7 → upgradePath v = .addCol .subscriber n :: l → Stuck f := by
    intro sch ht cols n v l hc hn hf hv hp
    obtain ⟨x, hx, hok⟩ := (ht .subscriber).2 cols hc
    exact stuck_of_first hf hv (by simp [hx]) hp (step_addCol_dup hx (by rw [hok.any]; exact hn))
  rcases hl with hl | ⟨rfl, hl⟩
  · match k, h1, h6 with
    | 1, _, _ => exact dup _ hl _ .lastLuSeen 0 _ rfl rfl (by omega) (by omega) rfl
    | 2, _, _ => exact dup _ hl _ .imei 1 _ rfl rfl (by omega) (by omega) rfl
    | 4, _, _ => exact dup _ hl _ .lastLuSeenPs 3 _ rfl rfl (by omega) (by omega) rfl
    | 5, _, _ => exact dup _ hl _ .vlrViaProxy 4 _ rfl rfl (by omega) (by omega) rfl
    | 6, _, _ =>
      obtain ⟨x, hx, hok⟩ := (hl .ind).2 _ rfl
      obtain ⟨y, hy, _⟩ := (hl .subscriber).2 _ rfl
      exact stuck_of_first (v := 5) (by omega) (by omega) (by simp [hy]) rfl
        (by simp [step, Conn.cur, hx])
    | 3, _, _ =>
      obtain ⟨x, hx, hok⟩ := (hl .subscriber).2 _ rfl
      let c1 : Conn := { durable := f, work := some f }
      let c2 : Conn := { durable := f, work := some f
                         temp := setTab (fun _ => none) .subscriberBackup (some { cols := subscrV3 }) }
      have e1 : step { durable := f } .begin = some c1 := rfl
      have e2 : step c1 (.create true .subscriberBackup subscrV3) = some c2 := rfl
      have e3 : step c2 (.copy .subscriberBackup .subscriber selV2) = none := by
        have t1 : c2.table .subscriberBackup = some { cols := subscrV3 } := rfl
        have t2 : c2.table .subscriber = some x := by
          simp [c2, Conn.table, setTab, Conn.cur, hx]
        simp only [step, t1, t2]
        rw [if_neg]
        simp only [hok.any]; decide
      refine stuck_of_step (v := 2) (by omega) (by omega) (by simp [hx]) ?_ ?_
      · simp [upgradePath, runAll, e1, e2, e3]
      · intro c hc
        simp only [upgradePath, prefixes, e1, e2, e3, List.mem_cons, List.not_mem_nil, or_false] at hc
        rcases hc with rfl | rfl | rfl <;> rfl
  · exact dup _ hl _ .vlrViaProxy 4 _ rfl rfl (by omega) (by omega) rfl

end Verif.DbOpen
