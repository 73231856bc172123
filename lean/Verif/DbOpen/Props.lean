import Verif.DbOpen.Lemmas5
/-!
# C18–C20: opening and upgrading the database

`dbOpen allow f s` opens the file `f`, with (`allow`) or without permission to
upgrade; the script `s` makes any of its statements fail or the process die before
it.  The vocabulary (`Layout`, `Keeps`, `Stuck`, …) is in `Spec`.
-/
namespace Verif.DbOpen.Props
open Verif Verif.Db Verif.DbOpen

/-! ## Example data -/

/-- A version 0 database with two subscribers and keys for the first. -/
def exV0 : File :=
  { version := 0, idx := true
    tables := fun
      | .subscriber => some
          { cols := subscriberCols 0
            rows := [[.int 1, .text (b "901700000000001"), .text (b "1001"), .null,
                      .text (b "MSC-1"), .text (b "HLR-1"), .null, .null, .null, .null, .null,
                      .null, .null, .int 1, .int 1, .null, .int 0, .int 0],
                     [.int 2, .text (b "901700000000002"), .null, .null,
                      .null, .null, .text (b "SGSN-1"), .null, .null, .null, .null,
                      .null, .null, .int 1, .int 0, .null, .int 0, .int 1]] }
      | .subscriberApn => some { cols := [pl .subscriberId, nn .apn] }
      | .subscriberMultiMsisdn => some { cols := [pl .subscriberId, nn .msisdn] }
      | .auc2g => some { cols := auc2gCols, rows := [[.int 1, .int 1, .text (b "00")]] }
      | .auc3g => some
          { cols := auc3gCols
            rows := [[.int 1, .int 5, .text (b "00"), .null, .text (b "11"), .int 64, .int 5]] }
      | _ => none }

theorem exV0_layout : Layout 0 exV0 := by
  refine ⟨rfl, fun t => ?_⟩
  cases t with
  | subscriber =>
    exact ⟨by simp [schema], fun cols h => by
      cases h
      exact ⟨_, rfl, ⟨List.Perm.refl _, by decide, by decide +kernel⟩⟩⟩
  | subscriberApn =>
    exact ⟨by simp [schema], fun cols h => by
      cases h; exact ⟨_, rfl, ⟨List.Perm.refl _, by decide, by decide +kernel⟩⟩⟩
  | subscriberMultiMsisdn =>
    exact ⟨by simp [schema], fun cols h => by
      cases h; exact ⟨_, rfl, ⟨List.Perm.refl _, by decide, by decide +kernel⟩⟩⟩
  | auc2g =>
    exact ⟨by simp [schema], fun cols h => by
      cases h; exact ⟨_, rfl, ⟨List.Perm.refl _, by decide, by decide +kernel⟩⟩⟩
  | auc3g =>
    exact ⟨by simp [schema], fun cols h => by
      cases h; exact ⟨_, rfl, ⟨List.Perm.refl _, by decide, by decide +kernel⟩⟩⟩
  | ind => exact ⟨fun _ => rfl, by simp [schema]⟩
  | subscriberBackup => exact ⟨fun _ => rfl, by simp [schema]⟩
  | oldAuc3g => exact ⟨fun _ => rfl, by simp [schema]⟩

/-! ## C18: the version decision -/

/-- **C18.** Opening succeeds only with a file of schema version 7 that has every
table and column the program uses: whatever the file, with or without permission,
whatever fails on the way. -/
theorem c18_only_version7 (allow : Bool) (f : File) (s : Script)
    (h : (dbOpen allow f s).1 = .opened) :
    (dbOpen allow f s).2.version = 7 ∧ prepareOk (dbOpen allow f s).2 = true := by
  have hend : ∀ (v : Int) (c : Conn) (s : Script), c.work = none →
      (v = 7 → c.durable.version = 7) → (openEnd v c s).1 = .opened →
      (openEnd v c s).2.version = 7 ∧ prepareOk (openEnd v c s).2 = true := by
    intro v c s hw hv ho
    obtain ⟨h1, h2⟩ := openEnd_opened ho
    rw [openEnd_file]
    refine ⟨hv h1, ?_⟩
    simpa [Conn.cur, hw] using h2
  have hup : ∀ (v : Nat) (c : Conn) (s : Script), c.work = none →
      (v ≥ 7 → c.durable.version = 7) → (openUpgrade allow v c s).1 = .opened →
      (openUpgrade allow v c s).2.version = 7 ∧ prepareOk (openUpgrade allow v c s).2 = true := by
    intro v c s hw hv ho
    unfold openUpgrade at ho ⊢
    split at ho
    · rename_i ha
      subst ha
      simp only [if_true] at ho ⊢
      cases hn : 7 - v with
      | zero =>
        rw [hn] at ho
        simp only [upgradeLoop] at ho ⊢
        exact hend _ _ _ hw (fun _ => hv (by omega)) ho
      | succ n =>
        rw [hn] at ho
        cases hr : upgradeLoop (n + 1) c s with
        | done c' s' =>
          rw [hr] at ho
          obtain ⟨v1, v2⟩ := version_of_loop n c s (by omega) hr
          exact hend _ _ _ v2 (fun _ => v1) ho
        | err c' s' => rw [hr] at ho; simp at ho
        | died c' => rw [hr] at ho; simp at ho
    · rename_i ha
      simp only [ha] at ho ⊢
      exact hend _ _ _ hw (fun e => hv (by omega)) ho
  unfold dbOpen at h ⊢
  cases hf : (fate s).1 with
  | crash => rw [hf] at h; simp at h
  | ioerr => rw [hf] at h; simp at h
  | ok =>
    rw [hf] at h
    dsimp only at h ⊢
    by_cases h1 : f.version < 0
    · rw [if_pos h1] at h; simp at h
    · rw [if_neg h1] at h ⊢
      by_cases h2 : f.version = 0
      · rw [if_pos h2] at h ⊢
        cases hf2 : (fate (fate s).2).1 with
        | crash => rw [hf2] at h; simp at h
        | ok =>
          rw [hf2] at h
          dsimp only at h ⊢
          split at h
          · rename_i h3
            rw [if_pos h3]
            exact hup 0 _ _ rfl (by omega) h
          · rename_i h3
            rw [if_neg h3]
            cases hr : run bootstrap { durable := f } (fate (fate s).2).2 with
            | done c s' =>
              rw [hr] at h
              obtain ⟨v1, v2⟩ := version_of_bootstrap (run_done _ _ _ hr)
              exact hup 7 c s' v2 (fun _ => v1) h
            | err c s' => rw [hr] at h; simp at h
            | died c => rw [hr] at h; simp at h
        | ioerr =>
          rw [hf2] at h
          dsimp only at h ⊢
          rw [if_neg (by simp)] at h ⊢
          cases hr : run bootstrap { durable := f } (fate (fate s).2).2 with
          | done c s' =>
            rw [hr] at h
            obtain ⟨v1, v2⟩ := version_of_bootstrap (run_done _ _ _ hr)
            exact hup 7 c s' v2 (fun _ => v1) h
          | err c s' => rw [hr] at h; simp at h
          | died c => rw [hr] at h; simp at h
      · rw [if_neg h2] at h ⊢
        by_cases h3 : f.version ≤ 7
        · rw [if_pos h3] at h ⊢
          exact hup _ _ _ rfl (fun e => by show f.version = 7; omega) h
        · rw [if_neg h3] at h ⊢
          exact hend _ _ _ rfl (fun e => by show f.version = 7; omega) h

example : (dbOpen true exV0 []).1 = .opened ∧ (dbOpen true {} []).1 = .opened := by
  decide +kernel

/-- **C18.** A file of a newer (or nonsensical) version is refused and left as it is. -/
theorem c18_unknown_version_refused (allow : Bool) (f : File) (s : Script)
    (h : f.version > 7 ∨ f.version < 0) :
    (dbOpen allow f s).1 ≠ .opened ∧ (dbOpen allow f s).2 = f := by
  unfold dbOpen
  split
  · simp
  · simp
  · dsimp only
    split
    · simp
    · rw [if_neg (by omega), if_neg (by omega)]
      refine ⟨fun e => ?_, openEnd_file _ _ _⟩
      have := (openEnd_opened e).1
      omega

example : ({ version := 8 } : File).version > 7 := by decide

/-- **C18.** Without permission to upgrade, an older file is refused and left as it is. -/
theorem c18_no_permission_refused (f : File) (s : Script)
    (h : (0 < f.version ∧ f.version < 7) ∨ (f.version = 0 ∧ (f.tables .subscriber).isSome = true)) :
    (dbOpen false f s).1 ≠ .opened ∧ (dbOpen false f s).2 = f := by
  have hend : ∀ (v : Nat) (s : Script), v ≠ 7 →
      (openUpgrade false v { durable := f } s).1 ≠ .opened ∧
        (openUpgrade false v { durable := f } s).2 = f := by
    intro v s hv
    simp only [openUpgrade, Bool.false_eq_true, if_false]
    refine ⟨fun e => ?_, openEnd_file _ _ _⟩
    have := (openEnd_opened e).1
    omega
  rcases h with h | ⟨h, hs⟩
  · unfold dbOpen
    split
    · simp
    · simp
    · dsimp only
      rw [if_neg (by omega), if_neg (by omega), if_pos (by omega)]
      exact hend _ _ (by omega)
  · rcases dbOpen_cases (v := 0) h (by omega) hs false s with ⟨s', e⟩ | e
    · rw [e]; exact hend _ _ (by omega)
    · exact e

example : exV0.version = 0 ∧ (exV0.tables .subscriber).isSome = true := by decide

/-- **C18.** An empty file is initialised, with or without permission to upgrade, to an
empty database of version 7. -/
theorem c18_empty_initialised (allow : Bool) (f : File) (h : Empty f) :
    ∃ f', dbOpen allow f [] = (.opened, f') ∧ Layout 7 f' ∧
      ∀ t x, f'.tables t = some x → x.rows = [] := by
  obtain ⟨f', h1, h2, _, h4, _, _⟩ := bootstrap_empty h
  refine ⟨f', ?_, h2, h4⟩
  have hb := run_nil _ _ h1
  have hs : f.tables .subscriber = none := h.2.2 _
  simp only [dbOpen, fate, h.1, hs]
  simp only [Int.lt_irrefl, if_false, if_true, Option.isSome_none, Bool.false_eq_true, and_false]
  rw [hb]
  simp only [openUpgrade, upgradeLoop, Nat.sub_self]
  have he := openEnd_nil (c := { durable := f' }) (prepareOk_layout7 h2)
  cases allow <;> simpa using he

example : Empty {} := ⟨rfl, rfl, fun _ => rfl⟩

/-- **C18.** With permission, a sound database of any older version is upgraded to
version 7; without, it is refused (`c18_no_permission_refused`). -/
theorem c18_upgraded (v : Nat) (hv : v ≤ 7) (f : File) (h : Layout v f) :
    ∃ f', dbOpen true f [] = (.opened, f') ∧ Layout 7 f' := by
  obtain ⟨⟨f', h1, h2, _⟩, _⟩ := openUpgrade_layout hv h
  exact ⟨f', by rw [dbOpen_nil h.1 hv h.subscriber]; exact h1, h2⟩

example : Layout 0 exV0 := exV0_layout

/-- **C18.** A sound database of the current version opens and is never changed. -/
theorem c18_current_unchanged (allow : Bool) (f : File) (h : Layout 7 f) :
    dbOpen allow f [] = (.opened, f) ∧ ∀ s, (dbOpen allow f s).2 = f := by
  refine ⟨?_, fun s => ?_⟩
  · rw [dbOpen_nil h.1 (by omega) h.subscriber]
    have he := openEnd_nil (c := { durable := f }) (prepareOk_layout7 h)
    cases allow <;> simpa [openUpgrade, upgradeLoop] using he
  · rcases dbOpen_cases h.1 (by omega) h.subscriber allow s with ⟨s', e⟩ | ⟨_, e⟩
    · rw [e]
      cases allow <;> simp [openUpgrade, upgradeLoop, openEnd_file]
    · exact e

example : ∃ f', Layout 7 f' ∧ (dbOpen true exV0 []).2 = f' :=
  let ⟨f', h1, h2⟩ := c18_upgraded 0 (by omega) exV0 exV0_layout
  ⟨f', h2, by rw [h1]⟩

/-! ## C19: the data survives -/

/-- **C19.** Opening with upgrade a sound database of any version, with any content,
keeps all data at every moment, whatever statement fails and wherever the process
dies: each column of each table has the same value for each row as before
(hlr_number under the name msc_number from version 3 on), and columns that were not
there are NULL. -/
theorem c19_data_kept (v : Nat) (hv : v ≤ 7) (f : File) (h : Layout v f) (allow : Bool)
    (s : Script) : Keeps f (dbOpen allow f s).2 := by
  rcases dbOpen_cases h.1 hv h.subscriber allow s with ⟨s', e⟩ | ⟨_, e⟩
  · rw [e]
    cases allow with
    | true => exact ((openUpgrade_layout hv h).2 s').1.1
    | false =>
      simp only [openUpgrade, Bool.false_eq_true, if_false, openEnd_file]
      exact Keeps.refl f
  · rw [e]; exact Keeps.refl f

/-- **C19**, spelled out for the outcome "opened": each subscriber has the same id,
IMSI, MSISDN, IMEI, serving nodes, NAM and purge flags; keys are the same; the former
hlr_number is the msc_number. -/
theorem c19_after_upgrade (v : Nat) (hv : v ≤ 7) (f : File) (h : Layout v f) (allow : Bool)
    (s : Script) (ho : (dbOpen allow f s).1 = .opened) :
    (∀ c ∈ [Cn.id, .imsi, .msisdn, .imeisv, .vlrNumber, .sgsnNumber, .sgsnAddress, .periodicLuTmr,
        .periodicRauTauTmr, .namCs, .namPs, .lmsi, .msPurgedCs, .msPurgedPs],
      column f .subscriber c ≠ none ∧
        column (dbOpen allow f s).2 .subscriber c = column f .subscriber c) ∧
    (∀ c ∈ [Cn.imei, .lastLuSeen, .lastLuSeenPs, .vlrViaProxy, .sgsnViaProxy],
      column (dbOpen allow f s).2 .subscriber c = column f .subscriber c ∨
        (column f .subscriber c = none ∧ ∃ vs, column (dbOpen allow f s).2 .subscriber c = some vs ∧
          ∀ x ∈ vs, x = .null)) ∧
    (v < 3 → column (dbOpen allow f s).2 .subscriber .mscNumber = column f .subscriber .hlrNumber) ∧
    (∀ t, t = .auc2g ∨ t = .auc3g ∨ t = .subscriberApn ∨ t = .subscriberMultiMsisdn →
      ∀ c, column f t c ≠ none → column (dbOpen allow f s).2 t c = column f t c) := by
  have hk := c19_data_kept v hv f h allow s
  have hc7 : Layout 7 (dbOpen allow f s).2 := by
    rcases dbOpen_cases h.1 hv h.subscriber allow s with ⟨s', e⟩ | ⟨e, _⟩
    · rw [e] at ho ⊢
      cases allow with
      | true => exact ((openUpgrade_layout hv h).2 s').2 ho
      | false =>
        simp only [openUpgrade, Bool.false_eq_true, if_false] at ho ⊢
        rw [openEnd_file]
        have := (openEnd_opened ho).1
        have : v = 7 := by omega
        subst this
        exact h
    · exact absurd ho e
  generalize (dbOpen allow f s).2 = g at hk hc7
  have has : ∀ (k : Nat) (f : File) (t : T) (cols : List Col) (c : Cn), Layout k f →
      schema k t = some cols → cols.any (·.name == c) = true → column f t c ≠ none := by
    intro k f t cols c hl hs hc
    obtain ⟨x, hx, hok⟩ := (hl.2 t).2 cols hs
    simp only [column, hx, Option.bind_some, hok.any]
    rw [if_pos hc]; simp
  have hsame : ∀ t c, ¬ (t = .subscriber ∧ c = .hlrNumber) → column f t c ≠ none →
      column g t c = column f t c := by
    intro t c hne hc
    obtain ⟨vs, hvs⟩ := Option.ne_none_iff_exists'.1 hc
    rcases hk.old t c vs hvs with e | ⟨e1, e2, _⟩
    · rw [e, hvs]
    · exact absurd ⟨e1, e2⟩ hne
  have hbase : ∀ k ≤ 7, ∀ c ∈ [Cn.id, .imsi, .msisdn, .imeisv, .vlrNumber, .sgsnNumber, .sgsnAddress,
      .periodicLuTmr, .periodicRauTauTmr, .namCs, .namPs, .lmsi, .msPurgedCs, .msPurgedPs],
      (subscriberCols k).any (·.name == c) = true ∧ c ≠ .hlrNumber := by decide
  refine ⟨?_, ?_, ?_, ?_⟩
  · intro c hc
    obtain ⟨b1, b2⟩ := hbase v hv c hc
    have := has v f .subscriber _ c h rfl b1
    exact ⟨this, hsame _ _ (by simp [b2]) this⟩
  · intro c hc
    have hc' : c ≠ .hlrNumber ∧ c ≠ .mscNumber ∧ (subscriberCols 7).any (·.name == c) = true := by
      revert hc; cases c <;> decide
    cases hn : column f .subscriber c with
    | some vs => left; rw [← hn]; exact hsame _ _ (by simp [hc'.1]) (by simp [hn])
    | none =>
      right
      obtain ⟨vs, hvs⟩ := Option.ne_none_iff_exists'.1 (has 7 g .subscriber _ c hc7 rfl hc'.2.2)
      refine ⟨rfl, vs, hvs, ?_⟩
      rcases hk.new _ _ _ hn hvs with ⟨_, e | e⟩ | e
      · exact absurd e hc'.2.1
      · exact absurd e hc'.1
      · exact e
  · intro hv3
    have hh : (subscriberCols v).any (·.name == .hlrNumber) = true := by
      have : ∀ v < 3, (subscriberCols v).any (·.name == .hlrNumber) = true := by decide
      exact this v hv3
    obtain ⟨vs, hvs⟩ := Option.ne_none_iff_exists'.1 (has v f .subscriber _ .hlrNumber h rfl hh)
    rcases hk.old _ _ _ hvs with e | ⟨_, _, e⟩
    · obtain ⟨x, hx, hok⟩ := (hc7.2 .subscriber).2 _ rfl
      have : ¬ (subscriberCols 7).any (·.name == .hlrNumber) = true := by decide
      simp only [column, hx, Option.bind_some, hok.any] at e
      rw [if_neg this] at e
      simp at e
    · rw [e, hvs]
  · intro t ht c hc
    refine hsame t c ?_ hc
    rintro ⟨rfl, _⟩
    simp at ht

example : column (dbOpen true exV0 []).2 .subscriber .mscNumber
      = some [.text (b "HLR-1"), .null] ∧
    column (dbOpen true exV0 []).2 .subscriber .sgsnNumber = some [.null, .text (b "SGSN-1")] ∧
    column (dbOpen true exV0 []).2 .auc3g .sqn = some [.int 64] := by
  decide +kernel

/-! ## C20: crashes during an upgrade -/

/-- **C20 (violated).** From every sound database of version 0 … 5, whatever its
content, there is a crash point in the very next upgrade step after which the file can
never be opened again: the tables are those of the new version, the version number is
still the old one. -/
theorem c20_upgrade_crash_violated (v : Nat) (hv : v ≤ 5) (f : File) (h : Layout v f) :
    ∃ s, (dbOpen true f s).1 = .died ∧ Stuck (dbOpen true f s).2 := by
  obtain ⟨i, c, hi, hc, hb⟩ := (stepOk v (by omega) f h).mid (by omega)
  have hr := run_crash _ _ i hi hc
  have hs := h.subscriber
  obtain ⟨n, hn⟩ : ∃ n, 7 - v = n + 1 := ⟨6 - v, by omega⟩
  have hn' : 6 - n = v := by omega
  have hu : openUpgrade true v { durable := f } (List.replicate i .ok ++ [.crash])
      = (.died, c.durable) := by
    simp only [openUpgrade, if_true, hn, upgradeLoop, hn', hr]
  by_cases h0 : v = 0
  · subst h0
    refine ⟨.ok :: .ok :: (List.replicate i .ok ++ [.crash]), ?_⟩
    have : dbOpen true f (.ok :: .ok :: (List.replicate i .ok ++ [.crash])) = (.died, c.durable) := by
      simp only [dbOpen, fate]
      rw [if_neg (by rw [h.1]; simp), if_pos (show f.version = 0 from h.1), if_pos ⟨trivial, hs⟩]
      exact hu
    rw [this]
    exact ⟨rfl, between_stuck hb⟩
  · refine ⟨.ok :: (List.replicate i .ok ++ [.crash]), ?_⟩
    have hf := h.1
    have : dbOpen true f (.ok :: (List.replicate i .ok ++ [.crash])) = (.died, c.durable) := by
      simp only [dbOpen, fate]
      rw [if_neg (by omega), if_neg (by omega), if_pos (by omega), hf]
      exact hu
    rw [this]
    exact ⟨rfl, between_stuck hb⟩

/-- **C20 (violated).** The same for the initialisation of an empty file. -/
theorem c20_bootstrap_crash_violated (f : File) (h : Empty f) (allow : Bool) :
    ∃ s, (dbOpen allow f s).1 = .died ∧ Stuck (dbOpen allow f s).2 := by
  obtain ⟨f', _, _, _, _, _, c, hc, hv, x, hx, hcols⟩ := bootstrap_empty h
  have hr := run_crash bootstrap { durable := f } 1 (by decide) hc
  refine ⟨[.ok, .ok, .ok, .crash], ?_⟩
  have hs : f.tables .subscriber = none := h.2.2 _
  have : dbOpen allow f [.ok, .ok, .ok, .crash] = (.died, c.durable) := by
    simp only [dbOpen, fate]
    rw [if_neg (by rw [h.1]; simp), if_pos h.1, if_neg (by simp [hs])]
    have : run bootstrap { durable := f } [.ok, .crash] = .died c := hr
    rw [this]
  rw [this]
  exact ⟨rfl, halfBoot_stuck hv hx hcols⟩

/-- **C20, what holds (partial).** The full statement is "after any failure the next
start completes the upgrade".  Proved: whatever fails and wherever the process dies,
the file is afterwards either a sound database of some version from `v` to 7 — and
then the next undisturbed start with permission opens it as version 7 with all the
original data — or it is one of the states "tables of version j ≤ 6, number j - 1",
which (`c20_upgrade_crash_violated`) cannot be opened but still hold all the data.
Missing: the second case should not exist. -/
theorem c20_crash_partial (v : Nat) (hv : v ≤ 7) (f : File) (h : Layout v f) (allow : Bool)
    (s : Script) :
    (∃ f', dbOpen true (dbOpen allow f s).2 [] = (.opened, f') ∧ Layout 7 f' ∧ Keeps f f') ∨
    (∃ j, v < j ∧ Between j (dbOpen allow f s).2 ∧ Keeps f (dbOpen allow f s).2) := by
  have fin : ∀ g j, j ≤ 7 → Layout j g → Keeps f g →
      ∃ f', dbOpen true g [] = (.opened, f') ∧ Layout 7 f' ∧ Keeps f f' := by
    intro g j hj hl hk
    obtain ⟨⟨f', h1, h2, h3⟩, _⟩ := openUpgrade_layout hj hl
    exact ⟨f', by rw [dbOpen_nil hl.1 hj hl.subscriber]; exact h1, h2, hk.trans h3⟩
  rcases dbOpen_cases h.1 hv h.subscriber allow s with ⟨s', e⟩ | ⟨_, e⟩
  · rw [e]
    cases allow with
    | true =>
      obtain ⟨hk, ⟨j, _, h2, h3⟩ | ⟨j, h1, h2⟩⟩ := ((openUpgrade_layout hv h).2 s').1
      · exact .inl (fin _ j h2 h3 hk)
      · exact .inr ⟨j, h1, h2, hk⟩
    | false =>
      simp only [openUpgrade, Bool.false_eq_true, if_false, openEnd_file]
      exact .inl (fin f v hv h (Keeps.refl f))
  · rw [e]
    exact .inl (fin f v hv h (Keeps.refl f))

/-- **C20 (partial).** The step from version 6 to 7 is safe: after any failure the next
undisturbed start completes it. -/
theorem c20_last_step_partial (v : Nat) (h67 : v = 6 ∨ v = 7) (f : File) (h : Layout v f)
    (allow : Bool) (s : Script) :
    ∃ f', dbOpen true (dbOpen allow f s).2 [] = (.opened, f') ∧ Layout 7 f' ∧ Keeps f f' := by
  rcases c20_crash_partial v (by omega) f h allow s with e | ⟨j, h1, h2, _⟩
  · exact e
  · exact absurd h2.2.1 (by omega)

/-- **C20 (partial).** Any sequence of failing or dying starts, then one undisturbed
start: as long as no start leaves a "between" state, nothing is lost and the last one
succeeds. -/
theorem c20_many_crashes_partial (ss : List Script) (v : Nat) (hv : v ≤ 7) (f : File)
    (h : Layout v f) :
    (∃ f', dbOpen true (ss.foldl (fun g s => (dbOpen true g s).2) f) [] = (.opened, f') ∧
      Layout 7 f' ∧ Keeps f f') ∨
    ∃ j, v < j ∧ Between j (ss.foldl (fun g s => (dbOpen true g s).2) f) ∧
      Keeps f (ss.foldl (fun g s => (dbOpen true g s).2) f) := by
  have stay : ∀ (ss : List Script) g, Stuck g → ss.foldl (fun g s => (dbOpen true g s).2) g = g := by
    intro ss g hg
    induction ss with
    | nil => rfl
    | cons s ss ih => rw [List.foldl_cons, (hg true s).2]; exact ih
  induction ss generalizing v f with
  | nil =>
    left
    obtain ⟨⟨f', h1, h2, h3⟩, _⟩ := openUpgrade_layout hv h
    exact ⟨f', by rw [List.foldl_nil, dbOpen_nil h.1 hv h.subscriber]; exact h1, h2, h3⟩
  | cons s ss ih =>
    rw [List.foldl_cons]
    have hcase : (∃ j, v ≤ j ∧ j ≤ 7 ∧ Layout j (dbOpen true f s).2 ∧ Keeps f (dbOpen true f s).2) ∨
        ∃ j, v < j ∧ Between j (dbOpen true f s).2 ∧ Keeps f (dbOpen true f s).2 := by
      rcases dbOpen_cases h.1 hv h.subscriber true s with ⟨s', e⟩ | ⟨_, e⟩
      · rw [e]
        obtain ⟨hk, ⟨j, h1, h2, h3⟩ | ⟨j, h1, h2⟩⟩ := ((openUpgrade_layout hv h).2 s').1
        · exact .inl ⟨j, h1, h2, h3, hk⟩
        · exact .inr ⟨j, h1, h2, hk⟩
      · rw [e]; exact .inl ⟨v, by omega, hv, h, Keeps.refl f⟩
    rcases hcase with ⟨j, h1, h2, h3, hk⟩ | ⟨j, h1, h2, hk⟩
    · rcases ih j h2 _ h3 with ⟨f', e1, e2, e3⟩ | ⟨j', e1, e2, e3⟩
      · exact .inl ⟨f', e1, e2, hk.trans e3⟩
      · exact .inr ⟨j', by omega, e2, hk.trans e3⟩
    · right
      rw [stay ss _ (between_stuck h2)]
      exact ⟨j, h1, h2, hk⟩

/-- A concrete run: version read, table check, ALTER TABLE take effect, then the
process dies before `PRAGMA user_version = 1`.  The next start fails. -/
example : (dbOpen true exV0 [.ok, .ok, .ok, .crash]).1 = .died ∧
    (dbOpen true (dbOpen true exV0 [.ok, .ok, .ok, .crash]).2 []).1 = .failed ∧
    -- while dying one statement earlier or later is harmless
    (dbOpen true (dbOpen true exV0 [.ok, .ok, .crash]).2 []).1 = .opened ∧
    (dbOpen true (dbOpen true exV0 [.ok, .ok, .ok, .ok, .crash]).2 []).1 = .opened := by
  decide +kernel

end Verif.DbOpen.Props
