import Verif.Upgrade.Lemmas
/-!
# C83: the script run after a package upgrade
-/
namespace Verif.Upgrade
open Verif Verif.Db Verif.DbOpen Verif.Upgrade.Spec

/-- How a run of the script goes, for a sound database. -/
theorem script_cases {v : Nat} {env : Env} {w : World} {d : DbFile} (hs : Sound v env d) (hd : w.db = some d) :
    (∃ s, script env w = .exit s true ∧ v = 7 ∧ At w d (env.hlr 0) s ∧ s.w.active = (after w d (env.hlr 0)).1) ∨
    (∃ s, script env w = .exit s false ∧ At w d (all env) s ∧
      (env.stopOk = false ∨ (∀ n c, env.ends = some (n, c) → 100 ≤ n) ∨ w.backups env.date ≠ none)) ∨
    (∃ s x, script env w = .exit (s.to { s.w with backups := fun t => if t = env.date then x else s.w.backups t }) false ∧
      At w d (all env) s ∧ s.w.active = false ∧ env.cpFails = some x) ∨
    (∃ s b, At w d (all env) s ∧ s.w.active = false ∧ w.backups env.date = none ∧ s.w.db = some b ∧
      (Tidy env w d → b.main = b.view) ∧ env.cpFails = none ∧ s.isActive = (after w d (env.hlr 0 ++ env.hlr 1)).1 ∧
      script env w = (upgrade env (s.to { s.w with backups := fun t => if t = env.date then some b.main else s.w.backups t })).andThen
        (startService env)) := by
  obtain ⟨s1, a1, a2, a3, _, a5, a6⟩ := check_spec hs hd
  rcases a5 with ⟨he, hv⟩ | he
  · exact .inl ⟨s1, by unfold script; rw [he]; rfl, hv, a1, a2⟩
  right
  obtain ⟨s2, b1, _, b3, b4, b5⟩ := stop_spec a1 a2 a3
  rcases b4 with ⟨h2, hw⟩ | ⟨h2, b4⟩
  · exact .inl ⟨s2, by unfold script; rw [he]; show (((stopService env s1).andThen _).andThen _).andThen _ = _; rw [h2]; rfl, b1,
      hw.elim .inl (fun h => .inr (.inl h))⟩
  have e3 : script env w = ((createBackup env s2).andThen (upgrade env)).andThen (startService env) := by
    unfold script; rw [he]; show (((stopService env s1).andThen _).andThen _).andThen _ = _; rw [h2]; rfl
  obtain ⟨b, hb, hbv⟩ := b1.db
  cases hx : s2.w.backups env.date with
  | some y =>
    refine .inl ⟨s2, ?_, b1, .inr (.inr (by rw [← b1.backups, hx]; simp))⟩
    rw [e3]
    unfold createBackup
    rw [if_pos (by simp [hx])]
    rfl
  | none =>
    right
    have e4 : createBackup env s2 = match env.cpFails, s2.w.db with
        | none, some d => .go (s2.to { s2.w with backups := fun t => if t = env.date then some d.main else s2.w.backups t })
        | none, none => .exit s2 false
        | some x, _ => .exit (s2.to { s2.w with backups := fun t => if t = env.date then x else s2.w.backups t }) false := by
      unfold createBackup
      rw [if_neg (by simp [hx])]
      rfl
    cases hc : env.cpFails with
    | some x =>
      refine .inl ⟨s2, x, ?_, b1, b4, rfl⟩
      rw [e3, e4, hc]
      rfl
    | none =>
      refine .inr ⟨s2, b, b1, b4, by rw [← b1.backups]; exact hx, hb, fun ht => ?_, rfl, b3, ?_⟩
      · rcases b5 ht (a6 ht) h2 with h | ⟨d', h, h'⟩
        · rw [hb] at h
          cases h
          rfl
        · rw [hb] at h
          cases h
          exact h'
      · rw [e3, e4, hc, hb]
        rfl

theorem all_layout {v : Nat} {env : Env} {w : World} {d : DbFile} (h : Sound v env d) : Layout v (after w d (all env)).2 := by
  rw [all_eq]; exact after_layout h 3

theorem prefix_layout {v : Nat} {env : Env} {w : World} {d : DbFile} (h : Sound v env d) {e : List HlrEv} (he : e <+: all env) :
    Layout v (after w d e).2 := by
  refine seen_layout h.db (fun f hf => ?_)
  have := he.subset hf
  unfold all at this
  rcases List.mem_append.1 this with this | this
  · rcases List.mem_append.1 this with this | this
    · exact h.written 0 f this
    · exact h.written 1 f this
  · exact h.written 2 f this

theorem hlr0_prefix (env : Env) {e : List HlrEv} (h : e <+: env.hlr 0) : e <+: all env := by
  unfold all
  rw [List.append_assoc]
  exact h.trans (List.prefix_append _ _)

/-- C83: in every situation the script passes through, in which it can be killed, the database holds
everything the HLR had written by then: nothing but the HLR and the upgrade of C19 changes it.  Or the
script has changed it — and then, if the HLR closed its database when it was stopped, there is a backup
with all that was in it. -/
theorem c83_every_moment_partial {v : Nat} {env : Env} {w : World} {d : DbFile} (hs : Sound v env d) (hd : w.db = some d) :
    ∀ x ∈ (script env w).st.trace, ∃ e y, e <+: all env ∧ x.db = some y ∧ Keeps (after w d e).2 y.view ∧
      (Tidy env w d → y.view = (after w d e).2 ∨ x.backups env.date = some (after w d (all env)).2) := by
  have unt : ∀ {evs s}, At w d evs s → evs <+: all env → ∀ x ∈ s.trace, ∃ e y, e <+: all env ∧ x.db = some y ∧
      Keeps (after w d e).2 y.view ∧
      (Tidy env w d → y.view = (after w d e).2 ∨ x.backups env.date = some (after w d (all env)).2) := by
    intro evs s h hp x hx
    obtain ⟨e, y, h1, h2, h3⟩ := h.trace x hx
    exact ⟨e, y, h1.trans hp, h2, by rw [h3]; exact Keeps.refl _, fun _ => .inl h3⟩
  rcases script_cases hs hd with ⟨s, he, _, h, _⟩ | ⟨s, he, h, _⟩ | ⟨s, x, he, h, _, _⟩ | ⟨s, b, h, _, _, hb, hbv, _, _, he⟩
  · rw [he]; exact unt h (hlr0_prefix env List.prefix_rfl)
  · rw [he]; exact unt h List.prefix_rfl
  · rw [he]
    intro y hy
    rcases List.mem_cons.1 hy with rfl | hy
    · obtain ⟨y, h1, h2⟩ := h.db
      exact ⟨_, y, List.prefix_rfl, h1, by rw [h2]; exact Keeps.refl _, fun _ => .inl h2⟩
    · exact unt h List.prefix_rfl y hy
  · obtain ⟨b', hb', hv'⟩ := h.db
    rw [hb] at hb'
    cases hb'
    have hl : Layout v b.view := by rw [hv']; exact all_layout hs
    obtain ⟨s', d', h1, h2, h3, h4, h5⟩ := upgrade_spec hs.old env
      (s := s.to { s.w with backups := fun t => if t = env.date then some b.main else s.w.backups t }) (d := b) hb hl
    rw [hv'] at h3 h4
    have bk : ∀ {x : World}, x.backups = (fun t => if t = env.date then some b.main else s.w.backups t) → Tidy env w d →
        x.backups env.date = some (after w d (all env)).2 := fun hx ht => by
      rw [hx]
      show (if env.date = env.date then _ else _) = _
      rw [if_pos rfl, hbv ht, hv']
    have t' : ∀ x ∈ s'.trace, ∃ e y, e <+: all env ∧ x.db = some y ∧ Keeps (after w d e).2 y.view ∧
      (Tidy env w d → y.view = (after w d e).2 ∨ x.backups env.date = some (after w d (all env)).2) := by
      intro x hx
      rcases h4 x hx with hx | ⟨hx, y, hy, hk⟩
      · rcases List.mem_cons.1 hx with rfl | hx
        · exact ⟨_, b, List.prefix_rfl, hb, by rw [hv']; exact Keeps.refl _, fun _ => .inl hv'⟩
        · exact unt h List.prefix_rfl x hx
      · exact ⟨_, y, List.prefix_rfl, hy, hk, fun ht => .inr (bk hx ht)⟩
    rcases h5 with ⟨h5, _⟩ | ⟨h5, _⟩
    · rw [he, h5]; exact t'
    · obtain ⟨s'', ok, g1, g2, g3, g4, _⟩ := start_spec env s'
      rw [he, h5]
      show ∀ x ∈ (startService env s').st.trace, _
      rw [g1]
      intro x hx
      rcases g4 x hx with hx | rfl
      · exact t' x hx
      · refine ⟨_, d', List.prefix_rfl, by rw [g2, h1], h3, fun ht => .inr (bk ?_ ht)⟩
        rw [g3, h1]
        rfl

/-- C83: when the script succeeds, the database can be opened by the new HLR as it is, everything the
HLR had written is in it, and the service runs if it did.  Either nothing was to be done, and nothing
was; or there is a new backup — of all that was in the database, if the HLR closed it when it was
stopped. -/
theorem c83_success_partial {v : Nat} {env : Env} {w : World} {d : DbFile} (hs : Sound v env d) (hd : w.db = some d)
    (ok : (script env w).ok = true) :
    ∃ y, (script env w).st.w.db = some y ∧ Layout 7 y.view ∧ dbOpen false y.view [] = (.opened, y.view) ∧
      ((∀ k, .die ∉ env.hlr k) → (script env w).st.w.active = w.active) ∧
      (y.view = (after w d (env.hlr 0)).2 ∧ (script env w).st.w.backups = w.backups ∨
       Keeps (after w d (all env)).2 y.view ∧ w.backups env.date = none ∧
        ∃ f, (script env w).st.w.backups = (fun t => if t = env.date then some f else w.backups t) ∧
          (Tidy env w d → f = (after w d (all env)).2)) := by
  rcases script_cases hs hd with ⟨s, he, hv, h, ha⟩ | ⟨s, he, h, _⟩ | ⟨s, x, he, h, _, _⟩ | ⟨s, b, h, hact, hfree, hb, hbv, _, hia, he⟩
  · subst hv
    obtain ⟨y, h1, h2⟩ := h.db
    have hl : Layout 7 y.view := by rw [h2]; exact prefix_layout hs (hlr0_prefix env List.prefix_rfl)
    rw [he]
    refine ⟨y, h1, hl, (Props.c18_current_unchanged false _ hl).1, fun hal => ?_, .inl ⟨h2, h.backups⟩⟩
    show s.w.active = _
    rw [ha]
    exact seen_alive (hal 0)
  · rw [he] at ok; cases ok
  · rw [he] at ok; cases ok
  · obtain ⟨b', hb', hv'⟩ := h.db
    rw [hb] at hb'
    cases hb'
    have hl : Layout v b.view := by rw [hv']; exact all_layout hs
    obtain ⟨s', d', h1, h2, h3, _, h5⟩ := upgrade_spec hs.old env
      (s := s.to { s.w with backups := fun t => if t = env.date then some b.main else s.w.backups t }) (d := b) hb hl
    rw [hv'] at h3
    rcases h5 with ⟨h5, _⟩ | ⟨h5, h7⟩
    · rw [he, h5] at ok; cases ok
    · obtain ⟨s'', ok', g1, g2, g3, _, g5, _⟩ := start_spec env s'
      have e2 : script env w = .exit s'' ok' := by rw [he, h5]; exact g1
      rw [e2] at ok ⊢
      refine ⟨d', by show s''.w.db = _; rw [g2, h1], h7, (Props.c18_current_unchanged false _ h7).1, fun hal => ?_,
        .inr ⟨h3, hfree, b.main, ?_, fun ht => by rw [hbv ht, hv']⟩⟩
      · show s''.w.active = _
        rw [g5 ok, h2]
        show (s.isActive || s'.w.active) = _
        rw [h1]
        show (s.isActive || s.w.active) = _
        rw [hact, hia, Bool.or_false]
        unfold after
        refine seen_alive ?_
        rw [List.mem_append]
        rintro (h | h)
        · exact hal 0 h
        · exact hal 1 h
      · show s''.w.backups = _
        rw [g3, h1]
        show (fun t => if t = env.date then some b.main else s.w.backups t) = _
        rw [h.backups]

/-- C83: a backup made earlier is never overwritten or removed, whatever happens; and no other file
than the one of this run comes to be. -/
theorem c83_no_clobber (env : Env) (w : World) :
    ∀ x ∈ (script env w).st.trace, ∀ t, t ≠ env.date ∨ (w.backups t).isSome = true → x.backups t = w.backups t := by
  have := held_script (Q := fun x => ∀ t, t ≠ env.date ∨ (w.backups t).isSome = true → x.backups t = w.backups t)
    (fun a c h ha t ht => by rw [← h]; exact ha t ht) env
    (fun a x hn ha t ht => by
      show (if t = env.date then x else a.backups t) = _
      split
      · rename_i he
        rcases ht with ht | ht
        · exact absurd he ht
        · exfalso
          have h1 := ha t (.inr ht)
          subst he
          rw [hn] at h1
          rw [← h1] at ht
          cases ht
      · exact ha t ht)
    (w := w) (fun t _ => rfl)
  exact this.2

/-- C83: with no database there is nothing to do. -/
theorem c83_no_database (env : Env) (w : World) (h : w.db = none) : script env w = .exit { w := w, trace := [w] } true := by
  unfold script check
  rw [if_pos (by simp [h])]
  rfl

/-- C83: with a database of the current version that can be opened, the script succeeds and leaves the
database, the backups and the service alone. -/
theorem c83_nothing_to_do {env : Env} {w : World} {d : DbFile} (hs : Sound 7 env d) (hd : w.db = some d)
    (h1 : env.openable 0 = true) (h2 : env.rand 0 = true) (h3 : env.sql 0 = []) :
    (script env w).ok = true ∧ (script env w).st.w.backups = w.backups ∧
      ((script env w).st.w.active, ((script env w).st.w.db.map DbFile.view)) = ((after w d (env.hlr 0)).1, some (after w d (env.hlr 0)).2) := by
  have h0 := during_at (env.hlr 0) (start_at hd) (rfl : w.active = _)
  rw [List.nil_append] at h0
  have hi := during_isActive (env.hlr 0) { w := w, trace := [w] }
  have hl : Layout 7 (after w d (env.hlr 0)).2 := prefix_layout hs (hlr0_prefix env List.prefix_rfl)
  obtain ⟨x, hx, hxv⟩ := h0.1.db
  obtain ⟨_, _, _, _, _, _, h6, _⟩ := tool_db env false _ hx
  have hok : (tool env false (during { w := w, trace := [w] } (env.hlr 0))).1 = true := by
    refine h6.2 ?_
    rw [hi.2, toolOut_eq, if_pos ⟨h2, h1⟩, h3, hxv, (Props.c18_current_unchanged false _ hl).1]
    rfl
  have t := tool_at (Nat.le_refl 7) hl env h0.1
  have e : script env w = .exit (tool env false (during { w := w, trace := [w] } (env.hlr 0))).2 true := by
    unfold script check
    rw [if_neg (by simp [hd])]
    dsimp only
    rw [if_pos hok]
    rfl
  rw [e]
  obtain ⟨y, hy, hyv⟩ := t.1.db
  refine ⟨rfl, t.1.backups, ?_⟩
  show ((tool env false _).2.w.active, (tool env false _).2.w.db.map DbFile.view) = _
  rw [t.2.1, h0.2, hy, ← hyv]
  rfl

/-- C83: an upgrade that nothing disturbs succeeds, from every schema version there has been. -/
theorem c83_completes {v : Nat} {env : Env} {w : World} {d : DbFile} (hs : Sound v env d) (hd : w.db = some d)
    (hu : Undisturbed env w) : (script env w).ok = true := by
  have h7 : ∀ n f, Layout 7 f → (toolOut env n false f).1 = .ok := fun n f hf => by
    rw [toolOut_eq, if_pos ⟨hu.rand n, hu.openable n⟩, hu.sql, (Props.c18_current_unchanged false f hf).1]
    rfl
  have ht : ∀ n f, Layout v f → (toolOut env n true f).1 = .ok := fun n f hf => by
    obtain ⟨f', h1, _⟩ := Props.c18_upgraded v hs.old f hf
    rw [toolOut_eq, if_pos ⟨hu.rand n, hu.openable n⟩, hu.sql, h1]
    rfl
  rcases script_cases hs hd with ⟨s, he, _⟩ | ⟨s, he, _, hw⟩ | ⟨s, x, _, _, _, hx⟩ | ⟨s, b, h, _, _, hb, _, _, _, he⟩
  · rw [he]; rfl
  · exfalso
    rcases hw with hw | hw | hw
    · rw [hu.stop.1] at hw; cases hw
    · obtain ⟨n, c, h1, h2⟩ := hu.stop.2
      have := hw n c h1
      omega
    · exact hw hu.date
  · rw [hu.cp] at hx; cases hx
  · obtain ⟨b', hb', hv'⟩ := h.db
    rw [hb] at hb'
    cases hb'
    have hl : Layout v b.view := by rw [hv']; exact all_layout hs
    obtain ⟨s', d', _, _, _, _, h5⟩ := upgrade_spec hs.old env
      (s := s.to { s.w with backups := fun t => if t = env.date then some b.main else s.w.backups t }) (d := b) hb hl
    rcases h5 with ⟨_, ⟨n, h⟩ | ⟨n, f, hf, h⟩⟩ | ⟨h5, _⟩
    · exact absurd (ht n _ hl) h
    · exact absurd (h7 n f hf) h
    · obtain ⟨s'', ok, g1, _, _, _, _, g6⟩ := start_spec env s'
      rw [he, h5]
      show (startService env s').ok = true
      rw [g1]
      show ok = true
      cases ok with
      | true => rfl
      | false =>
        have := (g6 rfl).2.1
        rw [hu.start] at this
        cases this

/-! ## What is not so -/

/-- C83 is violated: "the service is left as it was".  When the backup cannot be written — the disk is
full, say — the script fails with the database as it was, and the service, which ran, is not started
again. -/
theorem c83_left_stopped_violated {v : Nat} {env : Env} {w : World} {d : DbFile} (hs : Sound v env d) (hv : v < 7)
    (hd : w.db = some d) (h1 : env.stopOk = true) (h2 : ∃ n c, env.ends = some (n, c) ∧ n < 100)
    (h3 : w.backups env.date = none) (h4 : env.cpFails = some none) :
    (script env w).ok = false ∧ (script env w).st.w.active = false ∧ (script env w).st.w.backups = w.backups ∧
      ∃ y, (script env w).st.w.db = some y ∧ y.view = (after w d (all env)).2 := by
  rcases script_cases hs hd with ⟨s, _, h7, _⟩ | ⟨s, he, _, hw⟩ | ⟨s, x, he, h, ha, hx⟩ | ⟨s, b, _, _, _, _, _, hc, _⟩
  · omega
  · exfalso
    rcases hw with hw | hw | hw
    · rw [h1] at hw; cases hw
    · obtain ⟨n, c, h5, h6⟩ := h2
      have := hw n c h5
      omega
    · exact hw h3
  · rw [h4] at hx
    cases hx
    rw [he]
    refine ⟨rfl, ha, ?_, h.db⟩
    show (fun t => if t = env.date then none else s.w.backups t) = _
    rw [h.backups]
    funext t
    split
    · rename_i ht; rw [ht, h3]
    · rfl
  · rw [h4] at hc; cases hc

/-- C83 is violated: and running the script again, now with success, does not help: it no longer knows
that the service had been running. -/
theorem c83_rerun_violated {v : Nat} {env env' : Env} {w : World} {d : DbFile} (hs : Sound v env d) (hv : v < 7)
    (hd : w.db = some d) (h1 : env.stopOk = true) (h2 : ∃ n c, env.ends = some (n, c) ∧ n < 100)
    (h3 : w.backups env.date = none) (h4 : env.cpFails = some none)
    (hh : ∀ k, env'.hlr k = []) (hu : Undisturbed env' (script env w).st.w) :
    (script env' (script env w).st.w).ok = true ∧ (script env' (script env w).st.w).st.w.active = false := by
  obtain ⟨_, ha, _, y, hy, hyv⟩ := c83_left_stopped_violated hs hv hd h1 h2 h3 h4
  have hs' : Sound v env' y := ⟨hs.old, by rw [hyv]; exact all_layout hs, fun k f hf => by rw [hh] at hf; cases hf⟩
  have hok := c83_completes hs' hy hu
  refine ⟨hok, ?_⟩
  obtain ⟨_, _, _, _, h, _⟩ := c83_success_partial hs' hy hok
  rw [h (fun k hk => by rw [hh] at hk; cases hk), ha]

/-- A run of osmo-hlr-db-tool beside the HLR, or one that dies: the second file stays. -/
theorem tool_wal (env : Env) (up : Bool) (s : St) {d : DbFile} (hd : s.w.db = some d) (h1 : env.openable s.runs = true)
    (h2 : env.rand s.runs = true) (h : s.w.active = true ∨ (toolOut env s.runs up d.view).1 = .died) :
    (tool env up s).2.w = { s.w with db := some { d with wal := some (toolOut env s.runs up d.view).2 } } := by
  unfold tool
  rw [hd]
  dsimp only [Option.getD_some]
  rw [if_neg (by simp [h1, h2]), if_pos]
  · rfl
  · rcases h with h | h
    · simp [h]
    · simp [h]

/-- osmo-hlr-db-tool reads no configuration. -/
def noConf : Config.Env where
  ipv4 _ := false
  ipParse _ := none
  ipText _ := []
  esc _ := []

/-- What systemd and the disk do in `c83_wal_violated`: the service does not end when it is told to, and
is killed; and the upgrade is interrupted. -/
def killedEnv (s : Script) : Env where
  conf := noConf
  sql := fun n => if n = 1 then s else []
  ends := some (50, false)
  date := b "20261116000000"

/-- C83 is violated: "the backup has everything that was in the database".  Whatever the HLR wrote last
(`f`; the file of the database still has `m`): if the HLR is killed rather than ending by itself, the
backup is of `m`; and when the upgrade is interrupted as in C20, the database can be opened by no
version any more, so that what was written last is lost. -/
theorem c83_wal_violated (v : Nat) (hv : v ≤ 5) (m f : File) (hf : Layout v f) :
    ∃ s, Sound v (killedEnv s) { main := m, wal := some f } ∧
      (∃ y, (script (killedEnv s) { db := some { main := m, wal := some f }, active := true }).st.w.db = some y ∧ Stuck y.view) ∧
      (script (killedEnv s) { db := some { main := m, wal := some f }, active := true }).st.w.backups
        (killedEnv s).date = some m := by
  obtain ⟨c, hc1, hc2⟩ := Props.c20_upgrade_crash_violated v hv f hf
  refine ⟨c, ⟨by omega, hf, fun k f hf => by cases hf⟩, ?_⟩
  have k0 : (toolOut (killedEnv c) 0 false f).2 = f := toolOut_false (by omega) hf _ _
  have k0' : (toolOut (killedEnv c) 0 false f).1 ≠ .ok := fun h => by
    have := dbOpen_false_layout (by omega) hf (toolOut_ok h).2.2.1
    omega
  have k1 : toolOut (killedEnv c) 1 true f = (.died, (dbOpen true f c).2) := by
    rw [toolOut_eq, if_pos ⟨rfl, rfl⟩]
    show (statusOf (dbOpen true f c).1, _) = _
    rw [hc1]
    rfl
  generalize hw : ({ db := some { main := m, wal := some f }, active := true } : World) = w
  have hdb : w.db = some { main := m, wal := some f } := by rw [← hw]
  have hact : w.active = true := by rw [← hw]
  have hbk : w.backups = fun _ => none := by rw [← hw]
  -- the first run of osmo-hlr-db-tool
  obtain ⟨s1, hs1⟩ : ∃ s1, s1 = (tool (killedEnv c) false { w := w, trace := [w] }).2 := ⟨_, rfl⟩
  obtain ⟨_, _, _, _, i1, r1, o1, _⟩ := tool_db (killedEnv c) false { w := w, trace := [w] } hdb
  have w1 := tool_wal (killedEnv c) false { w := w, trace := [w] } hdb rfl rfl (.inl hact)
  rw [← hs1] at i1 r1 w1
  have e1 : check (killedEnv c) { w := w, trace := [w] } = .go s1 := by
    unfold check
    rw [if_neg (by simp [hdb])]
    show (if (tool (killedEnv c) false { w := w, trace := [w] }).1 = true then _ else Res.go (tool (killedEnv c) false { w := w, trace := [w] }).2) = _
    rw [if_neg (fun h => k0' (o1.1 h)), hs1]
  have w1' : s1.w = w := by
    rw [w1]
    show ({ w with db := some { main := m, wal := some (toolOut (killedEnv c) 0 false f).2 } } : World) = w
    rw [k0, ← hw]
  -- the service is killed
  have e2 : stopService (killedEnv c) s1 = .go ({ s1 with isActive := true }.to (w.ended false)) := by
    show (if s1.w.active = true then _ else _) = _
    rw [if_pos (by rw [w1', hact])]
    show (if (!s1.w.active) = true then _ else Res.go ({ s1 with isActive := true }.to (s1.w.ended false))) = _
    rw [if_neg (by rw [w1', hact]; simp), w1']
  generalize hs2 : ({ s1 with isActive := true }.to (w.ended false) : St) = s2 at e2
  have w2 : s2.w = { db := some { main := m, wal := some f }, backups := fun _ => none, active := false } := by
    rw [← hs2, ← hw]; rfl
  have r2 : s2.runs = 1 := by rw [← hs2]; exact r1
  -- the backup
  generalize hs3 : s2.to { s2.w with backups := fun t => if t = (killedEnv c).date then some m else s2.w.backups t } = s3
  have e3 : createBackup (killedEnv c) s2 = .go s3 := by
    unfold createBackup
    rw [if_neg (by rw [w2]; simp), ← hs3, w2]
    rfl
  have d3 : s3.w.db = some { main := m, wal := some f } := by
    rw [← hs3]; show s2.w.db = _; rw [w2]
  have b3 : s3.w.backups (killedEnv c).date = some m := by
    rw [← hs3]; simp [St.to]
  have r3 : s3.runs = 1 := by rw [← hs3]; exact r2
  -- the upgrade
  have k1' : toolOut (killedEnv c) s3.runs true f = (.died, (dbOpen true f c).2) := by rw [r3]; exact k1
  have w4 := tool_wal (killedEnv c) true s3 d3 rfl rfl (.inr (by show (toolOut (killedEnv c) s3.runs true f).1 = _; rw [k1']))
  have w4' : (tool (killedEnv c) true s3).2.w = { s3.w with db := some { main := m, wal := some (dbOpen true f c).2 } } := by
    rw [w4]
    show ({ s3.w with db := some { main := m, wal := some (toolOut (killedEnv c) s3.runs true f).2 } } : World) = _
    rw [k1']
  have e4 : upgrade (killedEnv c) s3 = .exit (tool (killedEnv c) true s3).2 false := by
    obtain ⟨_, _, _, _, _, _, o4, _⟩ := tool_db (killedEnv c) true s3 d3
    have : (tool (killedEnv c) true s3).1 ≠ true := fun h => by
      have := o4.1 h
      rw [show (DbFile.view { main := m, wal := some f }) = f from rfl, k1'] at this
      cases this
    unfold upgrade
    dsimp only
    rw [if_pos (by simpa using this)]
  have e : script (killedEnv c) w = .exit (tool (killedEnv c) true s3).2 false := by
    unfold script
    rw [e1]
    show (((stopService (killedEnv c) s1).andThen _).andThen _).andThen _ = _
    rw [e2]
    show ((createBackup (killedEnv c) s2).andThen _).andThen _ = _
    rw [e3]
    show (upgrade (killedEnv c) s3).andThen _ = _
    rw [e4]
    rfl
  rw [e]
  refine ⟨⟨{ main := m, wal := some (dbOpen true f c).2 }, by show (tool (killedEnv c) true s3).2.w.db = _; rw [w4'], hc2⟩, ?_⟩
  show (tool (killedEnv c) true s3).2.w.backups _ = _
  rw [w4']
  exact b3

/-! ## The hypotheses can be met -/

/-- A database of the first version, open in a running HLR which changes it while the script runs. -/
def exEnv : Env where
  conf := noConf
  hlr := fun k => if k = 1 then [.write exV0', .checkpoint] else []
  ends := some (3, true)
  date := b "20261116000000"
where exV0' : File := Props.exV0

def exW : World := { db := some { main := Props.exV0 }, active := true }

theorem exSound : Sound 0 exEnv { main := Props.exV0 } :=
  ⟨by omega, Props.exV0_layout, fun k f hf => by
    by_cases hk : k = 1
    · subst hk
      rcases List.mem_cons.1 hf with h | h
      · cases h; exact Props.exV0_layout
      · rcases List.mem_cons.1 h with h | h
        · cases h
        · cases h
    · have : exEnv.hlr k = [] := if_neg hk
      rw [this] at hf
      cases hf⟩

theorem exTidy : Tidy exEnv exW { main := Props.exV0 } :=
  ⟨(fun k h => by
    by_cases hk : k = 1
    · subst hk
      rcases List.mem_cons.1 h with h | h
      · cases h
      · rcases List.mem_cons.1 h with h | h
        · cases h
        · cases h
    · have : exEnv.hlr k = [] := if_neg hk
      rw [this] at h
      cases h), (fun n c h => by cases h; rfl), .inl rfl⟩

theorem exUndisturbed : Undisturbed exEnv exW :=
  ⟨fun _ => rfl, fun _ => rfl, fun _ => rfl, ⟨rfl, 3, true, rfl, by omega⟩, rfl, rfl, rfl⟩

/-- So the script succeeds here, and leaves the service running, an upgraded database and a backup. -/
example : (script exEnv exW).ok = true ∧ (script exEnv exW).st.w.active = true ∧
    (script exEnv exW).st.w.backups exEnv.date = some Props.exV0 ∧
    ∃ y, (script exEnv exW).st.w.db = some y ∧ Layout 7 y.view ∧ Keeps Props.exV0 y.view := by
  have hok := c83_completes exSound rfl exUndisturbed
  obtain ⟨y, h1, h2, _, h4, h5⟩ := c83_success_partial exSound rfl hok
  rcases h5 with ⟨h5, _⟩ | ⟨h5, _, f, h6, h7⟩
  · exfalso
    rw [h5] at h2
    have := h2.1
    exact absurd this (by decide +kernel)
  · refine ⟨hok, h4 exTidy.alive, ?_, y, h1, h2, h5⟩
    rw [h6, h7 exTidy]
    rfl

/-- The hypotheses of `c83_left_stopped_violated` and `c83_rerun_violated` are met by the same HLR on a
full disk, and the script run again once there is space. -/
example : (script { exEnv with cpFails := some none } exW).ok = false ∧
    (script { exEnv with hlr := fun _ => [] } (script { exEnv with cpFails := some none } exW).st.w).ok = true ∧
    (script { exEnv with hlr := fun _ => [] } (script { exEnv with cpFails := some none } exW).st.w).st.w.active = false := by
  have hs : Sound 0 { exEnv with cpFails := some none } { main := Props.exV0 } := ⟨exSound.1, exSound.2, exSound.3⟩
  have h := c83_left_stopped_violated (w := exW) hs (by omega) rfl rfl ⟨3, true, rfl, by omega⟩ rfl rfl
  exact ⟨h.1, c83_rerun_violated (w := exW) hs (by omega) rfl rfl ⟨3, true, rfl, by omega⟩ rfl rfl (fun _ => rfl)
    ⟨fun _ => rfl, fun _ => rfl, fun _ => rfl, ⟨rfl, 3, true, rfl, by omega⟩, by rw [h.2.2.1]; rfl, rfl, rfl⟩⟩

/-- A database of the current version, as in `c83_nothing_to_do`. -/
example : ∃ d, Sound 7 { conf := noConf, date := [] } d := by
  obtain ⟨f', _, h⟩ := Props.c18_upgraded 0 (by omega) _ Props.exV0_layout
  exact ⟨{ main := f' }, by omega, h, fun _ _ hf => by cases hf⟩

end Verif.Upgrade
