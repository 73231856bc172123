import Verif.Upgrade.Spec
import Verif.DbOpen.Props
namespace Verif.Upgrade
open Verif Verif.Db Verif.DbOpen Verif.Upgrade.Spec

/-! ## osmo-hlr-db-tool -/

theorem tool_handle (w : Start.World) (h : w.posix = false) (up : Bool) :
    Start.dbToolHandle w (toolArgs up) = .go { db := DB, upgrade := up } := by
  unfold Start.dbToolHandle
  rw [h]
  cases up with
  | true =>
    have e : Start.scan Start.dbToolOpts false (toolArgs true)
        = ([.opt 115 none, .opt 85 none, .opt 108 (some DB)], [Start.wCreate]) := by decide +kernel
    rw [e]
    rfl
  | false =>
    have e : Start.scan Start.dbToolOpts false (toolArgs false)
        = ([.opt 115 none, .opt 108 (some DB)], [Start.wCreate]) := by decide +kernel
    rw [e]
    rfl

/-- How opening a database ends the program. -/
def statusOf : OpenRes → Start.Status
  | .opened => .ok
  | .failed => .error
  | .died => .died

theorem toolOut_eq (env : Env) (n : Nat) (up : Bool) (f : File) :
    toolOut env n up f =
      if env.rand n = true ∧ env.openable n = true then (statusOf (dbOpen up f (env.sql n)).1, (dbOpen up f (env.sql n)).2)
      else (.error, f) := by
  unfold toolOut Start.dbToolMain
  dsimp only
  rw [tool_handle _ rfl]
  dsimp only
  cases hr : env.rand n with
  | false =>
    rw [if_pos (by simp [toolWorld, hr])]
    rw [if_neg (by simp)]
    simp [toolWorld]
  | true =>
    rw [if_neg (by simp [toolWorld, hr])]
    unfold Start.openPath
    cases ho : env.openable n with
    | false => rw [if_neg (by simp [toolWorld, ho])]; rw [if_neg (by simp)]; simp [toolWorld]
    | true =>
      rw [if_pos (by simp [toolWorld, ho]), if_pos ⟨rfl, rfl⟩]
      have e : (((toolWorld env n f).disk DB).map (·.db)).getD {} = f := by simp [toolWorld]
      rw [e]
      show _ = (statusOf (dbOpen up f (toolWorld env n f).script).1, (dbOpen up f (toolWorld env n f).script).2)
      generalize dbOpen up f (toolWorld env n f).script = r
      obtain ⟨r1, r2⟩ := r
      cases r1 <;> simp [statusOf, Start.setFile]

theorem dbOpen_false_same {v : Nat} (hv : v ≤ 7) {f : File} (h : Layout v f) (s : Script) : (dbOpen false f s).2 = f := by
  by_cases h7 : v = 7
  · subst h7; exact (Props.c18_current_unchanged false f h).2 s
  · refine (Props.c18_no_permission_refused f s ?_).2
    have := h.1
    by_cases h0 : v = 0
    · exact .inr ⟨by omega, h.subscriber⟩
    · exact .inl ⟨by omega, by omega⟩

theorem dbOpen_false_layout {v : Nat} (hv : v ≤ 7) {f : File} (h : Layout v f) {s : Script} (ho : (dbOpen false f s).1 = .opened) :
    v = 7 := by
  by_cases h7 : v = 7
  · exact h7
  · exfalso
    have := h.1
    refine (Props.c18_no_permission_refused f s ?_).1 ho
    by_cases h0 : v = 0
    · exact .inr ⟨by omega, h.subscriber⟩
    · exact .inl ⟨by omega, by omega⟩

theorem dbOpen_true_layout {v : Nat} (hv : v ≤ 7) {f : File} (h : Layout v f) {s : Script} (ho : (dbOpen true f s).1 = .opened) :
    Layout 7 (dbOpen true f s).2 := by
  rcases dbOpen_cases h.1 hv h.subscriber true s with ⟨s', e⟩ | ⟨h1, _⟩
  · rw [e] at ho ⊢
    exact ((openUpgrade_layout hv h).2 s').2 ho
  · exact absurd ho h1

theorem toolOut_false {v : Nat} (hv : v ≤ 7) {f : File} (h : Layout v f) (env : Env) (n : Nat) : (toolOut env n false f).2 = f := by
  rw [toolOut_eq]
  split
  · exact dbOpen_false_same hv h _
  · rfl

theorem toolOut_keeps {v : Nat} (hv : v ≤ 7) {f : File} (h : Layout v f) (env : Env) (n : Nat) (up : Bool) :
    Keeps f (toolOut env n up f).2 := by
  rw [toolOut_eq]
  split
  · exact Props.c19_data_kept v hv f h up _
  · exact Keeps.refl f

theorem toolOut_ok {env : Env} {n : Nat} {up : Bool} {f : File} (h : (toolOut env n up f).1 = .ok) :
    env.rand n = true ∧ env.openable n = true ∧ (dbOpen up f (env.sql n)).1 = .opened ∧ (toolOut env n up f).2 = (dbOpen up f (env.sql n)).2 := by
  rw [toolOut_eq] at h ⊢
  split at h
  · rename_i hc
    rw [if_pos hc]
    refine ⟨hc.1, hc.2, ?_, rfl⟩
    dsimp only at h
    generalize (dbOpen up f (env.sql n)).1 = r at h ⊢
    cases r <;> first | rfl | cases h
  · cases h

/-- The database after a run of osmo-hlr-db-tool. -/
theorem tool_db (env : Env) (up : Bool) (s : St) {d : DbFile} (hd : s.w.db = some d) :
    ∃ d', (tool env up s).2.w = { s.w with db := some d' } ∧ d'.view = (toolOut env s.runs up d.view).2
      ∧ (tool env up s).2.trace = (tool env up s).2.w :: s.trace
      ∧ (tool env up s).2.isActive = s.isActive ∧ (tool env up s).2.runs = s.runs + 1
      ∧ ((tool env up s).1 = true ↔ (toolOut env s.runs up d.view).1 = .ok)
      ∧ (s.w.active = false → env.rand s.runs = true → env.openable s.runs = true → (toolOut env s.runs up d.view).1 ≠ .died →
          d'.wal = none)
      ∧ (d'.main = d.main ∨ d'.wal = none) := by
  unfold tool
  rw [hd]
  dsimp only [Option.getD_some]
  by_cases h1 : (!env.openable s.runs || !env.rand s.runs) = true
  · rw [if_pos h1]
    refine ⟨d, rfl, ?_, rfl, rfl, rfl, by simp, ?_, .inl rfl⟩
    · rw [toolOut_eq, if_neg]
      rintro ⟨h2, h3⟩
      rw [h2, h3] at h1; cases h1
    · intro _ h2 h3
      rw [h2, h3] at h1; cases h1
  · rw [if_neg h1]
    split
    · rename_i h2
      refine ⟨_, rfl, rfl, rfl, rfl, rfl, by simp, ?_, .inl rfl⟩
      intro h3 _ _ h4
      rw [h3] at h2
      exact absurd (by simpa using h2) h4
    · exact ⟨_, rfl, rfl, rfl, rfl, rfl, by simp, fun _ _ _ _ => rfl, .inr rfl⟩

/-! ## What the script has left as it was -/

theorem after_append (w : World) (d : DbFile) (l1 l2 : List HlrEv) : after w d (l1 ++ l2) = l2.foldl seen (after w d l1) :=
  List.foldl_append ..

theorem seen_inactive {x : Bool × File} (h : x.1 = false) : ∀ l : List HlrEv, l.foldl seen x = x
  | [] => rfl
  | e :: l => by
    have e1 : seen x e = x := by
      cases e with
      | write f => obtain ⟨a, b⟩ := x; cases h; rfl
      | checkpoint => rfl
      | die => unfold seen; obtain ⟨a, b⟩ := x; cases h; rfl
    rw [List.foldl_cons, e1, seen_inactive h l]

theorem seen_alive {x : Bool × File} : ∀ {l : List HlrEv}, .die ∉ l → (l.foldl seen x).1 = x.1
  | [], _ => rfl
  | e :: l, h => by
    rw [List.foldl_cons, seen_alive (l := l) (fun h' => h (List.mem_cons_of_mem _ h'))]
    cases e with
    | write f => rfl
    | checkpoint => rfl
    | die => exact absurd List.mem_cons_self h

theorem seen_layout {v : Nat} : ∀ {l : List HlrEv} {x : Bool × File}, Layout v x.2 → (∀ f, .write f ∈ l → Layout v f) →
    Layout v (l.foldl seen x).2
  | [], _, hx, _ => hx
  | e :: l, x, hx, h => by
    rw [List.foldl_cons]
    refine seen_layout ?_ (fun f hf => h f (List.mem_cons_of_mem _ hf))
    cases e with
    | write f =>
      unfold seen
      dsimp only
      split
      · exact h f List.mem_cons_self
      · exact hx
    | checkpoint => exact hx
    | die => exact hx

/-- The database is as the HLR made it, and so it was in every situation so far. -/
structure At (w0 : World) (d0 : DbFile) (evs : List HlrEv) (s : St) : Prop where
  db : ∃ d, s.w.db = some d ∧ d.view = (after w0 d0 evs).2
  backups : s.w.backups = w0.backups
  trace : ∀ x ∈ s.trace, ∃ e d, e <+: evs ∧ x.db = some d ∧ d.view = (after w0 d0 e).2

theorem At.longer {w0 : World} {d0 : DbFile} {evs : List HlrEv} {s : St} (h : At w0 d0 evs s) (l : List HlrEv)
    (hl : after w0 d0 (evs ++ l) = after w0 d0 evs) : At w0 d0 (evs ++ l) s :=
  ⟨by rw [hl]; exact h.db, h.backups, fun x hx => by
    obtain ⟨e, d, h1, h2⟩ := h.trace x hx
    exact ⟨e, d, h1.trans (List.prefix_append _ _), h2⟩⟩

theorem At.to {w0 : World} {d0 : DbFile} {evs : List HlrEv} {s s' : St} (h : At w0 d0 evs s) {w : World} {d : DbFile}
    (hw : s'.w = w) (ht : s'.trace = w :: s.trace)
    (hd : w.db = some d) (hv : d.view = (after w0 d0 evs).2) (hb : w.backups = w0.backups) : At w0 d0 evs s' := by
  refine ⟨⟨d, by rw [hw]; exact hd, hv⟩, by rw [hw]; exact hb, fun x hx => ?_⟩
  rw [ht] at hx
  rcases List.mem_cons.1 hx with rfl | hx
  · exact ⟨evs, d, List.prefix_rfl, hd, hv⟩
  · exact h.trace x hx

theorem hlr_at {w0 : World} {d0 : DbFile} {evs : List HlrEv} {s : St} (h : At w0 d0 evs s)
    (ha : s.w.active = (after w0 d0 evs).1) (e : HlrEv) :
    At w0 d0 (evs ++ [e]) (s.to (hlrEv s.w e)) ∧ (hlrEv s.w e).active = (after w0 d0 (evs ++ [e])).1 := by
  obtain ⟨d, hd, hv⟩ := h.db
  have hx : after w0 d0 (evs ++ [e]) = seen (after w0 d0 evs) e := after_append ..
  have hold : ∀ x ∈ s.trace, ∃ e' d, e' <+: evs ++ [e] ∧ x.db = some d ∧ d.view = (after w0 d0 e').2 := fun x hx => by
    obtain ⟨e', d, h1, h2⟩ := h.trace x hx
    exact ⟨e', d, h1.trans (List.prefix_append _ _), h2⟩
  have key : ∃ d', (hlrEv s.w e).db = some d' ∧ d'.view = (after w0 d0 (evs ++ [e])).2 := by
    rw [hx]
    cases e with
    | write f =>
      unfold hlrEv seen
      dsimp only
      rw [ha]
      split
      · exact ⟨_, by rw [hd]; rfl, rfl⟩
      · exact ⟨d, hd, hv⟩
    | checkpoint =>
      unfold hlrEv seen
      dsimp only
      split
      · exact ⟨{ main := d.view }, by rw [hd]; rfl, hv⟩
      · exact ⟨d, hd, hv⟩
    | die => exact ⟨d, hd, hv⟩
  have hb : (hlrEv s.w e).backups = w0.backups := by
    rw [← h.backups]
    cases e <;> unfold hlrEv <;> dsimp only <;> first | rfl | (split <;> rfl)
  refine ⟨⟨key, hb, fun x hx => ?_⟩, ?_⟩
  · rcases List.mem_cons.1 hx with rfl | hx
    · obtain ⟨d', h1, h2⟩ := key
      exact ⟨_, d', List.prefix_rfl, h1, h2⟩
    · exact hold x hx
  · rw [hx]
    cases e with
    | write f => unfold hlrEv seen; dsimp only; rw [← ha]; split <;> rfl
    | checkpoint => unfold hlrEv seen; dsimp only; rw [← ha]; split <;> rfl
    | die => rfl

theorem during_at {w0 : World} {d0 : DbFile} : ∀ (l : List HlrEv) {evs : List HlrEv} {s : St}, At w0 d0 evs s →
    s.w.active = (after w0 d0 evs).1 →
    At w0 d0 (evs ++ l) (during s l) ∧ (during s l).w.active = (after w0 d0 (evs ++ l)).1
  | [], evs, s, h, ha => by rw [List.append_nil]; exact ⟨h, ha⟩
  | e :: l, evs, s, h, ha => by
    have h1 := hlr_at h ha e
    have := during_at l h1.1 h1.2
    rw [List.append_assoc] at this
    exact this

theorem during_isActive : ∀ (l : List HlrEv) (s : St), (during s l).isActive = s.isActive ∧ (during s l).runs = s.runs
  | [], _ => ⟨rfl, rfl⟩
  | e :: l, s => during_isActive l (s.to (hlrEv s.w e))

/-- A service that does not run leaves the files alone. -/
theorem during_idle : ∀ (l : List HlrEv) (s : St), s.w.active = false → (during s l).w = s.w
  | [], _, _ => rfl
  | e :: l, s, h => by
    have h1 : hlrEv s.w e = s.w := by
      cases e with
      | write f => simp [hlrEv, h]
      | checkpoint => simp [hlrEv, h]
      | die => unfold hlrEv; generalize s.w = w at h ⊢; cases w; cases h; rfl
    have := during_idle l (s.to (hlrEv s.w e)) (by show (hlrEv s.w e).active = false; rw [h1, h])
    show (during (s.to (hlrEv s.w e)) l).w = s.w
    rw [this]
    exact h1

/-- Only what a run of osmo-hlr-db-tool does not change may be relied on. -/
theorem tool_at {v : Nat} {w0 : World} {d0 : DbFile} {evs : List HlrEv} {s : St} (hv : v ≤ 7) (hl : Layout v (after w0 d0 evs).2)
    (env : Env) (h : At w0 d0 evs s) :
    At w0 d0 evs (tool env false s).2 ∧ (tool env false s).2.w.active = s.w.active ∧
      ((tool env false s).1 = true → v = 7) := by
  obtain ⟨d, hd, hw⟩ := h.db
  obtain ⟨d', h1, h2, h3, h4, h5, h6, _⟩ := tool_db env false s hd
  rw [hw] at h2 h6
  rw [toolOut_false hv hl] at h2
  refine ⟨h.to (w := { s.w with db := some d' }) h1 (by rw [h3, h1]) rfl h2 h.backups, by rw [h1], fun ho => ?_⟩
  exact dbOpen_false_layout hv hl (toolOut_ok (h6.1 ho)).2.2.1

theorem start_at {w : World} {d : DbFile} (hd : w.db = some d) : At w d [] { w := w, trace := [w] } :=
  ⟨⟨d, hd, rfl⟩, rfl, fun x hx => by
    rw [List.mem_singleton] at hx
    subst hx
    exact ⟨[], d, List.prefix_rfl, hd, rfl⟩⟩

theorem after_layout {v : Nat} {env : Env} {w : World} {d : DbFile} (h : Sound v env d) (n : Nat) :
    Layout v (after w d (((List.range n).map env.hlr).flatten)).2 := by
  refine seen_layout h.db (fun f hf => ?_)
  obtain ⟨l, h1, h2⟩ := List.mem_flatten.1 hf
  obtain ⟨k, _, rfl⟩ := List.mem_map.1 h1
  exact h.written k f h2

theorem all_eq (env : Env) : all env = ((List.range 3).map env.hlr).flatten := by
  simp [all, show List.range 3 = [0, 1, 2] from rfl]

/-! ## The commands, one after the other -/

/-- check_upgrade_required: either nothing is to be done, or the script goes on. -/
theorem check_spec {v : Nat} {env : Env} {w : World} {d : DbFile} (hs : Sound v env d) (hd : w.db = some d) :
    ∃ s, At w d (env.hlr 0) s ∧ s.w.active = (after w d (env.hlr 0)).1 ∧ s.isActive = false ∧ s.runs = 1 ∧
      (check env { w := w, trace := [w] } = .exit s true ∧ v = 7 ∨ check env { w := w, trace := [w] } = .go s) ∧
      (Tidy env w d → w.active = true ∨ ∃ d', s.w.db = some d' ∧ d'.main = d'.view) := by
  have h0 := during_at (env.hlr 0) (start_at hd) (rfl : w.active = _)
  rw [List.nil_append] at h0
  have hi := during_isActive (env.hlr 0) { w := w, trace := [w] }
  have hl : Layout v (after w d (env.hlr 0)).2 := by
    have := after_layout (w := w) hs 1
    simpa [show List.range 1 = [0] from rfl] using this
  have h1 := tool_at hs.old hl env h0.1
  refine ⟨(tool env false (during { w := w, trace := [w] } (env.hlr 0))).2, h1.1, by rw [h1.2.1]; exact h0.2, ?_, ?_, ?_, ?_⟩
  · obtain ⟨x, hx, _⟩ := h0.1.db
    obtain ⟨_, _, _, _, h4, _⟩ := tool_db env false _ hx
    rw [h4, hi.1]
  · obtain ⟨x, hx, _⟩ := h0.1.db
    obtain ⟨_, _, _, _, _, h4, _⟩ := tool_db env false _ hx
    rw [h4, hi.2]
  · unfold check
    rw [if_neg (by simp [hd])]
    dsimp only
    split
    · rename_i ho
      exact .inl ⟨rfl, h1.2.2 ho⟩
    · exact .inr rfl
  · intro ht
    cases ha : w.active with
    | true => exact .inl rfl
    | false =>
      refine .inr ?_
      have hw := during_idle (env.hlr 0) { w := w, trace := [w] } ha
      have hx : (during { w := w, trace := [w] } (env.hlr 0)).w.db = some d := by rw [hw]; exact hd
      obtain ⟨d', h2, h3, _, _, _, _, h7, h8⟩ := tool_db env false _ hx
      refine ⟨d', by rw [h2], ?_⟩
      rw [hi.2] at h7
      have hv' : d'.view = d.view := by rw [h3, toolOut_false hs.old hs.db]
      rcases ht.before with h | h | ⟨h, h', h''⟩
      · rw [ha] at h; cases h
      · rcases h8 with h8 | h8
        · rw [h8, hv']
          unfold DbFile.view
          cases hwl : d.wal with
          | none => rfl
          | some x => rw [hwl] at h; cases h
        · unfold DbFile.view; rw [h8]; rfl
      · have := h7 (by rw [hw]; exact ha) h' h h''
        unfold DbFile.view; rw [this]; rfl

/-- stop_service. -/
theorem stop_spec {env : Env} {w : World} {d : DbFile} {s : St} (h : At w d (env.hlr 0) s)
    (ha : s.w.active = (after w d (env.hlr 0)).1) (hi : s.isActive = false) :
    ∃ s', At w d (all env) s' ∧ s'.runs = s.runs ∧ s'.isActive = (after w d (env.hlr 0 ++ env.hlr 1)).1 ∧
      (stopService env s = .exit s' false ∧ (env.stopOk = false ∨ ∀ n c, env.ends = some (n, c) → 100 ≤ n) ∨
        stopService env s = .go s' ∧ s'.w.active = false) ∧
      (Tidy env w d → (w.active = true ∨ ∃ d', s.w.db = some d' ∧ d'.main = d'.view) →
        stopService env s = .go s' → s'.w.db = some { main := (after w d (all env)).2 } ∨
          ∃ d', s'.w.db = some d' ∧ d'.main = d'.view) := by
  have h1 := during_at (env.hlr 1) h ha
  have i1 := during_isActive (env.hlr 1) s
  cases hc : (during s (env.hlr 1)).w.active with
  | false =>
    have he : stopService env s = .go (during s (env.hlr 1)) := by
      unfold stopService
      dsimp only
      rw [if_neg (by simp [hc])]
    have e2 : after w d ((env.hlr 0 ++ env.hlr 1) ++ env.hlr 2) = after w d (env.hlr 0 ++ env.hlr 1) := by
      rw [after_append]
      exact seen_inactive (by rw [← h1.2, hc]) _
    refine ⟨_, h1.1.longer (env.hlr 2) e2, i1.2, by rw [i1.1, hi, ← h1.2, hc], .inr ⟨he, hc⟩, ?_⟩
    intro ht hm _
    have h0 : (after w d (env.hlr 0 ++ env.hlr 1)).1 = w.active := by
      unfold after
      refine seen_alive ?_
      rw [List.mem_append]
      rintro (h | h)
      · exact ht.alive 0 h
      · exact ht.alive 1 h
    have hwa : w.active = false := by rw [← h0, ← h1.2, hc]
    rcases hm with hm | ⟨d', hm, hm'⟩
    · rw [hwa] at hm; cases hm
    · refine .inr ⟨d', ?_, hm'⟩
      rw [during_idle _ _ (by rw [ha]; unfold after; rw [seen_alive (ht.alive 0)]; exact hwa)]
      exact hm
  | true =>
    have ht : At w d (env.hlr 0 ++ env.hlr 1) { during s (env.hlr 1) with isActive := true } := ⟨h1.1.db, h1.1.backups, h1.1.trace⟩
    have h2 := during_at (env.hlr 2) ht h1.2
    have i2 := during_isActive (env.hlr 2) { during s (env.hlr 1) with isActive := true }
    have hact : (during { during s (env.hlr 1) with isActive := true } (env.hlr 2)).isActive = (after w d (env.hlr 0 ++ env.hlr 1)).1 := by
      exact i2.1.trans (by rw [← h1.2, hc])
    have hruns : (during { during s (env.hlr 1) with isActive := true } (env.hlr 2)).runs = s.runs := by
      exact i2.2.trans i1.2
    have he : stopService env s = (if !env.stopOk then .exit (during { during s (env.hlr 1) with isActive := true } (env.hlr 2)) false
        else if !(during { during s (env.hlr 1) with isActive := true } (env.hlr 2)).w.active then
          .go (during { during s (env.hlr 1) with isActive := true } (env.hlr 2))
        else match env.ends with
          | none => .exit (during { during s (env.hlr 1) with isActive := true } (env.hlr 2)) false
          | some (n, closed) => if n < 100 then
              .go ((during { during s (env.hlr 1) with isActive := true } (env.hlr 2)).to
                ((during { during s (env.hlr 1) with isActive := true } (env.hlr 2)).w.ended closed))
            else .exit (during { during s (env.hlr 1) with isActive := true } (env.hlr 2)) false) := by
      unfold stopService
      dsimp only
      rw [if_pos hc]
      rfl
    generalize during { during s (env.hlr 1) with isActive := true } (env.hlr 2) = u at h2 hact hruns he
    obtain ⟨h2, a2⟩ := h2
    by_cases c1 : (!env.stopOk) = true
    · rw [if_pos c1] at he
      exact ⟨u, h2, hruns, hact, .inl ⟨he, .inl (by simpa using c1)⟩, fun _ _ h => by rw [he] at h; cases h⟩
    rw [if_neg c1] at he
    cases c2 : u.w.active with
    | false =>
      rw [if_pos (by simp [c2])] at he
      refine ⟨u, h2, hruns, hact, .inr ⟨he, c2⟩, fun ht _ _ => ?_⟩
      exfalso
      rw [after_append, seen_alive (ht.alive 2), ← h1.2, hc, c2] at a2
      cases a2
    | true =>
      rw [if_neg (by simp [c2])] at he
      cases c3 : env.ends with
      | none =>
        rw [c3] at he
        exact ⟨u, h2, hruns, hact, .inl ⟨he, .inr (fun _ _ h => by cases h)⟩, fun _ _ h => by rw [he] at h; cases h⟩
      | some nc =>
        obtain ⟨n, c⟩ := nc
        rw [c3] at he
        dsimp only at he
        by_cases c4 : n < 100
        · rw [if_pos c4] at he
          obtain ⟨x, hx, hxv⟩ := h2.db
          have hdb : (u.w.ended c).db = some (if c then { main := x.view } else x) := by
            unfold World.ended
            cases c with
            | true => simp [hx]
            | false => simp [hx]
          refine ⟨u.to (u.w.ended c), h2.to (w := u.w.ended c) rfl rfl hdb ?_ h2.backups, hruns, hact, .inr ⟨he, rfl⟩, ?_⟩
          · split
            · exact hxv
            · exact hxv
          · intro ht _ _
            have := ht.closed n c c3
            subst this
            left
            show (u.w.ended true).db = _
            rw [hdb, if_pos rfl, hxv]
            rfl
        · rw [if_neg c4] at he
          exact ⟨u, h2, hruns, hact, .inl ⟨he, .inr (fun _ _ h => by cases h; omega)⟩, fun _ _ h => by rw [he] at h; cases h⟩

/-- upgrade: what it leaves behind. -/
theorem upgrade_spec {v : Nat} (hv : v ≤ 7) (env : Env) {s : St} {d : DbFile} (hd : s.w.db = some d) (hl : Layout v d.view) :
    ∃ s' d', s'.w = { s.w with db := some d' } ∧ s'.isActive = s.isActive ∧ Keeps d.view d'.view ∧
      (∀ x ∈ s'.trace, x ∈ s.trace ∨ x.backups = s.w.backups ∧ ∃ y, x.db = some y ∧ Keeps d.view y.view) ∧
      (upgrade env s = .exit s' false ∧ ((∃ n, (toolOut env n true d.view).1 ≠ .ok) ∨
          ∃ n f, Layout 7 f ∧ (toolOut env n false f).1 ≠ .ok) ∨
        upgrade env s = .go s' ∧ Layout 7 d'.view) := by
  obtain ⟨d1, a1, a2, a3, a4, _, a6, _⟩ := tool_db env true s hd
  have hk : Keeps d.view d1.view := by rw [a2]; exact toolOut_keeps hv hl env _ _
  have t1 : ∀ x ∈ (tool env true s).2.trace, x ∈ s.trace ∨ x.backups = s.w.backups ∧ ∃ y, x.db = some y ∧ Keeps d.view y.view := fun x hx => by
    rw [a3, a1] at hx
    rcases List.mem_cons.1 hx with rfl | hx
    · exact .inr ⟨rfl, d1, rfl, hk⟩
    · exact .inl hx
  cases c1 : (tool env true s).1 with
  | false =>
    refine ⟨_, d1, a1, a4, hk, t1, .inl ⟨?_, .inl ⟨s.runs, fun h => by rw [a6.2 h] at c1; cases c1⟩⟩⟩
    unfold upgrade
    dsimp only
    rw [if_pos (by simp [c1])]
  | true =>
    have ho := toolOut_ok (a6.1 c1)
    have h7 : Layout 7 d1.view := by rw [a2, ho.2.2.2]; exact dbOpen_true_layout hv hl ho.2.2.1
    obtain ⟨d2, b1, b2, b3, b4, _, b6, _⟩ := tool_db env false (tool env true s).2 (by rw [a1])
    rw [toolOut_false (Nat.le_refl 7) h7] at b2
    have t2 : ∀ x ∈ (tool env false (tool env true s).2).2.trace, x ∈ s.trace ∨ x.backups = s.w.backups ∧ ∃ y, x.db = some y ∧ Keeps d.view y.view := fun x hx => by
      rw [b3, b1, a1] at hx
      rcases List.mem_cons.1 hx with rfl | hx
      · exact .inr ⟨rfl, d2, rfl, by rw [b2]; exact hk⟩
      · exact t1 x hx
    have e1 : upgrade env s = if (tool env false (tool env true s).2).1 then .go (tool env false (tool env true s).2).2
        else if (tool env false (tool env false (tool env true s).2).2).1 then
          .go (tool env false (tool env false (tool env true s).2).2).2
        else .exit (tool env false (tool env false (tool env true s).2).2).2 false := by
      unfold upgrade
      dsimp only
      rw [if_neg (by simp [c1])]
    cases c2 : (tool env false (tool env true s).2).1 with
    | true =>
      rw [if_pos c2] at e1
      exact ⟨_, d2, by rw [b1, a1], by rw [b4, a4], by rw [b2]; exact hk, t2, .inr ⟨e1, by rw [b2]; exact h7⟩⟩
    | false =>
      rw [if_neg (by simp [c2])] at e1
      obtain ⟨d3, c1', c2', c3, c4, _⟩ := tool_db env false (tool env false (tool env true s).2).2 (by rw [b1])
      rw [b2, toolOut_false (Nat.le_refl 7) h7] at c2'
      refine ⟨_, d3, by rw [c1', b1, a1], by rw [c4, b4, a4], by rw [c2']; exact hk, fun x hx => ?_, ?_⟩
      · rw [c3, c1', b1, a1] at hx
        rcases List.mem_cons.1 hx with rfl | hx
        · exact .inr ⟨rfl, d3, rfl, by rw [c2']; exact hk⟩
        · exact t2 x hx
      · split at e1
        · exact .inr ⟨e1, by rw [c2']; exact h7⟩
        · refine .inl ⟨e1, .inr ⟨(tool env true s).2.runs, d1.view, h7, fun h => ?_⟩⟩
          rw [b6.2 h] at c2; cases c2

/-- start_service. -/
theorem start_spec (env : Env) (s : St) :
    ∃ s' ok, startService env s = .exit s' ok ∧ s'.w.db = s.w.db ∧ s'.w.backups = s.w.backups ∧
      (∀ x ∈ s'.trace, x ∈ s.trace ∨ x = s'.w) ∧ (ok = true → s'.w.active = (s.isActive || s.w.active)) ∧
      (ok = false → s.isActive = true ∧ env.startOk = false ∧ s'.w = s.w) := by
  unfold startService
  cases h : s.isActive with
  | false => exact ⟨s, true, by simp, rfl, rfl, fun x hx => .inl hx, fun _ => by simp, fun h => by cases h⟩
  | true =>
    cases h2 : env.startOk with
    | false => exact ⟨s, false, by simp, rfl, rfl, fun x hx => .inl hx, (fun h => by cases h), fun _ => ⟨rfl, rfl, rfl⟩⟩
    | true =>
      refine ⟨s.to { s.w with active := true }, true, by simp, rfl, rfl, fun x hx => ?_, fun _ => by simp [St.to],
        fun h => by cases h⟩
      rcases List.mem_cons.1 hx with rfl | hx
      · exact .inr rfl
      · exact .inl hx

/-! ## Backups -/

/-- Holds now, and held in every situation so far. -/
def Held (Q : World → Prop) (s : St) : Prop := Q s.w ∧ ∀ x ∈ s.trace, Q x

theorem Held.to {Q : World → Prop} {s : St} (h : Held Q s) {w : World} (hw : Q w) : Held Q (s.to w) :=
  ⟨hw, fun x hx => by
    rcases List.mem_cons.1 hx with rfl | hx
    · exact hw
    · exact h.2 x hx⟩

theorem held_during {Q : World → Prop} (hq : ∀ a c, a.backups = c.backups → Q a → Q c) : ∀ (l : List HlrEv) {s : St},
    Held Q s → Held Q (during s l)
  | [], _, h => h
  | e :: l, s, h => by
    refine held_during hq l (s := s.to (hlrEv s.w e)) (h.to (hq _ _ ?_ h.1))
    cases e <;> unfold hlrEv <;> dsimp only <;> first | rfl | (split <;> rfl)

theorem held_tool {Q : World → Prop} (hq : ∀ a c, a.backups = c.backups → Q a → Q c) (env : Env) (up : Bool) {s : St}
    (h : Held Q s) : Held Q (tool env up s).2 := by
  have := h.to (w := (tool env up s).2.w) (hq s.w _ rfl h.1)
  exact ⟨this.1, this.2⟩

theorem held_script {Q : World → Prop} (hq : ∀ a c, a.backups = c.backups → Q a → Q c) (env : Env)
    (hc : ∀ (a : World) (x : Option File), a.backups env.date = none → Q a →
      Q { a with backups := fun t => if t = env.date then x else a.backups t })
    {w : World} (h : Q w) : Held Q (script env w).st := by
  have hthen : ∀ {r : Res} {f : St → Res}, Held Q r.st → (∀ s, Held Q s → Held Q (f s).st) → Held Q (r.andThen f).st := by
    intro r f h1 h2
    cases r with
    | go s => exact h2 s h1
    | exit s ok => exact h1
  unfold script
  refine hthen (hthen (hthen (hthen ?_ ?_) ?_) ?_) ?_
  · have h0 : Held Q { w := w, trace := [w] } := ⟨h, fun x hx => by rw [List.mem_singleton] at hx; rw [hx]; exact h⟩
    have h1 := held_tool hq env false (held_during hq (env.hlr 0) h0)
    unfold check
    dsimp only
    split
    · exact h0
    · split
      · exact h1
      · exact h1
  · intro s hs
    have h1 := held_during hq (env.hlr 1) hs
    unfold stopService
    dsimp only
    split
    · have h2 : Held Q { during s (env.hlr 1) with isActive := true } := h1
      have h3 := held_during hq (env.hlr 2) h2
      split
      · exact h3
      · split
        · exact h3
        · split
          · exact h3
          · split
            · exact h3.to (by refine hq _ _ ?_ h3.1; rfl)
            · exact h3
    · exact h1
  · intro s hs
    unfold createBackup
    cases hb : s.w.backups env.date with
    | some y => exact hs
    | none =>
      rw [if_neg (by simp)]
      split
      · exact hs.to (hc _ _ hb hs.1)
      · exact hs
      · exact hs.to (hc _ _ hb hs.1)
  · intro s hs
    have h1 := held_tool hq env true hs
    have h2 := held_tool hq env false h1
    have h3 := held_tool hq env false h2
    unfold upgrade
    dsimp only
    split
    · exact h1
    · split
      · exact h2
      · split
        · exact h3
        · exact h3
  · intro s hs
    unfold startService
    split
    · split
      · exact hs.to (by refine hq _ _ ?_ hs.1; rfl)
      · exact hs
    · exact hs

end Verif.Upgrade
