import Verif.Start.Props2
/-!
# C74: osmo-hlr-db-tool
-/
namespace Verif.Start
open Verif Verif.DbOpen Verif.DbOpen.Props

/-- What osmo-hlr-db-tool takes from the options. -/
def dbToolArgsOf (is : List Item) : DbToolArgs where
  db := lastArg (b "database") (b "hlr.db") is
  upgrade := decide (Given (b "db-upgrade") is)

def dbToolInfo (i : Item) : Bool := i.name == b "help" || i.name == b "version"

theorem dbTool_option (is : List Item) (i : Item) (hi : ∃ d ∈ dbToolDoc, d.long = i.name ∧ i.arg.isSome = d.arg) :
    match dbToolOption (dbToolArgsOf is) (dbToolOpts.tok i) with
    | .go a => a = dbToolArgsOf (is ++ [i]) ∧ dbToolInfo i = false
    | .exit acts ok => dbToolInfo i = true ∧ ok = true ∧ (acts = [.help] ∨ acts = [.version]) := by
  obtain ⟨d, hd, h1, h2⟩ := hi
  obtain ⟨name, arg⟩ := i
  dsimp only at h1 h2
  subst h1
  simp only [dbToolDoc, List.mem_cons, List.not_mem_nil, or_false] at hd
  rcases hd with rfl | rfl | rfl | rfl | rfl | rfl | rfl | rfl <;>
    cases arg with
    | none => first
      | (simp at h2; done)
      | (simp [Opts.tok, dbToolOpts, Long.tok, dbToolOption, dbToolArgsOf, lastArg_snoc, given_snoc, dbToolInfo, n_help, n_version,
          n_database, n_db_upgrade]; done)
    | some a => first
      | (simp at h2; done)
      | (simp [Opts.tok, dbToolOpts, Long.tok, dbToolOption, dbToolArgsOf, lastArg_snoc, given_snoc, dbToolInfo, n_help, n_version,
          n_database, n_db_upgrade]; done)

theorem dbTool_options (is : List Item) (hp : Proper dbToolDoc is) :
    match options dbToolOption {} (is.map dbToolOpts.tok) with
    | .go a => a = dbToolArgsOf is ∧ ∀ i ∈ is, dbToolInfo i = false
    | .exit acts ok => (∃ i ∈ is, dbToolInfo i = true) ∧ ok = true ∧ (acts = [.help] ∨ acts = [.version]) := by
  induction is using item_induction with
  | h0 =>
    refine ⟨?_, fun i hi => by cases hi⟩
    show ({} : DbToolArgs) = dbToolArgsOf []
    decide +kernel
  | h1 is i ih =>
    have ih := ih (fun x hx => hp x (by simp [hx]))
    have hi := dbTool_option is i (hp i (by simp))
    rw [List.map_append, List.map_cons, List.map_nil, options_snoc]
    cases ho : options dbToolOption {} (is.map dbToolOpts.tok) with
    | go a =>
      rw [ho] at ih
      obtain ⟨ih1, ih2⟩ := ih
      dsimp only
      rw [ih1]
      cases ho2 : dbToolOption (dbToolArgsOf is) (dbToolOpts.tok i) with
      | go a' =>
        rw [ho2] at hi
        refine ⟨hi.1, fun j hj => ?_⟩
        rcases List.mem_append.1 hj with hj | hj
        · exact ih2 j hj
        · rw [List.mem_singleton.1 hj]; exact hi.2
      | exit x y => rw [ho2] at hi; exact ⟨⟨i, by simp, hi.1⟩, hi.2⟩
    | exit acts ok =>
      rw [ho] at ih
      obtain ⟨⟨j, hj, h1⟩, h2⟩ := ih
      exact ⟨⟨j, by simp [hj], h1⟩, h2⟩

theorem dbToolInfo_iff (is : List Item) : (∃ i ∈ is, dbToolInfo i = true) ↔ Given (b "help") is ∨ Given (b "version") is := by
  unfold dbToolInfo Given
  constructor
  · intro ⟨i, hi, h⟩
    simp only [Bool.or_eq_true, beq_iff_eq] at h
    rcases h with h | h
    · exact .inl ⟨i, hi, h⟩
    · exact .inr ⟨i, hi, h⟩
  · rintro (⟨i, hi, h⟩ | ⟨i, hi, h⟩) <;> exact ⟨i, hi, by simp [h]⟩

/-- What the command line asks osmo-hlr-db-tool to do (its help text): create a database, or import
from another one. -/
def Commands (ps : List Bytes) (imports : Option Bytes) : Prop :=
  (ps = [b "create"] ∧ imports = none) ∨ ∃ f, ps = [b "import-nitb-db", f] ∧ imports = some f

theorem dbToolCommand_go {a a' : DbToolArgs} {ps : List Bytes} (h : dbToolCommand a ps = .go a') :
    ∃ i, Commands ps i ∧ a' = { a with imports := i.orElse (fun _ => a.imports) } := by
  unfold dbToolCommand at h
  split at h
  · cases h
  · split at h
    · rename_i hc
      split at h
      · rename_i he
        cases h
        rw [List.isEmpty_iff.1 he, hc]
        exact ⟨none, .inl ⟨by decide +kernel, rfl⟩, rfl⟩
      · cases h
    · split at h
      · rename_i hc
        split at h
        · cases h
        · rename_i f ps'
          split at h
          · rename_i he
            cases h
            rw [List.isEmpty_iff.1 he, hc]
            exact ⟨some f, .inr ⟨f, by rw [show wImport = b "import-nitb-db" by decide +kernel], rfl⟩, rfl⟩
          · cases h
      · cases h

theorem dbToolCommand_of {a : DbToolArgs} {ps : List Bytes} {i : Option Bytes} (h : Commands ps i) (ha : a.imports = none) :
    dbToolCommand a ps = .go { a with imports := i } := by
  rcases h with ⟨rfl, rfl⟩ | ⟨f, rfl, rfl⟩
  · rw [show b "create" = wCreate by decide +kernel]
    obtain ⟨x, y, z⟩ := a
    dsimp only at ha; subst ha
    rfl
  · rw [show b "import-nitb-db" = wImport by decide +kernel]
    rfl

theorem dbToolCommand_exit {a : DbToolArgs} {ps : List Bytes} {acts : List Act} {ok : Bool} (h : dbToolCommand a ps = .exit acts ok) :
    ok = false ∧ acts = [.help] := by
  unfold dbToolCommand at h
  repeat' split at h
  all_goals first
    | (cases h; exact ⟨rfl, rfl⟩)
    | cases h

/-- All that can happen. -/
theorem dbTool_cases (w : World) (imp : Bytes → DFile → Bool × DFile) (ws : List Bytes) :
    (∃ acts ok, (∀ x ∈ acts, x = .help ∨ x = .version) ∧ dbToolMain w imp ws = { acts := acts, status := okStatus ok, disk := w.disk }) ∨
    ∃ is ps i, Cmdline dbToolDoc w.posix ws is ps ∧ Commands ps i ∧ ¬ (Given (b "help") is ∨ Given (b "version") is) ∧
      let p := lastArg (b "database") (b "hlr.db") is
      let up := decide (Given (b "db-upgrade") is)
      let r := openPath w p up
      (r.1 ≠ .opened ∧ (dbToolMain w imp ws).disk = r.2 ∧ (dbToolMain w imp ws).acts = [.openDb p up] ∧
        (dbToolMain w imp ws).status ≠ .ok) ∨
      (r.1 = .opened ∧ i = none ∧ dbToolMain w imp ws = { acts := [.openDb p up], status := .ok, disk := r.2 }) ∨
      (r.1 = .opened ∧ ∃ f, i = some f ∧ dbToolMain w imp ws = { acts := [.openDb p up, .imports f], status := okStatus (imp f ((r.2 p).getD {})).1, disk := setFile r.2 p (imp f ((r.2 p).getD {})).2 }) := by
  unfold dbToolMain
  cases hh : dbToolHandle w ws with
  | exit acts ok =>
    refine .inl ⟨acts, ok, ?_, rfl⟩
    unfold dbToolHandle at hh
    have loop : ∀ (ts : List Tok) (a : DbToolArgs) (x : List Act) (y : Bool), options dbToolOption a ts = .exit x y → ∀ z ∈ x, z = .help ∨ z = .version := by
      intro ts
      induction ts with
      | nil => intro a x y e; cases e
      | cons t ts ih =>
        intro a x y e
        rw [options] at e
        cases hf : dbToolOption a t with
        | go a' => rw [hf] at e; exact ih _ _ _ e
        | exit x' y' =>
          rw [hf] at e; cases e
          unfold dbToolOption at hf
          split at hf <;> first
            | (cases hf; simp; done)
            | cases hf
    cases ho : options dbToolOption {} (scan dbToolOpts w.posix ws).1 with
    | exit x y => rw [ho] at hh; cases hh; exact loop _ _ _ _ ho
    | go a =>
      rw [ho] at hh
      rw [(dbToolCommand_exit hh).2]
      simp
  | go a =>
    dsimp only
    cases hrand : w.rand with
    | false => exact .inl ⟨[], false, by simp, by simp [okStatus]⟩
    | true =>
      unfold dbToolHandle at hh
      have hb : .bad ∉ (scan dbToolOpts w.posix ws).1 := by
        intro hb
        obtain ⟨x, y, e⟩ := bad_exits dbToolOption (fun a => ⟨[], false, rfl⟩) _ hb {}
        rw [e] at hh; cases hh
      obtain ⟨is, hi⟩ := dbTool_agree.said w.posix ws hb
      have hr := dbTool_agree.reads hi
      have hp := dbTool_options is hi.items
      generalize (scan dbToolOpts w.posix ws).2 = ps at hr hi
      rw [hr] at hh
      dsimp only at hh
      cases ho : options dbToolOption {} (is.map dbToolOpts.tok) with
      | exit x y => rw [ho] at hh; cases hh
      | go a' =>
        rw [ho] at hh hp
        obtain ⟨hp1, hp2⟩ := hp
        dsimp only at hh
        obtain ⟨i, hcm, ha⟩ := dbToolCommand_go hh
        have hno : ¬ (Given (b "help") is ∨ Given (b "version") is) := by
          intro hg
          obtain ⟨j, hj, e⟩ := (dbToolInfo_iff is).2 hg
          rw [hp2 j hj] at e; cases e
        refine .inr ⟨is, ps, i, hi, hcm, hno, ?_⟩
        have hdb : a.db = lastArg (b "database") (b "hlr.db") is := by rw [ha, hp1]; rfl
        have hup : a.upgrade = decide (Given (b "db-upgrade") is) := by rw [ha, hp1]; rfl
        have him : a.imports = i := by rw [ha, hp1]; cases i <;> rfl
        simp only [Bool.not_true, Bool.false_eq_true, if_false]
        rw [hdb, hup, him]
        cases hop : (openPath w (lastArg (b "database") (b "hlr.db") is) (decide (Given (b "db-upgrade") is))).1 with
        | failed => exact .inl ⟨by simp, rfl, rfl, by simp⟩
        | died => exact .inl ⟨by simp, rfl, rfl, by simp⟩
        | opened =>
          refine .inr ?_
          cases i with
          | none => exact .inl ⟨rfl, rfl, rfl⟩
          | some f => exact .inr ⟨rfl, f, rfl, rfl⟩

/-- **C74.** osmo-hlr-db-tool does what its command line says, in any documented way of writing it: it
opens the last `--database`, or else hlr.db, upgrades it only with `--db-upgrade`, and imports from
the file named. -/
theorem c74_dbtool (w : World) (imp : Bytes → DFile → Bool × DFile) (ws : List Bytes) (is : List Item) (ps : List Bytes) (i : Option Bytes)
    (hc : Cmdline dbToolDoc w.posix ws is ps) (hcm : Commands ps i) (hi : ¬ (Given (b "help") is ∨ Given (b "version") is))
    (hrand : w.rand = true) (p : Bytes) (hp : p = lastArg (b "database") (b "hlr.db") is)
    (ho : (openPath w p (decide (Given (b "db-upgrade") is))).1 = .opened) :
    (i = none → (dbToolMain w imp ws).status = .ok ∧ (dbToolMain w imp ws).acts = [.openDb p (decide (Given (b "db-upgrade") is))] ∧
      (dbToolMain w imp ws).disk = (openPath w p (decide (Given (b "db-upgrade") is))).2) ∧
    (∀ f, i = some f → (dbToolMain w imp ws).acts = [.openDb p (decide (Given (b "db-upgrade") is)), .imports f]) := by
  have hpo := dbTool_options is hc.items
  have e : dbToolHandle w ws = .go { dbToolArgsOf is with imports := i } := by
    unfold dbToolHandle
    rw [dbTool_agree.reads hc]
    dsimp only
    cases hx : options dbToolOption {} (is.map dbToolOpts.tok) with
    | exit x y => rw [hx] at hpo; exact absurd ((dbToolInfo_iff is).1 hpo.1) hi
    | go a =>
      rw [hx] at hpo
      dsimp only
      rw [hpo.1]
      exact dbToolCommand_of hcm rfl
  have hdb : (dbToolArgsOf is).db = p := hp.symm
  have hup : (dbToolArgsOf is).upgrade = decide (Given (b "db-upgrade") is) := rfl
  unfold dbToolMain
  rw [e]
  dsimp only
  rw [hrand, hdb, hup]
  simp only [Bool.not_true, Bool.false_eq_true, if_false]
  rw [ho]
  constructor
  · rintro rfl; exact ⟨rfl, rfl, rfl⟩
  · rintro f rfl; rfl

/-- **C74.** `create` makes an empty database of the current version where there was none, and leaves
all other files alone. -/
theorem c74_dbtool_create (w : World) (imp : Bytes → DFile → Bool × DFile) (ws : List Bytes) (is : List Item)
    (hc : Cmdline dbToolDoc w.posix ws is [b "create"]) (hi : ¬ (Given (b "help") is ∨ Given (b "version") is))
    (hrand : w.rand = true) (p : Bytes) (hp : p = lastArg (b "database") (b "hlr.db") is)
    (hnew : w.disk p = none) (hop : w.openable p = true) (hs : w.script = []) :
    (dbToolMain w imp ws).status = .ok ∧
    (∃ f, (dbToolMain w imp ws).disk p = some f ∧ Layout 7 f.db ∧ ∀ t x, f.db.tables t = some x → x.rows = []) ∧
    ∀ q, q ≠ p → (dbToolMain w imp ws).disk q = w.disk q := by
  obtain ⟨f', h1, h2, h3⟩ := c18_empty_initialised (decide (Given (b "db-upgrade") is)) {} ⟨rfl, rfl, fun _ => rfl⟩
  have e : openPath w p (decide (Given (b "db-upgrade") is)) = (.opened, setFile w.disk p { db := f', wal := true }) := by
    unfold openPath
    rw [if_pos hop, hnew, hs]
    simp only [Option.map_none, Option.getD_none]
    rw [h1]
  obtain ⟨g1, _⟩ := c74_dbtool w imp ws is [b "create"] none hc (.inl ⟨rfl, rfl⟩) hi hrand p hp (by rw [e])
  obtain ⟨g1, _, g3⟩ := g1 rfl
  rw [e] at g3
  refine ⟨g1, ⟨_, by rw [g3]; simp only [setFile, if_true]; rfl, h2, h3⟩, ?_⟩
  intro q hq
  rw [g3]
  simp [setFile, hq]

/-- **C74.** Whatever is on the command line: osmo-hlr-db-tool changes at most the database named, the
content of one in use changes only with `--db-upgrade` or an import, and if the command line is not
as documented, nothing changes. -/
theorem c74_dbtool_safe (w : World) (imp : Bytes → DFile → Bool × DFile) (ws : List Bytes) (q : Bytes)
    (h : (dbToolMain w imp ws).disk q ≠ w.disk q) :
    ∃ is ps i, Cmdline dbToolDoc w.posix ws is ps ∧ Commands ps i ∧ ¬ (Given (b "help") is ∨ Given (b "version") is) ∧
      q = lastArg (b "database") (b "hlr.db") is ∧
      ∀ f, w.disk q = some f → InUse f.db → ∃ f', (dbToolMain w imp ws).disk q = some f' ∧
        (f'.db ≠ f.db → Given (b "db-upgrade") is ∨ i.isSome = true) := by
  rcases dbTool_cases w imp ws with ⟨acts, ok, _, e⟩ | ⟨is, ps, i, hc, hcm, hno, hh⟩
  · rw [e] at h; exact absurd rfl h
  · refine ⟨is, ps, i, hc, hcm, hno, ?_⟩
    dsimp only at hh
    have hq : q = lastArg (b "database") (b "hlr.db") is := by
      apply Classical.byContradiction
      intro hq
      apply h
      rcases hh with ⟨_, e, _⟩ | ⟨_, _, e⟩ | ⟨_, f, _, e⟩
      · rw [e]; exact openPath_other _ _ _ hq
      · rw [e]; exact openPath_other _ _ _ hq
      · rw [e]; simp only [setFile, hq, if_false]; exact openPath_other _ _ _ hq
    refine ⟨hq, ?_⟩
    intro f hf hu
    have hd : i = none → (dbToolMain w imp ws).disk = (openPath w (lastArg (b "database") (b "hlr.db") is) (decide (Given (b "db-upgrade") is))).2 := by
      intro hi
      rcases hh with ⟨_, e, _⟩ | ⟨_, _, e⟩ | ⟨_, f, hf, _⟩
      · exact e
      · rw [e]
      · rw [hi] at hf; cases hf
    have stays : ∃ f', (dbToolMain w imp ws).disk q = some f' := by
      have h0 : ∃ f', (openPath w (lastArg (b "database") (b "hlr.db") is) (decide (Given (b "db-upgrade") is))).2 q = some f' := by
        unfold openPath
        split
        · exact ⟨_, by simp only [setFile, hq, if_true]; rfl⟩
        · exact ⟨f, hf⟩
      rcases hh with ⟨_, e, _⟩ | ⟨_, _, e⟩ | ⟨_, f, _, e⟩
      · rw [e]; exact h0
      · rw [e]; exact h0
      · rw [e]; exact ⟨_, by simp only [setFile, hq, if_true]; rfl⟩
    cases i with
    | some x =>
      obtain ⟨f', e⟩ := stays
      exact ⟨f', e, fun _ => .inr rfl⟩
    | none =>
      by_cases hg : Given (b "db-upgrade") is
      · obtain ⟨f', e⟩ := stays
        exact ⟨f', e, fun _ => .inl hg⟩
      · obtain ⟨f', e1, e2⟩ := openPath_false w (lastArg (b "database") (b "hlr.db") is) q f hf hu
        refine ⟨f', ?_, fun hne => absurd e2 hne⟩
        rw [hd rfl]
        simpa [hg] using e1

/-! ## Examples -/

def exToolWorld : World where
  disk p := if p = b "old.db" then some { db := exV0 } else none
  env := Config.e0

/-- `osmo-hlr-db-tool create -l new.db`: the command may come first. -/
theorem ex_tool_cmdline : Cmdline dbToolDoc false (["create", "-l", "new.db"].map b) [⟨b "database", some (b "new.db")⟩] [b "create"] := by
  have h : Cmdline dbToolDoc false [b "-l", b "new.db"] [⟨b "database", some (b "new.db")⟩] [] :=
    .next (fs := []) (d := { short := some 108, long := b "database", arg := true }) (c := 108) (by intro d hd; cases hd)
      (by decide +kernel) rfl rfl .nil
  exact .word rfl (.inr (by intro u e; revert e; show b "create" ≠ _; rw [show b "create" = wCreate by decide +kernel]; simp [wCreate])) h

example (imp : Bytes → DFile → Bool × DFile) :
    (dbToolMain exToolWorld imp (["create", "-l", "new.db"].map b)).status = .ok :=
  (c74_dbtool_create exToolWorld imp _ _ ex_tool_cmdline (by decide +kernel) rfl (b "new.db") (by decide +kernel)
    (by simp only [exToolWorld]; rw [if_neg (by decide +kernel)]) rfl rfl).1

/-- Without `--db-upgrade` an older database is refused; only its journal mode is new. -/
example : (dbToolMain exToolWorld (fun _ f => (true, f)) (["create", "-lold.db"].map b)).status = .error ∧
    ((dbToolMain exToolWorld (fun _ f => (true, f)) (["create", "-lold.db"].map b)).disk (b "old.db")).map (fun f => (f.wal, f.db.version))
      = some (true, 0) ∧
    InUse exV0 := by
  refine ⟨by decide +kernel, by decide +kernel, .inr (by decide +kernel)⟩

end Verif.Start
