import Verif.Start.Lemmas
import Verif.DbOpen.Props
/-!
# C74: the programs do what their command lines say
-/
namespace Verif.Start
open Verif Verif.DbOpen Verif.DbOpen.Props

/-! ## osmo-hlr -/

theorem hlrInfo_iff (is : List Item) : (∃ i ∈ is, hlrInfo i = true) ↔ Info is := by
  unfold hlrInfo Info Given
  constructor
  · intro ⟨i, hi, h⟩
    simp only [Bool.or_eq_true, beq_iff_eq] at h
    rcases h with ((h | h) | h) | h
    · exact .inl ⟨i, hi, h⟩
    · exact .inr (.inl ⟨i, hi, h⟩)
    · exact .inr (.inr (.inl ⟨i, hi, h⟩))
    · exact .inr (.inr (.inr ⟨i, hi, h⟩))
  · rintro (⟨i, hi, h⟩ | ⟨i, hi, h⟩ | ⟨i, hi, h⟩ | ⟨i, hi, h⟩) <;> exact ⟨i, hi, by simp [h]⟩

/-- What is read when reading ends well. -/
theorem hlr_go {w : World} {ws : List Bytes} {a : HlrArgs} (h : hlrHandle w ws = .go a) :
    ∃ is, Cmdline hlrDocNoC w.posix ws is [] ∧ a = hlrArgsOf is := by
  unfold hlrHandle at h
  have hb : .bad ∉ (scan hlrOpts w.posix ws).1 := by
    intro hb
    obtain ⟨x, y, e⟩ := bad_exits (hlrOption w) (fun a => ⟨[], false, rfl⟩) _ hb {}
    rw [e] at h; cases h
  obtain ⟨is, hi⟩ := hlr_agree.said w.posix ws hb
  have hr := hlr_agree.reads hi
  have hp := hlr_options w is hi.items
  rw [hr] at h
  dsimp only at h
  cases ho : options (hlrOption w) {} (is.map hlrOpts.tok) with
  | exit x y => rw [ho] at h; cases h
  | go a' =>
    rw [ho] at h hp
    dsimp only at h hp
    split at h
    · rename_i he
      cases h
      rw [List.isEmpty_iff.1 he] at hi
      exact ⟨is, hi, hp⟩
    · cases h

/-- What is read from a documented command line. -/
theorem hlr_reads {w : World} {ws : List Bytes} {is : List Item} (hc : Cmdline hlrDocNoC w.posix ws is []) (hi : ¬ Info is) :
    hlrHandle w ws = .go (hlrArgsOf is) := by
  unfold hlrHandle
  rw [hlr_agree.reads hc]
  have hp := hlr_options w is hc.items
  dsimp only
  cases ho : options (hlrOption w) {} (is.map hlrOpts.tok) with
  | exit x y =>
    rw [ho] at hp
    exact absurd ((hlrInfo_iff is).1 hp.1) hi
  | go a =>
    rw [ho] at hp
    dsimp only at hp ⊢
    rw [hp]; rfl

/-- The answers to the options that end the program, or an error. -/
def Answer (acts : List Act) (ok : Bool) : Prop :=
  (acts = [] ∧ ok = false) ∨ (ok = true ∧ (acts = [.help] ∨ acts = [.version] ∨ acts = [.vtyRef]))

/-- What is printed when reading the options ends the program. -/
theorem hlr_exit {w : World} {ws : List Bytes} {acts : List Act} {ok : Bool} (h : hlrHandle w ws = .exit acts ok) : Answer acts ok := by
  have key : ∀ (a : HlrArgs) (t : Tok) (x : List Act) (y : Bool), hlrOption w a t = .exit x y → Answer x y := by
    intro a t x y e
    unfold hlrOption at e
    split at e <;> first
      | (cases e; simp [Answer]; done)
      | (split at e <;> cases e; simp [Answer])
      | cases e
  have loop : ∀ (ts : List Tok) (a : HlrArgs) (x : List Act) (y : Bool), options (hlrOption w) a ts = .exit x y → Answer x y := by
    intro ts
    induction ts with
    | nil => intro a x y e; cases e
    | cons t ts ih =>
      intro a x y e
      rw [options] at e
      cases hf : hlrOption w a t with
      | go a' => rw [hf] at e; exact ih _ _ _ e
      | exit x' y' => rw [hf] at e; cases e; exact key _ _ _ _ hf
  unfold hlrHandle at h
  cases ho : options (hlrOption w) {} (scan hlrOpts w.posix ws).1 with
  | exit x y => rw [ho] at h; cases h; exact loop _ _ _ _ ho
  | go a =>
    rw [ho] at h
    dsimp only at h
    split at h
    · cases h
    · cases h; exact .inl ⟨rfl, rfl⟩

/-- The database a start of osmo-hlr uses: the one of the last `--database`, or else that of the
configuration. -/
def dbNamed (is : List Item) (c : Config.St) : Bytes := lastArg (b "database") c.db is

theorem db_named (is : List Item) (c : Config.St) (hp : Proper hlrDocNoC is) : ((hlrArgsOf is).db).getD c.db = dbNamed is c := by
  unfold hlrArgsOf dbNamed
  dsimp only
  revert hp
  induction is using item_induction with
  | h0 => intro _; rfl
  | h1 is i ih =>
    intro hp
    have ih := ih (fun x hx => hp x (by simp [hx]))
    rw [lastArg_snoc, lastArg_snoc]
    by_cases h : i.name = b "database"
    · rw [if_pos h, if_pos h, if_pos ((given_snoc _ _ _).2 (.inr h))]
      obtain ⟨d, hd, h1, h2⟩ := hp i (by simp)
      have : d.arg = true := by
        have hall : ∀ d ∈ hlrDocNoC, d.long = b "database" → d.arg = true := by decide +kernel
        exact hall d hd (h1.trans h)
      rw [this] at h2
      obtain ⟨x, e⟩ := Option.isSome_iff_exists.1 h2
      rw [e]; rfl
    · rw [if_neg h, if_neg h]
      by_cases hg : Given (b "database") is
      · rw [if_pos hg] at ih
        rw [if_pos ((given_snoc _ _ _).2 (.inl hg))]
        exact ih
      · rw [if_neg hg] at ih
        rw [if_neg (fun hx => hg (((given_snoc _ _ _).1 hx).resolve_right h))]
        exact ih

/-- The configuration file a command line names. -/
def configNamed (is : List Item) : Bytes := lastArg (b "config-file") (b "osmo-hlr.cfg") is

/-- All that can happen at a start of osmo-hlr: it ends while reading its options; or it reads the
configuration named, and ends; or it opens the database named. -/
theorem hlr_cases (w : World) (ws : List Bytes) :
    (∃ acts ok, Answer acts ok ∧ hlrMain w ws = { acts := acts, status := okStatus ok, disk := w.disk }) ∨
    ∃ is, Cmdline hlrDocNoC w.posix ws is [] ∧
      (hlrMain w ws = { acts := [.config (configNamed is)], status := .error, disk := w.disk } ∨
       ∃ c, (w.cfg (configNamed is)).bind (Config.readFile w.env) = some c ∧
        let p := dbNamed is c
        let up := decide (Given (b "db-upgrade") is)
        let acts : List Act := [.config (configNamed is), .openDb p up]
        let r := openPath w p up
        (r.1 = .failed ∧ hlrMain w ws = { acts := acts, status := .error, disk := r.2 }) ∨
        (r.1 = .died ∧ hlrMain w ws = { acts := acts, status := .died, disk := r.2 }) ∨
        (r.1 = .opened ∧ Given (b "db-check") is ∧ hlrMain w ws = { acts := acts, status := .ok, disk := r.2 }) ∨
        (r.1 = .opened ∧ ¬ Given (b "db-check") is ∧
          hlrMain w ws = hlrServe w (hlrArgsOf is) { c with db := p } acts r.2)) := by
  unfold hlrMain
  cases hh : hlrHandle w ws with
  | exit acts ok =>
    exact .inl ⟨acts, ok, hlr_exit hh, rfl⟩
  | go a =>
    obtain ⟨is, hc, rfl⟩ := hlr_go hh
    refine .inr ⟨is, hc, ?_⟩
    dsimp only
    have hcf : (hlrArgsOf is).config = configNamed is := rfl
    have hup : (hlrArgsOf is).upgrade = decide (Given (b "db-upgrade") is) := rfl
    have hck : (hlrArgsOf is).check = decide (Given (b "db-check") is) := rfl
    rw [hcf]
    cases hr : (w.cfg (configNamed is)).bind (Config.readFile w.env) with
    | none => exact .inl rfl
    | some c =>
      dsimp only
      cases hrand : w.rand with
      | false => exact .inl (by simp)
      | true =>
        refine .inr ⟨c, rfl, ?_⟩
        simp only [Bool.not_true, Bool.false_eq_true, if_false]
        rw [db_named is c hc.items, hup, hck]
        cases ho : (openPath w (dbNamed is c) (decide (Given (b "db-upgrade") is))).1 with
        | failed => exact .inl ⟨rfl, rfl⟩
        | died => exact .inr (.inl ⟨rfl, rfl⟩)
        | opened =>
          refine .inr (.inr ?_)
          dsimp only
          by_cases hg : Given (b "db-check") is
          · exact .inl ⟨rfl, hg, by rw [if_pos (by simp [hg])]⟩
          · exact .inr ⟨rfl, hg, by rw [if_neg (by simp [hg])]⟩

/-- What a start that does not open the database leaves behind. -/
theorem openPath_other (w : World) (p : Bytes) (up : Bool) {q : Bytes} (h : q ≠ p) : (openPath w p up).2 q = w.disk q := by
  unfold openPath
  split
  · simp [setFile, h]
  · rfl

theorem hlrServe_disk (w : World) (a : HlrArgs) (c : Config.St) (acts : List Act) (d : Bytes → Option DFile) :
    (hlrServe w a c acts d).disk = d := by
  unfold hlrServe
  split
  · rfl
  · split
    · rfl
    · dsimp only
      split
      · split <;> rfl
      · rfl

/-- A file that holds a database: not an empty one that is yet to be initialised. -/
def InUse (f : File) : Prop := f.version ≠ 0 ∨ (f.tables .subscriber).isSome = true

/-- Without permission to upgrade, opening leaves a database in use as it is. -/
theorem dbOpen_false (f : File) (s : Db.Script) (h : InUse f) : (dbOpen false f s).2 = f := by
  by_cases h1 : f.version > 7 ∨ f.version < 0
  · exact (c18_unknown_version_refused false f s h1).2
  · by_cases h7 : f.version = 7
    · unfold dbOpen
      split
      · rfl
      · rfl
      · dsimp only
        rw [if_neg (by omega), if_neg (by omega), if_pos (by omega)]
        simp [openUpgrade, openEnd_file]
    · refine (c18_no_permission_refused f s ?_).2
      rcases h with h | h
      · exact .inl (by omega)
      · by_cases h0 : f.version = 0
        · exact .inr ⟨h0, h⟩
        · exact .inl (by omega)

theorem openPath_false (w : World) (p q : Bytes) (f : DFile) (hf : w.disk q = some f) (h : InUse f.db) :
    ∃ f', (openPath w p false).2 q = some f' ∧ f'.db = f.db := by
  by_cases hq : q = p
  · subst hq
    unfold openPath
    split
    · refine ⟨_, by simp only [setFile, if_true]; rfl, ?_⟩
      simp only [hf, Option.map_some, Option.getD_some]
      exact dbOpen_false _ _ h
    · exact ⟨f, hf, rfl⟩
  · exact ⟨f, (openPath_other w p false hq).trans hf, rfl⟩

/-- **C74.** osmo-hlr does what its command line says, in any documented way of writing it: with the
last `--config-file`, or else osmo-hlr.cfg, for its configuration, the last `--database`, or else the
database of the configuration, upgraded only with `--db-upgrade`, it starts to serve, in the
background with `--daemonize`; with `--db-check` it ends well after opening the database.
_partial: not for the documented `-C` (`c74_check_violated`). -/
theorem c74_hlr_partial (w : World) (ws : List Bytes) (is : List Item) (hc : Cmdline hlrDocNoC w.posix ws is []) (hi : ¬ Info is)
    (c : Config.St) (lines : List Bytes) (hf : w.cfg (configNamed is) = some lines) (hr : Config.readFile w.env lines = some c)
    (hrand : w.rand = true) (ho : (openPath w (dbNamed is c) (decide (Given (b "db-upgrade") is))).1 = .opened) :
    (hlrMain w ws).disk = (openPath w (dbNamed is c) (decide (Given (b "db-upgrade") is))).2 ∧
    (Given (b "db-check") is → (hlrMain w ws).status = .ok ∧
      (hlrMain w ws).acts = [.config (configNamed is), .openDb (dbNamed is c) (decide (Given (b "db-upgrade") is))]) ∧
    (¬ Given (b "db-check") is → w.vty = true → w.gsup = true → w.ctrl = true → w.fork = true →
      (hlrMain w ws).status = .running ∧ (hlrMain w ws).conf = some { c with db := dbNamed is c } ∧
      (hlrMain w ws).acts = [.config (configNamed is), .openDb (dbNamed is c) (decide (Given (b "db-upgrade") is)),
        .listenVty, .listenGsup, .listenCtrl] ++ (if Given (b "daemonize") is then [.daemonized] else [])) := by
  have hcf : (hlrArgsOf is).config = configNamed is := rfl
  have hup : (hlrArgsOf is).upgrade = decide (Given (b "db-upgrade") is) := rfl
  have hck : (hlrArgsOf is).check = decide (Given (b "db-check") is) := rfl
  have hda : (hlrArgsOf is).daemonize = decide (Given (b "daemonize") is) := rfl
  have hb : (w.cfg (configNamed is)).bind (Config.readFile w.env) = some c := by rw [hf]; exact hr
  have e : hlrMain w ws =
      if decide (Given (b "db-check") is) then
        { acts := [.config (configNamed is), .openDb (dbNamed is c) (decide (Given (b "db-upgrade") is))], status := .ok,
          disk := (openPath w (dbNamed is c) (decide (Given (b "db-upgrade") is))).2 }
      else hlrServe w (hlrArgsOf is) { c with db := dbNamed is c }
        [.config (configNamed is), .openDb (dbNamed is c) (decide (Given (b "db-upgrade") is))]
        (openPath w (dbNamed is c) (decide (Given (b "db-upgrade") is))).2 := by
    unfold hlrMain
    rw [hlr_reads hc hi]
    dsimp only
    rw [hcf, hb]
    dsimp only
    rw [hrand]
    simp only [Bool.not_true, Bool.false_eq_true, if_false]
    rw [db_named is c hc.items, hup, hck, ho]
  rw [e]
  refine ⟨?_, ?_, ?_⟩
  · split
    · rfl
    · exact hlrServe_disk _ _ _ _ _
  · intro hg
    rw [if_pos (by simp [hg])]
    exact ⟨rfl, rfl⟩
  · intro hg h1 h2 h3 h4
    rw [if_neg (by simp [hg])]
    unfold hlrServe
    rw [h1, h2, h3, h4, hda]
    by_cases hd : Given (b "daemonize") is
    · simp [hd]
    · simp [hd]

/-- **C74.** Of all files, a start of osmo-hlr changes at most the database that the command line
or the configuration names. -/
theorem c74_hlr_only_named (w : World) (ws : List Bytes) (q : Bytes) (h : (hlrMain w ws).disk q ≠ w.disk q) :
    ∃ is c, Cmdline hlrDocNoC w.posix ws is [] ∧ (w.cfg (configNamed is)).bind (Config.readFile w.env) = some c ∧
      q = dbNamed is c := by
  rcases hlr_cases w ws with ⟨acts, ok, _, e⟩ | ⟨is, hc, e | ⟨c, hcfg, hh⟩⟩
  · rw [e] at h; exact absurd rfl h
  · rw [e] at h; exact absurd rfl h
  · refine ⟨is, c, hc, hcfg, ?_⟩
    apply Classical.byContradiction
    intro hq
    apply h
    dsimp only at hh
    rcases hh with ⟨_, e⟩ | ⟨_, e⟩ | ⟨_, _, e⟩ | ⟨_, _, e⟩
    · rw [e]; exact openPath_other _ _ _ hq
    · rw [e]; exact openPath_other _ _ _ hq
    · rw [e]; exact openPath_other _ _ _ hq
    · rw [e, hlrServe_disk]; exact openPath_other _ _ _ hq

/-- **C74.** Whatever is on the command line: the content of a database in use changes at a start
only if the command line says `--db-upgrade`, and the file stays. -/
theorem c74_hlr_upgrade_asked (w : World) (ws : List Bytes) (q : Bytes) (f : DFile) (hf : w.disk q = some f) (hu : InUse f.db) :
    ∃ f', (hlrMain w ws).disk q = some f' ∧
      (f'.db ≠ f.db → ∃ is, Cmdline hlrDocNoC w.posix ws is [] ∧ Given (b "db-upgrade") is) := by
  rcases hlr_cases w ws with ⟨acts, ok, _, e⟩ | ⟨is, hc, e | ⟨c, hcfg, hh⟩⟩
  · rw [e]; exact ⟨f, hf, fun h => absurd rfl h⟩
  · rw [e]; exact ⟨f, hf, fun h => absurd rfl h⟩
  · have hd : (hlrMain w ws).disk = (openPath w (dbNamed is c) (decide (Given (b "db-upgrade") is))).2 := by
      dsimp only at hh
      rcases hh with ⟨_, e⟩ | ⟨_, e⟩ | ⟨_, _, e⟩ | ⟨_, _, e⟩
      · rw [e]
      · rw [e]
      · rw [e]
      · rw [e, hlrServe_disk]
    rw [hd]
    by_cases hg : Given (b "db-upgrade") is
    · have : ∃ f', (openPath w (dbNamed is c) (decide (Given (b "db-upgrade") is))).2 q = some f' := by
        unfold openPath
        split
        · by_cases hq : q = dbNamed is c
          · exact ⟨_, by simp only [setFile, hq, if_true]; rfl⟩
          · exact ⟨f, by simp only [setFile, hq, if_false]; exact hf⟩
        · exact ⟨f, hf⟩
      obtain ⟨f', e⟩ := this
      exact ⟨f', e, fun _ => ⟨is, hc, hg⟩⟩
    · obtain ⟨f', e1, e2⟩ := openPath_false w (dbNamed is c) q f hf hu
      refine ⟨f', ?_, fun h => absurd e2 h⟩
      simpa [hg] using e1

/-- **C74.** A command line that is not as documented, or has words that are no options, or asks for
help or the version, or a configuration file that is not there or not understood: no database is
touched and nothing is served. -/
theorem c74_hlr_refused (w : World) (ws : List Bytes)
    (h : ∀ is, Cmdline hlrDocNoC w.posix ws is [] → Info is ∧ ¬ Given (b "vty-ref-mode") is ∨
      (w.cfg (configNamed is)).bind (Config.readFile w.env) = none) :
    (hlrMain w ws).disk = w.disk ∧ ((hlrMain w ws).status = .ok ∨ (hlrMain w ws).status = .error) ∧
      (∀ p u, .openDb p u ∉ (hlrMain w ws).acts) ∧ .listenVty ∉ (hlrMain w ws).acts ∧ .listenGsup ∉ (hlrMain w ws).acts ∧
      .listenCtrl ∉ (hlrMain w ws).acts := by
  have hans : ∀ acts ok, Answer acts ok → hlrMain w ws = { acts := acts, status := okStatus ok, disk := w.disk } →
      (hlrMain w ws).disk = w.disk ∧ ((hlrMain w ws).status = .ok ∨ (hlrMain w ws).status = .error) ∧
      (∀ p u, .openDb p u ∉ (hlrMain w ws).acts) ∧ .listenVty ∉ (hlrMain w ws).acts ∧ .listenGsup ∉ (hlrMain w ws).acts ∧
      .listenCtrl ∉ (hlrMain w ws).acts := by
    intro acts ok ha e
    rw [e]
    refine ⟨rfl, ?_, ?_⟩
    · cases ok
      · exact .inr rfl
      · exact .inl rfl
    · rcases ha with ⟨rfl, _⟩ | ⟨_, rfl | rfl | rfl⟩ <;> simp
  cases hh : hlrHandle w ws with
  | exit acts ok =>
    refine hans acts ok (hlr_exit hh) ?_
    unfold hlrMain
    rw [hh]
  | go a =>
    obtain ⟨is, hc, rfl⟩ := hlr_go hh
    rcases h is hc with ⟨h1, h2⟩ | h1
    · exfalso
      -- an option that ends the program does
      have : ∀ is : List Item, Info is → ¬ Given (b "vty-ref-mode") is → ∀ a, ∃ x y, options (hlrOption w) a (is.map hlrOpts.tok) = .exit x y := by
        intro is
        induction is with
        | nil => intro h _ a; simp [Info, Given] at h
        | cons i is ih =>
          intro hI hM a
          rw [List.map_cons, options]
          by_cases hn : i.name = b "help" ∨ i.name = b "version" ∨ i.name = b "vty-ref-xml"
          · obtain ⟨name, arg⟩ := i
            dsimp only at hn
            rw [n_help, n_version, n_vty_ref_xml] at hn
            rcases hn with rfl | rfl | rfl <;>
              exact ⟨_, _, by simp [Opts.tok, hlrOpts, Long.tok, hlrOption]; exact ⟨rfl, rfl⟩⟩
          · cases hlrOption w a (hlrOpts.tok i) with
            | exit x y => exact ⟨x, y, rfl⟩
            | go a' =>
              refine ih ?_ (fun ⟨j, hj, e⟩ => hM ⟨j, by simp [hj], e⟩) a'
              simp only [not_or] at hn
              rcases hI with ⟨j, hj, e⟩ | ⟨j, hj, e⟩ | ⟨j, hj, e⟩ | ⟨j, hj, e⟩
              · rcases List.mem_cons.1 hj with rfl | hj
                · exact absurd e hn.1
                · exact .inl ⟨j, hj, e⟩
              · rcases List.mem_cons.1 hj with rfl | hj
                · exact absurd e hn.2.1
                · exact .inr (.inl ⟨j, hj, e⟩)
              · exact absurd ⟨j, hj, e⟩ hM
              · rcases List.mem_cons.1 hj with rfl | hj
                · exact absurd e hn.2.2
                · exact .inr (.inr (.inr ⟨j, hj, e⟩))
      obtain ⟨x, y, e⟩ := this is h1 h2 {}
      unfold hlrHandle at hh
      rw [hlr_agree.reads hc] at hh
      dsimp only at hh
      rw [e] at hh
      cases hh
    · have e : hlrMain w ws = { acts := [.config (configNamed is)], status := .error, disk := w.disk } := by
        unfold hlrMain
        rw [hh]
        dsimp only
        have hcf : (hlrArgsOf is).config = configNamed is := rfl
        rw [hcf, h1]
      rw [e]
      exact ⟨rfl, .inr rfl, by simp, by simp, by simp, by simp⟩

/-- **C74.** Whatever is on the command line: nothing is served unless a database of the current
version, with all that the program needs, was opened, and never with `--db-check`. -/
theorem c74_hlr_serves (w : World) (ws : List Bytes)
    (h : (hlrMain w ws).status = .running ∨ .listenVty ∈ (hlrMain w ws).acts ∨ .listenGsup ∈ (hlrMain w ws).acts ∨
      .listenCtrl ∈ (hlrMain w ws).acts) :
    ∃ is c f, Cmdline hlrDocNoC w.posix ws is [] ∧ ¬ Given (b "db-check") is ∧
      (w.cfg (configNamed is)).bind (Config.readFile w.env) = some c ∧
      (hlrMain w ws).disk (dbNamed is c) = some f ∧ f.db.version = 7 ∧ prepareOk f.db = true := by
  rcases hlr_cases w ws with ⟨acts, ok, ha, e⟩ | ⟨is, hc, e | ⟨c, hcfg, hh⟩⟩
  · rw [e] at h
    exfalso
    rcases ha with ⟨rfl, rfl⟩ | ⟨rfl, rfl | rfl | rfl⟩ <;> simp [okStatus] at h
  · rw [e] at h; simp at h
  · dsimp only at hh
    rcases hh with ⟨_, e⟩ | ⟨_, e⟩ | ⟨_, _, e⟩ | ⟨ho, hn, e⟩
    · rw [e] at h; simp at h
    · rw [e] at h; simp at h
    · rw [e] at h; simp at h
    · have hd : (hlrMain w ws).disk = (openPath w (dbNamed is c) (decide (Given (b "db-upgrade") is))).2 := by
        rw [e, hlrServe_disk]
      rw [hd]
      unfold openPath at ho ⊢
      split at ho
      · rename_i hop
        obtain ⟨h1, h2⟩ := c18_only_version7 _ _ _ ho
        exact ⟨is, c, _, hc, hn, hcfg, by rw [if_pos hop]; simp only [setFile, if_true]; rfl, h1, h2⟩
      · cases ho

end Verif.Start
