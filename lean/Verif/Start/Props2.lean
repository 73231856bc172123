import Verif.Start.Props
import Verif.Config.Props
/-!
# C74: examples, and where osmo-hlr does not do what its command line says
-/
namespace Verif.Start
open Verif Verif.DbOpen Verif.DbOpen.Props

/-- A configuration file. -/
def exLines : List Bytes := ["hlr", " database /var/lib/hlr.db"].map b

/-- A system with this configuration, a database of an older version, and an empty one. -/
def exWorld : World where
  disk p := if p = b "/var/lib/hlr.db" then some { db := exV0 } else if p = b "new.db" then some {} else none
  cfg p := if p = b "/etc/hlr.cfg" then some exLines else none
  env := Config.e0

theorem ex_names {n : String} {d : Doc} (h : d ∈ hlrDocNoC) (e : d.long = b n) : Names hlrDocNoC (b n) d := e ▸ .full h

def dDatabase : Doc := { short := some 108, long := b "database", arg := true }
def dConfig : Doc := { short := some 99, long := b "config-file", arg := true }
def dUpgrade : Doc := { short := some 85, long := b "db-upgrade" }
def dDaemonize : Doc := { short := some 68, long := b "daemonize" }
def dCheck : Doc := { long := b "db-check" }

/-- `osmo-hlr -DUc /etc/hlr.cfg --database=new.db`. -/
def exWords : List Bytes := ["-DUc", "/etc/hlr.cfg", "--database=new.db"].map b
def exItems : List Item := [⟨b "daemonize", none⟩, ⟨b "db-upgrade", none⟩, ⟨b "config-file", some (b "/etc/hlr.cfg")⟩,
  ⟨b "database", some (b "new.db")⟩]

theorem ex_cmdline (posix : Bool) : Cmdline hlrDocNoC posix exWords exItems [] := by
  have h1 : Cmdline hlrDocNoC posix [b "--database=new.db"] [⟨b "database", some (b "new.db")⟩] [] :=
    .longEq (w := b "database") (a := b "new.db") (d := dDatabase) (ex_names (by decide +kernel) rfl) rfl .nil
  have h2 := Cmdline.next (posix := posix) (fs := [dDaemonize, dUpgrade]) (d := dConfig) (c := 99) (a := b "/etc/hlr.cfg")
    (by unfold Flags; decide +kernel) (by decide +kernel) rfl rfl h1
  exact h2

/-- The abbreviation `--db-u` stands for `--db-upgrade`, `--db` for nothing. -/
example : Names hlrDocNoC (b "db-u") dUpgrade ∧ ∀ d, ¬ Names hlrDocNoC (b "db") d := by
  refine ⟨.part (by decide +kernel) (by decide +kernel) (by decide +kernel) (by decide +kernel), ?_⟩
  intro d h
  have h1 : ∀ d ∈ hlrDocNoC, ¬ (b "db" = d.long) := by decide +kernel
  have h2 : ∃ x ∈ hlrDocNoC, ∃ y ∈ hlrDocNoC, b "db" <+: x.long ∧ b "db" <+: y.long ∧ x ≠ y := by decide +kernel
  generalize he : b "db" = w at h
  cases h with
  | full hd => exact h1 d hd he
  | part hd _ _ hu =>
    obtain ⟨x, hx, y, hy, g1, g2, g3⟩ := h2
    rw [he] at g1 g2
    exact g3 ((hu x hx g1).trans (hu y hy g2).symm)

/-- The hypotheses of `c74_hlr_partial` are met: the HLR starts in the background with a new
database. -/
example : Cmdline hlrDocNoC exWorld.posix exWords exItems [] ∧ ¬ Info exItems ∧
    exWorld.cfg (configNamed exItems) = some exLines ∧ (∃ c, Config.readFile exWorld.env exLines = some c ∧
      c.db = b "/var/lib/hlr.db" ∧ dbNamed exItems c = b "new.db" ∧
      (openPath exWorld (dbNamed exItems c) (decide (Given (b "db-upgrade") exItems))).1 = .opened) ∧
    (hlrMain exWorld exWords).status = .running ∧
    (hlrMain exWorld exWords).acts = [.config (b "/etc/hlr.cfg"), .openDb (b "new.db") true, .listenVty, .listenGsup, .listenCtrl,
      .daemonized] := by
  refine ⟨ex_cmdline _, ?_, by decide +kernel, ?_, by decide +kernel, by decide +kernel⟩
  · unfold Info; decide +kernel
  · have h : ∃ c, Config.readFile exWorld.env exLines = some c := Option.isSome_iff_exists.1 (by decide +kernel)
    obtain ⟨c, hc⟩ := h
    have hdb : c.db = b "/var/lib/hlr.db" := by
      have : (Config.readFile exWorld.env exLines).map (·.db) = some (b "/var/lib/hlr.db") := by decide +kernel
      rw [hc] at this
      simpa using this
    have hn : dbNamed exItems c = b "new.db" := by
      unfold dbNamed; rw [hdb]; decide +kernel
    exact ⟨c, hc, hdb, hn, by rw [hn]; decide +kernel⟩

/-- Without `--db-upgrade` the older database is refused, with it it is upgraded. -/
example : (hlrMain exWorld (["--conf=/etc/hlr.cfg"].map b)).status = .error ∧
    ((hlrMain exWorld (["--conf=/etc/hlr.cfg"].map b)).disk (b "/var/lib/hlr.db")).map (fun f => f.db.version) = some 0 ∧
    (hlrMain exWorld (["--conf=/etc/hlr.cfg", "--db-u"].map b)).status = .running ∧
    ((hlrMain exWorld (["--conf=/etc/hlr.cfg", "--db-u"].map b)).disk (b "/var/lib/hlr.db")).map (fun f => f.db.version) = some 7 := by
  decide +kernel

example : InUse exV0 := .inr (by decide +kernel)

/-- Help, an unknown option, a stray word: nothing is touched. -/
example : (hlrMain exWorld (["-h"].map b)).acts = [.help] ∧ (hlrMain exWorld (["-h"].map b)).status = .ok ∧
    (hlrMain exWorld (["-x"].map b)).acts = [] ∧ (hlrMain exWorld (["-x"].map b)).status = .error ∧
    (hlrMain exWorld (["-c", "/etc/hlr.cfg", "start"].map b)).acts = [] ∧
    (hlrMain exWorld (["-c", "/etc/hlr.cfg", "start"].map b)).status = .error := by decide +kernel

/-! ## Where it does not -/

/-- **C74** does not hold for the documented option `-C`: the help text gives it as the short form of
`--db-check`, which works; the program takes it for an error and exits. -/
theorem c74_check_violated :
    (∃ d ∈ hlrDoc, d.short = some 67 ∧ d.long = b "db-check") ∧
    Cmdline hlrDoc false (["-c", "/etc/hlr.cfg", "-l", "new.db", "-C"].map b)
      [⟨b "config-file", some (b "/etc/hlr.cfg")⟩, ⟨b "database", some (b "new.db")⟩, ⟨b "db-check", none⟩] [] ∧
    (hlrMain exWorld (["-c", "/etc/hlr.cfg", "-l", "new.db", "--db-check"].map b)).status = .ok ∧
    (hlrMain exWorld (["-c", "/etc/hlr.cfg", "-l", "new.db", "-C"].map b)).status = .error ∧
    (hlrMain exWorld (["-c", "/etc/hlr.cfg", "-l", "new.db", "-C"].map b)).acts = [] ∧
    ∀ (w : World), (hlrMain w [b "-C"]).status = .error := by
  refine ⟨by decide +kernel, ?_, by decide +kernel, by decide +kernel, by decide +kernel, ?_⟩
  · have h0 : Cmdline hlrDoc false [b "-C"] [⟨b "db-check", none⟩] [] :=
      .flags (fs := [{ short := some 67, long := b "db-check" }]) (by simp) (by unfold Flags; decide +kernel) .nil
    have h1 : Cmdline hlrDoc false ([b "-l", b "new.db", b "-C"]) [⟨b "database", some (b "new.db")⟩, ⟨b "db-check", none⟩] [] :=
      .next (fs := []) (d := dDatabase) (c := 108) (by intro d hd; cases hd) (by decide +kernel) rfl rfl h0
    exact .next (fs := []) (d := dConfig) (c := 99) (by intro d hd; cases hd) (by decide +kernel) rfl rfl h1
  · intro w
    have e : scan hlrOpts w.posix [b "-C"] = ([.bad], []) := by cases w.posix <;> decide +kernel
    have : hlrHandle w [b "-C"] = .exit [] false := by
      unfold hlrHandle; rw [e]; rfl
    unfold hlrMain
    rw [this]
    rfl

/-- **C74** does not hold for a start that fails: if the port for the clients is taken, as by an HLR
that is running already, the program exits with an error, but has upgraded the database. -/
theorem c74_failed_start_violated : ∃ (w : World) (ws : List Bytes) (q : Bytes) (f f' : DFile),
    (hlrMain w ws).status = .error ∧ w.disk q = some f ∧ f.db.version = 0 ∧ InUse f.db ∧
    (hlrMain w ws).disk q = some f' ∧ f'.db.version = 7 := by
  have hx : ∃ f', (hlrMain { exWorld with gsup := false } (["-c", "/etc/hlr.cfg", "-U"].map b)).disk (b "/var/lib/hlr.db") = some f' ∧
      f'.db.version = 7 := by
    have h : ((hlrMain { exWorld with gsup := false } (["-c", "/etc/hlr.cfg", "-U"].map b)).disk (b "/var/lib/hlr.db")).map
        (fun f => f.db.version) = some 7 := by decide +kernel
    obtain ⟨f', h1, h2⟩ := Option.map_eq_some_iff.1 h
    exact ⟨f', h1, h2⟩
  obtain ⟨f', h1, h2⟩ := hx
  exact ⟨{ exWorld with gsup := false }, ["-c", "/etc/hlr.cfg", "-U"].map b, b "/var/lib/hlr.db", { db := exV0 }, f',
    by decide +kernel, by simp [exWorld], by decide +kernel, .inr (by decide +kernel), h1, h2⟩

/-- **C74** does not hold for a database that is refused: though its content stays
(`c74_hlr_upgrade_asked`), the file is changed, to the journal mode WAL. -/
theorem c74_refused_violated : ∃ (w : World) (ws : List Bytes) (q : Bytes) (f f' : DFile),
    (hlrMain w ws).status = .error ∧ w.disk q = some f ∧ f.wal = false ∧
    (hlrMain w ws).disk q = some f' ∧ f'.wal = true := by
  have hx : ∃ f', (hlrMain exWorld (["-c", "/etc/hlr.cfg"].map b)).disk (b "/var/lib/hlr.db") = some f' ∧ f'.wal = true := by
    have h : ((hlrMain exWorld (["-c", "/etc/hlr.cfg"].map b)).disk (b "/var/lib/hlr.db")).map (·.wal) = some true := by
      decide +kernel
    obtain ⟨f', h1, h2⟩ := Option.map_eq_some_iff.1 h
    exact ⟨f', h1, h2⟩
  obtain ⟨f', h1, h2⟩ := hx
  exact ⟨exWorld, ["-c", "/etc/hlr.cfg"].map b, b "/var/lib/hlr.db", { db := exV0 }, f',
    by decide +kernel, by simp [exWorld], rfl, h1, h2⟩

/-- **C74** does not hold for the CTRL interface: if its port is taken, the HLR runs without it. -/
theorem c74_ctrl_violated : ∃ (w : World) (ws : List Bytes), w.ctrl = false ∧ (hlrMain w ws).status = .running ∧
    .listenGsup ∈ (hlrMain w ws).acts ∧ .listenCtrl ∉ (hlrMain w ws).acts :=
  ⟨{ exWorld with ctrl := false }, exWords, rfl, by decide +kernel, by decide +kernel, by decide +kernel⟩

end Verif.Start
