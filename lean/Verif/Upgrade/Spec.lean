import Verif.Upgrade.Model
import Verif.DbOpen.Spec
/-!
# The script run after a package upgrade: what its user relies on (C83)

The vocabulary for databases (`Layout`, `Keeps`, `Stuck`) is that of C18–C20.
-/
namespace Verif.Upgrade.Spec
open Verif Verif.Db Verif.DbOpen Verif.Upgrade

/-- What the HLR does, seen from outside: whether it runs, and what is in its database. -/
def seen (x : Bool × File) : HlrEv → Bool × File
  | .write f => (x.1, if x.1 then f else x.2)
  | .checkpoint => x
  | .die => (false, x.2)

/-- The same for a sequence of events, from the situation the script finds. -/
def after (w : World) (d : DbFile) (evs : List HlrEv) : Bool × File := evs.foldl seen (w.active, d.view)

/-- Everything the HLR does until it is stopped. -/
def all (env : Env) : List HlrEv := env.hlr 0 ++ env.hlr 1 ++ env.hlr 2

/-- The database has the layout of schema version `v`, and the HLR keeps to it. -/
structure Sound (v : Nat) (env : Env) (d : DbFile) : Prop where
  old : v ≤ 7
  db : Layout v d.view
  written : ∀ k f, .write f ∈ env.hlr k → Layout v f

/-- The HLR closes its database when it ends; and if it did not run, it had done so before, or the
first run of osmo-hlr-db-tool was not disturbed. -/
structure Tidy (env : Env) (w : World) (d : DbFile) : Prop where
  alive : ∀ k, .die ∉ env.hlr k
  closed : ∀ n c, env.ends = some (n, c) → c = true
  before : w.active = true ∨ d.wal.isNone = true ∨
    (env.openable 0 = true ∧ env.rand 0 = true ∧ (toolOut env 0 false d.view).1 ≠ .died)

/-- Nothing in the way: every command succeeds. -/
structure Undisturbed (env : Env) (w : World) : Prop where
  sql : ∀ n, env.sql n = []
  openable : ∀ n, env.openable n = true
  rand : ∀ n, env.rand n = true
  stop : env.stopOk = true ∧ ∃ n c, env.ends = some (n, c) ∧ n < 100
  date : w.backups env.date = none
  cp : env.cpFails = none
  start : env.startOk = true

end Verif.Upgrade.Spec
