import Verif.Sys.Props4
import Verif.Config.Spec
/-!
# What a user expects of the configuration of a running HLR

The routing tables by names are those of `Verif.Config.Spec`: `ussd e h` and `smsc e h` after the lines `h`.
-/
namespace Verif.Live.Spec
open Verif Verif.Sys Verif.Sys.Props Verif.Config.Spec

/-- Who is responsible for a new USSD request: a text of coding group 0 goes by the routes, anything else
only by the default. -/
def target (t : Ussd) (r : SsReq) : Option (Bytes ⊕ Iuse) :=
  if r.cgroup0 then t.lookup r.code else t.dflt.map .inl

/-- A target by name. -/
def named : Target → Option (Bytes ⊕ Iuse)
  | .external n => some (.inl n.name)
  | .internal i => some (.inr i)
  | .nobody => none

/-- The last of the commands that give this setting a value, otherwise what it is without any. -/
def lastOf {α : Type} (f : Config.Cmd → Option α) (d : α) (e : Config.Env) (h : List Input) : α :=
  (h.filterMap fun x => (Config.parse e x.node x.words).bind f).getLastD d

end Verif.Live.Spec
