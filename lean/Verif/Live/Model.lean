import Verif.Prov.Running
import Verif.Config.Spec
/-!
# The running HLR and its configuration

`Verif.Sys` and `Verif.Prov.Running` take the configuration of every event as given; `Verif.Config` models
the commands of the configuration and nothing else.  Both are parts of one process, in which the VTY
commands change the one `struct hlr` (hlr.h 43-122) that the handlers read (`g_hlr`).  Here they are put
together.
-/
namespace Verif.Live
open Verif Verif.Db Verif.Sys Verif.Prov.Running

/-- A pointer to an EUSE (hlr_ussd.h 14-22) or an SMSC (hlr_sms.h 19-23, hlr.h 65, 86) as the handlers see
it.  If the object has been freed it is none of the list's. -/
def ptr (l : List Config.Ent) (id : Nat) : Sys.Ent :=
  match Config.deref l id with
  | some x => ⟨x.id, x.name⟩
  | none => ⟨id, []⟩

def ent (x : Config.Ent) : Sys.Ent := ⟨x.id, x.name⟩

def route (l : List Config.Ent) (r : Config.URoute) : UssdRoute :=
  { pfx := r.pfx, to := match r.tgt with
      | .int i => .inr i
      | .ext id => .inl (ptr l id) }

/-- What the handlers read of `struct hlr` (hlr.h 43-122) when the configuration is `c`; `base` has the
functions of libosmocore.  The PDP profiles are counted as far as they are sent (gsup_server.c
479-485).
Simplified: whether there is a gateway or a lookup client (`mslookup` settings) is up to every event
(`Sys.Env`). -/
def cfgOf (base : Cfg) (c : Config.St) : Cfg := { base with
  hlr := { storeImei := c.storeImei, cod := c.cod, codCs := c.codCs, codPs := c.codPs, rejectCause := c.rej.cause }
  myName := c.ipa
  pdpInfos := (Config.sentPdps c).length
  guard := c.guard
  euses := c.euses.map ent
  ussdRoutes := c.routes.map (route c.euses)
  euseDefault := c.euseDefault.map (ptr c.euses)
  smscs := c.smscs.map ent
  smscRoutes := c.smscRoutes.map fun r => (r.num, ptr c.smscs r.smsc)
  smscDefault := c.smscDefault.map (ptr c.smscs)
  noProxyCause := c.noProxy.cause }

/-- The HLR: the lines of configuration since it was last started (those of the file first), and the rest
of its state. -/
structure Live where
  hist : List Config.Spec.Input := []
  sys : Sys

/-- What may happen: a line of configuration is typed, or anything of `Ev2`.  In the latter case the
process may die (and be started again, as in `Verif.Sys`); `boot` is what its configuration file has
then.
Simplified: the file is one that the HLR starts with, and names the same database. -/
inductive Ev3 where
  | cfg (node : Config.Node) (words : List Bytes)
  | hlr (ev : Ev2) (boot : List Config.Spec.Input)

def isRestart : Out → Bool
  | .restart => true
  | _ => false

/-- How often the process was restarted. -/
def restarts (s : Sys) : Nat := s.log.countP isRestart

/-- The configuration at the moment. -/
def Live.cfg (base : Cfg) (e : Config.Env) (s : Live) : Cfg := cfgOf base (Config.Spec.config e s.hist)

/-- One step.  The VTY and the handlers run in one thread, one after the other. -/
def step3 (base : Cfg) (e : Config.Env) (s : Live) : Ev3 → Live
  | .cfg node words => { s with hist := s.hist ++ [⟨node, false, words⟩] }
  | .hlr ev boot =>
    { sys := step2 (s.cfg base e) s.sys ev
      hist := if restarts (step2 (s.cfg base e) s.sys ev) = restarts s.sys then s.hist else boot }

/-- A history. -/
def run3 (base : Cfg) (e : Config.Env) (s : Live) : List Ev3 → Live
  | [] => s
  | x :: l => run3 base e (step3 base e s x) l

/-- The same history without the lines of configuration, but with the configuration at every event. -/
def pairs (base : Cfg) (e : Config.Env) (s : Live) : List Ev3 → List (Cfg × Ev2)
  | [] => []
  | .cfg node words :: l => pairs base e (step3 base e s (.cfg node words)) l
  | .hlr ev boot :: l => (s.cfg base e, ev) :: pairs base e (step3 base e s (.hlr ev boot)) l

end Verif.Live
