import Verif.Config.Model
/-!
# The specification of the configuration

What a user of the VTY expects: which commands were typed, what a written configuration must bring
back, and the routing tables and PDP profiles by name.
-/
namespace Verif.Config.Spec
open Verif Verif.Sys Verif.Mslookup Verif.Mslookup.Mdns Verif.Config

/-- A command as it was given: the words, the node in which they were typed or read, and whether they
were read from the configuration file. -/
structure Input where
  node : Node
  file : Bool
  words : List Bytes
deriving Repr

/-- A word of a command line: not empty, without white space. -/
def isWord (w : Bytes) : Bool := !w.isEmpty && w.all fun c => !isSpace c

def Input.valid (x : Input) : Bool := x.words.all isWord

/-- The configuration after a command.  What is no command in the node changes nothing. -/
def after (e : Env) (s : St) (x : Input) : St :=
  match parse e x.node x.words with
  | none => s
  | some c => (exec x.file x.node s c).2.2

/-- The configuration after a list of commands, oldest first, of a newly started HLR.  Any node may
come next: several users may be at work, and the configuration file was read first. -/
def config (e : Env) (h : List Input) : St := h.foldl (after e) {}

/-- Two configurations make the HLR do the same. -/
structure Same (s t : St) : Prop where
  rej : t.rej = s.rej
  noProxy : t.noProxy = s.noProxy
  storeImei : t.storeImei = s.storeImei
  db : t.db = s.db
  cod : t.cod = s.cod
  codFlags : s.cod ≠ .disabled → t.codCs = s.codCs ∧ t.codPs = s.codPs
  bind : t.bind = s.bind
  ipa : t.ipa = s.ipa
  guard : t.guard = s.guard
  euses : t.euses.map (·.name) = s.euses.map (·.name)
  ussd : ∀ code, ussdFor t code = ussdFor s code
  smscs : t.smscs.map (·.name) = s.smscs.map (·.name)
  smsc : ∀ addr, smscFor t addr = smscFor s addr
  pdps : sentPdps t = sentPdps s
  server : t.msl.srv.enable = s.msl.srv.enable
  client : t.msl.cli.enable = s.msl.cli.enable
  services : t.msl.services = s.msl.services
  gateway : t.msl.gateway = s.msl.gateway

/-- The labels of an APN, as the full stops separate them. -/
def apnLabels : Bytes → List Bytes
  | [] => [[]]
  | c :: s => if c = 46 then [] :: apnLabels s else match apnLabels s with
    | l :: ls => (c :: l) :: ls
    | [] => [[c]]

/-! ## Routing by names -/

/-- The USSD routing as the user configured it: the names of the EUSEs, the routes by prefix, oldest
first, and the default. -/
structure Ussd where
  euses : List Bytes := []
  routes : List (Bytes × (Bytes ⊕ Iuse)) := []
  dflt : Option Bytes := none

/-- A command: whether it is accepted, and what it does. -/
def Ussd.cmd (t : Ussd) : Cmd → Bool × Ussd
  | .euse n => (true, if n ∈ t.euses then t else { t with euses := t.euses ++ [n] })
  | .noEuse n => if n ∈ t.euses ∧ t.dflt ≠ some n then (true, { t with euses := t.euses.filter (· ≠ n) }) else (false, t)
  | .routeInt p i => if p ∈ t.routes.map (·.1) then (false, t) else (true, { t with routes := t.routes ++ [(p, .inr i)] })
  | .routeExt p n =>
    if p ∈ t.routes.map (·.1) ∨ n ∉ t.euses then (false, t) else (true, { t with routes := t.routes ++ [(p, .inl n)] })
  | .noRoute p => if p ∈ t.routes.map (·.1) then (true, { t with routes := t.routes.filter (·.1 ≠ p) }) else (false, t)
  | .ussdDefault n => if n ∈ t.euses then (true, { t with dflt := some n }) else (false, t)
  | .noUssdDefault => (true, { t with dflt := none })
  | _ => (true, t)

/-- The first route whose prefix the code begins with, otherwise the default. -/
def Ussd.lookup (t : Ussd) (code : Bytes) : Option (Bytes ⊕ Iuse) :=
  match t.routes.find? (fun r => r.1.isPrefixOf code) with
  | some r => some r.2
  | none => t.dflt.map .inl

/-- The SMSC routing as the user configured it. -/
structure Smsc where
  smscs : List Bytes := []
  routes : List (Bytes × Bytes) := []
  dflt : Option Bytes := none

def Smsc.cmd (t : Smsc) : Cmd → Bool × Smsc
  | .smscEntity n => (true, if n ∈ t.smscs then t else { t with smscs := t.smscs ++ [n] })
  | .noSmscEntity n => if n ∈ t.smscs ∧ t.dflt ≠ some n then (true, { t with smscs := t.smscs.filter (· ≠ n) }) else (false, t)
  | .smscRoute p n =>
    if p ∈ t.routes.map (·.1) ∨ n ∉ t.smscs then (false, t) else (true, { t with routes := t.routes ++ [(p, n)] })
  | .noSmscRoute p => if p ∈ t.routes.map (·.1) then (true, { t with routes := t.routes.filter (·.1 ≠ p) }) else (false, t)
  | .smscDefault n => if n ∈ t.smscs then (true, { t with dflt := some n }) else (false, t)
  | .noSmscDefault => (true, { t with dflt := none })
  | _ => (true, t)

/-- The route for the address, otherwise the default. -/
def Smsc.lookup (t : Smsc) (addr : Bytes) : Option Bytes :=
  match t.routes.find? (fun r => r.1 == addr) with
  | some r => some r.2
  | none => t.dflt

/-- The routing after one more line. -/
def Ussd.after (e : Env) (t : Ussd) (x : Input) : Ussd :=
  match parse e x.node x.words with
  | none => t
  | some c => (t.cmd c).2

def Smsc.after (e : Env) (t : Smsc) (x : Input) : Smsc :=
  match parse e x.node x.words with
  | none => t
  | some c => (t.cmd c).2

/-- The routing after a list of commands. -/
def ussd (e : Env) (h : List Input) : Ussd := h.foldl (Ussd.after e) {}

def smsc (e : Env) (h : List Input) : Smsc := h.foldl (Smsc.after e) {}

/-- None of the commands removes an EUSE that a route leads to. -/
def Ussd.orderly (e : Env) (t : Ussd) : List Input → Bool
  | [] => true
  | x :: h => (match parse e x.node x.words with
    | some (.noEuse n) => !(t.cmd (.noEuse n)).1 || t.routes.all fun r => match r.2 with
      | .inl m => m != n
      | .inr _ => true
    | _ => true) && orderly e (t.after e x) h

/-- None of the commands removes an SMSC that a route leads to. -/
def Smsc.orderly (e : Env) (t : Smsc) : List Input → Bool
  | [] => true
  | x :: h => (match parse e x.node x.words with
    | some (.noSmscEntity n) => !(t.cmd (.noSmscEntity n)).1 || t.routes.all fun r => r.2 != n
    | _ => true) && orderly e (t.after e x) h

/-! ## PDP profiles -/

/-- The APN that was configured for this context id, `none` if there is no such profile, and
`some none` if it has no APN. -/
def apnOf (s : St) (c : Nat) : Option (Option Bytes) := (s.slots.find? fun p => p.ctx == c).map (·.apn)

end Verif.Config.Spec
