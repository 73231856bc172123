import Verif.Config.Props
import Verif.Config.Routing
/-!
# C64: USSD codes and short messages go where the configuration says

`Spec.Ussd` and `Spec.Smsc` are the routing as the user configured it, by names.  `ussdFor` and
`smscFor` say where the HLR sends a code or a message; they are `none` if a freed object is used.
-/
namespace Verif.Config
open Verif Verif.Sys Verif.Mslookup Verif.Mslookup.Mdns Verif.Config.Spec

/-- After any commands, unless an EUSE was removed that a route still led to: every USSD code goes to
the EUSE or the handler that the user configured for it, and nothing freed is used.  The next command
is accepted or refused as the user expects. -/
theorem c64_ussd_partial (e : Env) (h : List Input) (hv : ∀ x ∈ h, x.valid = true) (ho : Ussd.orderly e {} h = true) :
    (∀ code, ussdFor (config e h) code = some ((ussd e h).lookup code)) ∧
    (config e h).euses.map (·.name) = (ussd e h).euses ∧
    (∀ c file n, isUssd c = true → (∀ x, c = .noEuse x → ((ussd e h).cmd c).1 = true → ∀ p, (p, .inl x) ∉ (ussd e h).routes) →
      ((exec file n (config e h) c).1 = .ok ↔ ((ussd e h).cmd c).1 = true)) := by
  obtain ⟨hr, hi⟩ := urel_config e h {} {} hv (inv_init e) ⟨rfl, rfl, rfl⟩ ho
  exact ⟨urel_lookup hr, hr.ents, fun c file n hc hx => (urel_exec hi hr file n c hx).2 hc⟩

theorem c64_smsc_partial (e : Env) (h : List Input) (hv : ∀ x ∈ h, x.valid = true) (ho : Smsc.orderly e {} h = true) :
    (∀ addr, smscFor (config e h) addr = some ((smsc e h).lookup addr)) ∧
    (config e h).smscs.map (·.name) = (smsc e h).smscs ∧
    (∀ c file n, isSmsc c = true → (∀ x, c = .noSmscEntity x → ((smsc e h).cmd c).1 = true → ∀ p, (p, x) ∉ (smsc e h).routes) →
      ((exec file n (config e h) c).1 = .ok ↔ ((smsc e h).cmd c).1 = true)) := by
  obtain ⟨hr, hi⟩ := srel_config e h {} {} hv (inv_init e) ⟨rfl, rfl, rfl⟩ ho
  exact ⟨srel_lookup hr, hr.ents, fun c file n hc hx => (srel_exec hi hr file n c hx).2 hc⟩

/-- A command about the routing that is refused changes nothing, in any state. -/
theorem c64_refused (file : Bool) (n : Node) (s : St) (c : Cmd) (hc : isUssd c = true ∨ isSmsc c = true)
    (h : (exec file n s c).1 ≠ .ok) : (exec file n s c).2 = (n, s) := by
  cases c with
  | euse x | noEuse x | routeInt p i | routeExt p x | noRoute p | ussdDefault x | noUssdDefault
  | smscEntity x | noSmscEntity x | smscRoute p x | noSmscRoute p | smscDefault x | noSmscDefault =>
    revert h
    unfold exec
    dsimp only
    repeat' split
    all_goals first
      | (intro _; rfl)
      | (intro h; exact absurd rfl h)
  | _ => rcases hc with hc | hc <;> cases hc

/-- With such a history, `write file` uses nothing freed. -/
theorem c64_written_partial (e : Env) (h : List Input) (hv : ∀ x ∈ h, x.valid = true) (ho : Ussd.orderly e {} h = true)
    (hs : Smsc.orderly e {} h = true) : fileOf e (config e h) ≠ none := by
  obtain ⟨u, hu⟩ := urel_write (urel_config e h {} {} hv (inv_init e) ⟨rfl, rfl, rfl⟩ ho).1
  obtain ⟨m, hm⟩ := srel_write (srel_config e h {} {} hv (inv_init e) ⟨rfl, rfl, rfl⟩ hs).1
  have hu : writeEuse (config e h) = some u := hu
  have hm : writeSmsc (config e h) = some m := hm
  unfold fileOf write
  rw [hu, hm]
  intro hh
  cases hh

/-- A history of the USSD commands: the older route wins, a removed route is gone, an EUSE no route
leads to can be removed, a duplicate and an unknown EUSE are refused. -/
def exRoutes : List Input :=
  [typed .hlr ["euse", "a"], typed .hlr ["euse", "b"], typed .hlr ["euse", "c"],
   typed .hlr ["ussd", "route", "prefix", "*10", "external", "a"],
   typed .hlr ["ussd", "route", "prefix", "*1", "external", "b"],
   typed .hlr ["ussd", "route", "prefix", "*100", "internal", "own-msisdn"],
   typed .hlr ["ussd", "route", "prefix", "*1", "external", "a"],
   typed .hlr ["ussd", "route", "prefix", "*3", "external", "x"],
   typed .hlr ["ussd", "default-route", "external", "b"], typed .hlr ["no", "euse", "b"], typed .hlr ["no", "euse", "c"],
   typed .hlr ["ussd", "route", "prefix", "*2", "external", "a"], typed .hlr ["no", "ussd", "route", "prefix", "*10"],
   typed .hlr ["smsc", "entity", "s"], typed .hlr ["smsc", "entity", "t"], typed .hlr ["smsc", "route", "491", "s"],
   typed .hlr ["smsc", "default-route", "t"], typed .hlr ["no", "smsc", "entity", "t"]]

example : (∀ x ∈ exRoutes, x.valid = true) ∧ Ussd.orderly e0 {} exRoutes = true ∧ Smsc.orderly e0 {} exRoutes = true ∧
    ussdFor (config e0 exRoutes) (b "*100#") = some (some (.inl (b "b"))) ∧
    ussdFor (config e0 exRoutes) (b "*2#") = some (some (.inl (b "a"))) ∧
    ussdFor (config e0 exRoutes) (b "#") = some (some (.inl (b "b"))) ∧
    (ussd e0 exRoutes).euses = [b "a", b "b"] ∧
    smscFor (config e0 exRoutes) (b "491") = some (some (b "s")) ∧
    smscFor (config e0 exRoutes) (b "4912") = some (some (b "t")) := by decide +kernel

/-- In general a route to a removed EUSE stays and uses freed memory, even when an EUSE of the same
name is configured again. -/
theorem c64_ussd_violated : ∃ h : List Input, (∀ x ∈ h, x.valid = true) ∧
    ussdFor (config e0 h) (b "*100#") = none ∧ (ussd e0 h).lookup (b "*100#") = some (.inl (b "a")) ∧
    (config e0 h).euses.map (·.name) = [b "a"] :=
  ⟨[typed .hlr ["euse", "a"], typed .hlr ["ussd", "route", "prefix", "*1", "external", "a"], typed .hlr ["no", "euse", "a"],
    typed .hlr ["euse", "a"]], by decide +kernel, by decide +kernel, by decide +kernel, by decide +kernel⟩

theorem c64_smsc_violated : ∃ h : List Input, (∀ x ∈ h, x.valid = true) ∧
    smscFor (config e0 h) (b "491") = none ∧ fileOf e0 (config e0 h) = none ∧ (config e0 h).smscs = [] :=
  ⟨[typed .hlr ["smsc", "entity", "a"], typed .hlr ["smsc", "route", "491", "a"], typed .hlr ["no", "smsc", "entity", "a"]],
    by decide +kernel, by decide +kernel, by decide +kernel, by decide +kernel⟩

end Verif.Config
