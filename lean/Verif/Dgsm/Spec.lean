import Verif.Tool.FormatSpec
/-!
# Where calls and messages have to go
-/
namespace Verif.Dgsm.Spec
open Verif Verif.Mslookup Verif.Sys

/-- A telephone number: 1 to 15 digits. -/
def Number (m : Bytes) : Prop := 1 ≤ m.length ∧ m.length ≤ 15 ∧ ∀ c ∈ m, 48 ≤ c ∧ c ≤ 57

/-- While it looks up a number for a script, the program is only waked up by results and by its timer. -/
def Lookup (turns : List (List Tool.Ev)) : Prop := ∀ evs ∈ turns, ∀ e ∈ evs, (∃ h r, e = .rx h r) ∨ ∃ u, e = .timeout u

/-- The IPv4 address to take, given all that happened to the lookup: that of the youngest result that
arrived, if it has one. -/
def Chosen (t : List Client.Obs) (a : Option Addr) : Prop :=
  (Client.Spec.arrived t = [] ∧ a = none)
  ∨ ∃ x, Client.Spec.Best x (Client.Spec.arrived t) ∧ a = if x.v4.nonzero then some x.v4 else none

/-- An age is a number of 32 bits. -/
def Ages (t : List Client.Obs) : Prop := ∀ r, Client.Obs.rx r ∈ t ∨ Client.Obs.cb r ∈ t → r.age < 2 ^ 32

end Verif.Dgsm.Spec
