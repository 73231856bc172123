import Verif.Fake.Model
import Verif.Mslookup.ClientSpec
/-!
# What a test program may expect of the fake lookup method
-/
namespace Verif.Fake.Spec
open Verif Verif.Mslookup Verif.Mslookup.Client Verif.Mslookup.Client.Spec Verif.Fake

/-- A run in which the callbacks make no calls. -/
abbrev quiet (resps : List Resp) (evs : List Ev) : Fake := run {} 0 resps evs

/-- The request number `u` was made for `q` at the time `t`. -/
def Made (resps : List Resp) (evs : List Ev) (u : Nat) (q : Query) (t : Int) : Prop :=
  ∃ l1 mn to l2, evs = l1 ++ .client (.act (.request q mn to)) t :: l2
    ∧ (quiet resps l1).client.uids = u ∧ serviceValid q.service = true ∧ idValid q.id = true

/-- The answer is for requests like this one. -/
def For (x : Resp) (q : Query) : Prop := x.id = q.id ∧ x.service = q.service

/-- What is said about the request `u`, the latest first. -/
abbrev story (f : Fake) (u : Nat) : List Obs := hist u f.client.log

/-- The request is waiting. -/
def Waiting (f : Fake) (u : Nat) : Prop := Open (story f u)

/-- The answer number `i` has been given. -/
def Given (f : Fake) (i : Nat) : Prop := ∃ u now, ⟨i, u, now⟩ ∈ f.uses

/-- Results come from no other method. -/
def Alone (evs : List Ev) : Prop := ∀ h r now, .client (.rx h r) now ∉ evs

/-- The client is not freed. -/
def Kept (evs : List Ev) : Prop := .free ∉ evs

/-- Handles do not repeat. -/
def Few (f : Fake) : Prop := f.client.uids ≤ 4294967294

end Verif.Fake.Spec
