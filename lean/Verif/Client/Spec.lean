import Verif.Client.Lemmas2
/-!
# The GSUP client: what its user is promised

The history of a client is its `log` (latest entry first), the list of what an observer of
the process sees, with the times: connection attempts, the connection coming up or breaking,
PONGs, reports to the user's callback, messages accepted and refused, frames taken by the
connection, messages handed over (`Obs`, in the model).
`Sign`, `wroteOn` and `acceptedOn` (in the lemmas) read this list only:

* `Sign log t`: at time `t` the connection came up or a PONG arrived, and since then it has
  neither broken nor been given up;
* `wroteOn n log`: the GSUP messages the `n`-th connection took, in order;
* `acceptedOn n log`: the messages for which `osmo_gsup_client_send` returned 0 during the
  `n`-th connection, in order.
-/
namespace Verif.Client
open Verif

/-- A state some client can be in: it was created at some time and events happened. -/
def Reach (cb : Bool) (s : St) : Prop := ∃ t rc s0 evs, create t rc = some s0 ∧ run cb s0 evs = s

/-- What the user was told last: up, down, or nothing so far. -/
def lastTold : List (Nat × Obs) → Option Bool
  | [] => none
  | (_, .told u) :: _ => some u
  | _ :: l => lastTold l

/-- Since it last told the user anything, the client has given up the connection itself
(no PONG in time, or an invalid CCM frame). -/
def dropped : List (Nat × Obs) → Bool
  | [] => false
  | (_, .told _) :: _ => false
  | (_, .dropped) :: _ => true
  | _ :: l => dropped l

/-- The user never asked the client to stop, and no attempt failed for one of the reasons the
client takes as final: EBADF (9), EINVAL (22), ENOTSOCK (88), EAFNOSUPPORT (97). -/
def Going (log : List (Nat × Obs)) : Prop :=
  ∀ x ∈ log, x.2 ≠ .stop ∧ ∀ n rc, x.2 = .attempt n rc → rc ≠ -9 ∧ rc ≠ -22 ∧ rc ≠ -88 ∧ rc ≠ -97

end Verif.Client
