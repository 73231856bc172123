import Verif.Mslookup.Client
/-!
# What the user of the mslookup client sees of one request

The history of a request is the list of the things that happen to it, the latest first.
-/
namespace Verif.Mslookup.Client.Spec
open Verif Verif.Mslookup Verif.Mslookup.Client

/-- The callback has been told that this was the last result. -/
def Ended (t : List Obs) : Prop := ∃ r, Obs.cb r ∈ t ∧ r.last = true

/-- The request is under way: accepted, not cancelled, and the last result is still to come. -/
def Open (t : List Obs) : Prop := (∃ h mn to, Obs.issued h mn to ∈ t) ∧ ¬ Ended t ∧ Obs.cancel ∉ t

/-- The results that have arrived. -/
def arrived : List Obs → List Result
  | [] => []
  | .rx r :: t => if r.rc = .result then r :: arrived t else arrived t
  | _ :: t => arrived t

/-- The results that the callback was given. -/
def reported : List Obs → List Result
  | [] => []
  | .cb r :: t => if r.rc = .result then r :: reported t else reported t
  | _ :: t => reported t

/-- The addresses and the age are those of the result. -/
def Same (r x : Result) : Prop := r.v4 = x.v4 ∧ r.v6 = x.v6 ∧ r.age = x.age

/-- The youngest of the results. -/
def Best (x : Result) (l : List Result) : Prop := x ∈ l ∧ ∀ y ∈ l, x.age ≤ y.age

/-- The minimum wait is over: none was asked for, or the timer has expired. -/
def Waited (t : List Obs) : Prop := (∃ h to, Obs.issued h 0 to ∈ t) ∨ Obs.tick ∈ t

/-- How often its timer has expired. -/
def expiries : List Obs → Nat
  | [] => 0
  | .tick :: t => expiries t + 1
  | _ :: t => expiries t

/-- How often the timer of a request expires: once, or twice if a minimum wait was asked for
that is shorter than the timeout. -/
def phases (minWait timeout : Nat) : Nat := if minWait = 0 ∨ timeout ≤ minWait then 1 else 2

/-- The timeout is over. -/
def TimedOut (t : List Obs) : Prop := ∀ h mn to, Obs.issued h mn to ∈ t → expiries t = phases mn to

/-- What may happen to a request with the history `t`. -/
def Allowed (t : List Obs) : Obs → Prop
  /- it is accepted once -/
  | .issued h _ _ => t = [] ∧ h ≠ 0
  | .rx _ => Open t
  | .tick => Open t ∧ ∀ h mn to, Obs.issued h mn to ∈ t → expiries t < phases mn to
  /- it can be cancelled once, also by its last callback -/
  | .cancel => (∃ h mn to, Obs.issued h mn to ∈ t) ∧ Obs.cancel ∉ t
  | .cb r =>
    /- no callback after the last one or after the cancellation -/
    Open t
    /- an address is the youngest that has arrived, younger than all reported before, and
    is not reported before the minimum wait is over unless its age is 0 -/
    ∧ (r.rc = .result → (∃ x, Best x (arrived t) ∧ Same r x) ∧ (∀ y ∈ reported t, r.age < y.age)
        ∧ (r.age = 0 ∨ Waited t))
    /- an intermediate callback brings an address with an age other than 0, before the timeout is over -/
    ∧ (r.last = false → r.rc = .result ∧ r.age ≠ 0 ∧ ∃ h mn to, Obs.issued h mn to ∈ t ∧ expiries t < phases mn to)
    /- the last one brings an address, or "not found" if none has arrived, or nothing new if
    the youngest has been reported -/
    ∧ (r.last = true → r.rc = .result ∨ (r.rc = .notFound ∧ arrived t = [])
        ∨ (r.rc = .none ∧ ∃ x, Best x (arrived t) ∧ ∃ y ∈ reported t, Same y x))
    /- the last one comes when the timeout is over, or earlier with an age of 0 -/
    ∧ (r.last = true → (r.rc = .result ∧ r.age = 0) ∨ TimedOut t)

/-- A history in which everything was allowed when it happened. -/
def Ok : List Obs → Prop
  | [] => True
  | o :: t => Ok t ∧ Allowed t o

/-- The history of the request number `u`. -/
def hist (u : Nat) (log : List (Nat × Obs)) : List Obs := (log.filter (·.1 == u)).map (·.2)

/-- No request is still under way, or made within the same event, when 2^32 - 1 later ones
have been made: handles have 32 bits and are given out in turn. -/
def Recent (env : Env) (k : Nat) (evs : List Ev) : Prop := ∀ l1 e l2, evs = l1 ++ e :: l2 →
  (run env k (l1 ++ [e])).uids ≤ (run env k l1).uids + 4294967295
  ∧ ∀ u, Open (hist u (run env k l1).log) → (run env k (l1 ++ [e])).uids ≤ u + 4294967295

end Verif.Mslookup.Client.Spec
