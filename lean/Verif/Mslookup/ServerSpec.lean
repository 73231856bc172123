import Verif.Mslookup.Server
/-!
# Who is served here: what a lookup server may say

A subscriber is named by its IMSI or its number.
-/
namespace Verif.Mslookup.Spec
open Verif Verif.Db Verif.Sys Verif.Gsup Verif.Mslookup

/-- The row is that of the subscriber asked for. -/
def Names : Id → SubRow → Prop
  | .none, _ => False
  | .imsi v, r => r.imsi = v
  | .msisdn v, r => r.msisdn = some v

/-- The proxy's entry is that of the subscriber asked for. -/
def PNames : Id → ProxySub → Prop
  | .none, _ => False
  | .imsi v, x => x.imsi = v
  | .msisdn v, x => x.msisdn = v

/-- `a` seconds have passed since `t`, no more than `maxAge` (both times as the program
computes them). -/
def Since (z : Zone) (now t : Int) (maxAge a : Nat) : Prop := z now = t + a ∧ a ≤ maxAge ∧ a ≤ 4294967295

/-- The database says: at the node `vlr`, directly, since `a` seconds. -/
def HlrHere (z : Zone) (now : Int) (maxAge : Nat) (d : Db) (id : Id) (a : Nat) (vlr : Bytes) : Prop :=
  ∃ r ∈ d.subs, Names id r ∧ r.vlr = some vlr ∧ vlr ≠ [] ∧ r.vlrViaProxy = none
    ∧ Since z now (parseLastLu z r.lastLu) maxAge a

/-- The proxy says: at the node `vlr`, directly, since `a` seconds. -/
def ProxyHere (z : Zone) (now : Int) (maxAge : Nat) (p : List ProxyEntry) (id : Id) (a : Nat) (vlr : IpaName) : Prop :=
  ∃ x ∈ p, PNames id x.data ∧ x.data.cs.vlr = vlr ∧ vlr.len ≠ 0 ∧ x.data.cs.via.len = 0
    ∧ Since z now x.data.cs.lastLu maxAge a

/-- The answer carries the addresses configured for the service at the MSC `n`, or, if there
are none, those configured for all MSCs. -/
def Configured (l : Services) (n : IpaName) (svc : Bytes) (r : Result) : Prop :=
  ∃ h, (serviceGet l n svc = some h ∨ serviceGet l n svc = none ∧ serviceGet l {} svc = some h)
    ∧ r.v4 = h.v4 ∧ r.v6 = h.v6

/-- The stored name of the node, as it is looked up in the configuration: the first 31
characters and a NUL. -/
def Stored (vlr : Bytes) (n : IpaName) : Prop := fmtText (vlr.take 31) = some (n.name.dropLast) ∧ n.name ≠ [] ∧ n.WF
  ∧ n.name.getLast? = some 0

end Verif.Mslookup.Spec
