import Verif.Mslookup.Config
/-!
# What the service configuration should be: a map

From the name of an MSC (empty for all MSCs), a service and an address family to an address.
-/
namespace Verif.Mslookup.Spec
open Verif Verif.Sys Verif.Mslookup

abbrev Map := Bytes → Bytes → Bool → Option Addr

/-- The MSC a command is about, as it identifies itself to the HLR: its unit name (at most
127 characters) and a terminating NUL. -/
def key : Node → Bytes
  | .server => []
  | .msc s => s.take 127 ++ [0]

def put (m : Map) (k svc : Bytes) (v6 : Bool) (v : Option Addr) : Map := fun k' svc' v6' =>
  if k' = k ∧ svc' = svc ∧ v6' = v6 then v else m k' svc' v6'

/-- What a command should report and do. -/
def step (m : Map) : Cmd → Bool × Map
  | .enter _ => (true, m)
  | .service n svc a =>
    if svc ≠ [] ∧ svc.length ≤ 64 ∧ a.ip ≠ 0 ∧ a.port ≠ 0 then (true, put m (key n) svc a.v6 (some a)) else (false, m)
  | .noService n svc =>
    (decide (∃ v6, m (key n) svc v6 ≠ none), put (put m (key n) svc false none) (key n) svc true none)
  | .noServiceAt n svc a =>
    if m (key n) svc a.v6 = some a then (true, put m (key n) svc a.v6 none) else (false, m)

def run (m : Map) : List Cmd → List Bool × Map
  | [] => ([], m)
  | c :: cs => let r := step m c; let r' := run r.2 cs; (r.1 :: r'.1, r'.2)

/-- What the server finds: the address of a family for an MSC and a service. -/
def view (l : Services) : Gsup.IpaName → Bytes → Bool → Option Addr := fun n svc v6 =>
  (serviceGet l n svc).bind (fun h =>
    let a := if v6 then h.v6 else h.v4
    if a.ip ≠ 0 ∧ a.port ≠ 0 then some a else none)

end Verif.Mslookup.Spec
