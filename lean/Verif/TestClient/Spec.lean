import Verif.TestClient.Model
/-!
# What the report of gsup_test_client should say

Stated over the events alone: how often main() went round its loop and what arrived when.
-/
namespace Verif.TestClient
open Verif Verif.Gsup

def Ev.isLoop : Ev → Bool
  | .loop _ => true
  | _ => false

/-- The number of subscribers asked about so far: those numbered below it. -/
def asked (l : List Ev) : Nat := min 10000 (l.countP Ev.isLoop)

/-- What happened after the request for authentication data of the i-th subscriber. -/
def afterAsk : Nat → List Ev → List Ev
  | _, [] => []
  | 0, .loop _ :: l => l
  | n + 1, .loop _ :: l => afterAsk n l
  | n, .rx .. :: l => afterAsk n l
  | n, .expire _ :: l => afterAsk n l

/-- The message is an answer (result or error) to a request of type `req` for the i-th
subscriber; its type. -/
def ans (req i : Nat) : Ev → Option Nat
  | .rx _ (some m) => if m.imsi = imsiOf i ∧ (m.typ = req + 1 ∨ m.typ = req + 2) then some m.typ else none
  | _ => none

/-- What happened after the first event with `p`. -/
def dropThrough (p : Ev → Bool) : List Ev → List Ev
  | [] => []
  | e :: l => if p e then l else dropThrough p l

/-- The first answer to the request for authentication data of the i-th subscriber. -/
def saiAnswer (l : List Ev) (i : Nat) : Option Nat := (afterAsk i l).findSome? (ans SEND_AUTH_INFO i)

/-- The first answer to the location update of the i-th subscriber, which is sent when the
authentication data (or the refusal) have come. -/
def luAnswer (l : List Ev) (i : Nat) : Option Nat :=
  (dropThrough (fun e => (ans SEND_AUTH_INFO i e).isSome) (afterAsk i l)).findSome? (ans UPDATE_LOCATION i)

/-- The number of subscribers asked about for which `p` holds. -/
def howMany (l : List Ev) (p : Nat → Bool) : Nat := (List.range (asked l)).countP p

/-- The IMSI, if the message is subscriber data from the HLR. -/
def isdOf : Ev → Option Bytes
  | .rx _ (some m) => if m.typ = INSERT_DATA ∧ m.imsi ≠ [] then some m.imsi else none
  | _ => none

/-- The subscribers the HLR sent data of, in that order. -/
def isdReqs (l : List Ev) : List Bytes := l.filterMap isdOf

/-- Whether what is to be sent upon the event can be encoded. -/
def Ev.enc : Ev → Bool
  | .loop L => L.enc
  | .rx L _ => L.enc
  | .expire _ => true

/-- The line of the report for each kind of operation: how many were started, ended, answered
with a result, answered with an error, and given up. -/
def expected (l : List Ev) : Kind → List Nat
  | .sai => [asked l,
      howMany l (fun i => saiAnswer l i ≠ none),
      howMany l (fun i => saiAnswer l i = some (SEND_AUTH_INFO + 2)),
      howMany l (fun i => saiAnswer l i = some (SEND_AUTH_INFO + 1)), 0]
  | .lu => [howMany l (fun i => saiAnswer l i ≠ none),
      howMany l (fun i => luAnswer l i ≠ none),
      howMany l (fun i => luAnswer l i = some (UPDATE_LOCATION + 2)),
      howMany l (fun i => luAnswer l i = some (UPDATE_LOCATION + 1)), 0]
  | .isd => [(isdReqs l).length % 2 ^ 32, (isdReqs l).length % 2 ^ 32, (isdReqs l).length % 2 ^ 32, 0, 0]

/-- The messages of one type handed to the connection. -/
def sentOf (s : St) (typ : Nat) : List Bytes := (s.sent.filter (fun m => m.1 = typ)).map Prod.snd

/-- The number of requests of one kind still without an answer. -/
def waiting (s : St) (k : Kind) : Nat := s.ops.countP (fun o => o.kind = k)

end Verif.TestClient
