import Verif.Start.Model
import Verif.Mslookup.Domain
/-!
# osmo-mslookup-client --send
-/
namespace Verif.Start
open Verif Verif.Mslookup

/-- One turn of the loop of do_send (osmo-mslookup-client.c 282-301): the address goes to its family.
"2342" stands for a port that is not given.  `addrOf`: osmo_sockaddr_str_from_str() of the text, with
port 0. -/
def sendAddr (addrOf : Bytes → Option Sys.Addr) (r : Result) (ip port : Option Bytes) : Option Result :=
  match ip with
  | none => some r
  | some ip => match Mdns.decodeU32 (port.getD [50, 51, 52, 50]) with
    | none => none
    | some n =>
      if 1 ≤ n ∧ n ≤ 65535 then match addrOf ip with
        | none => none
        | some a =>
          if a.v6 then some { r with v6 := { a with port := n } }
          else some { r with v4 := { a with port := n } }
      else none

/-- do_send (osmo-mslookup-client.c 247-330): the packet that is sent with `--send`, when the socket
could be opened. -/
def doSend (addrOf : Bytes → Option Sys.Addr) (suffix : Bytes) (args : List Bytes) : Mdns.Out Bytes :=
  match args with
  | query :: age :: rest => match parseDomain query with
    | .error _ => .error
    | .ok q => match Mdns.decodeU32 age with
      | none => .error
      | some age => match sendAddr addrOf { rc := .result, age := age } rest[0]? rest[1]? with
        | none => .error
        | some r => match sendAddr addrOf r rest[2]? rest[3]? with
          | none => .error
          | some r => Mdns.resultEncode 0 q r suffix
  | _ => .error

end Verif.Start
