import Verif.Net.Model
import Verif.Mslookup.ClientSpec
import Verif.Mslookup.MdnsMethodProps
/-!
# What is asked and said in the network
-/
namespace Verif.Net.Spec
open Verif Verif.Db Verif.Sys Verif.Mslookup Verif.Mslookup.Mdns Verif.Mslookup.Mdns.Spec

/-- The server of site `j`, as it is in the network `n`, answers the query with the addresses and
the age in `r`.  `now` is its clock, `sc` is what happens to the statements of its database. -/
def Says (z : Zone) (n : Net) (j : Nat) (now : Int) (sc : Script) (q : Query) (r : Result) : Prop :=
  (exec (serverRx z now (n.site j).srv (n.site j).sys.proxy q) (n.site j).sys.db sc).1 = some (some r) ∧ r.rc = .result

/-- The packet asks for `q`. -/
def Carries (sfx p : Bytes) (q : Query) : Prop := ∃ id, queryDecode (p.take 1024) sfx = .ok (id, q)

/-- After `pre`, the server of site `j` is asked for `q` and answers `r`. -/
def SaidAfter (z : Zone) (sfx : Bytes) (s : Start) (pre : List Ev) (j : Nat) (now : Int) (q : Query) (r : Result) (e : Ev) : Prop :=
  ∃ p sc, e = .serve j p now sc ∧ p ∈ (run z sfx s pre).air ∧ Carries sfx p q ∧ Says z (run z sfx s pre) j now sc q r

/-- During the history the server of site `j` was asked for `q` and answered `r`. -/
def Said (z : Zone) (sfx : Bytes) (s : Start) (evs : List Ev) (j : Nat) (q : Query) (r : Result) : Prop :=
  ∃ pre e post now, evs = pre ++ e :: post ∧ SaidAfter z sfx s pre j now q r e

/-- During the history a user of the program `i` started a lookup of `q`, its number `u`. -/
def Asked (z : Zone) (sfx : Bytes) (s : Start) (evs : List Ev) (i u : Nat) (q : Query) : Prop :=
  ∃ pre mn to post, evs = pre ++ .request i q mn to :: post ∧ ((run z sfx s pre).look i).client.uids = u
    ∧ serviceValid q.service = true ∧ idValid q.id = true

/-- What happened to lookup `u` of program `i`, as seen by its user; the latest comes first. -/
def story (n : Net) (i u : Nat) : List Client.Obs := Client.Spec.hist u (n.look i).client.log

/-- Nobody else sends packets. -/
def Own (evs : List Ev) : Prop := ∀ p, .inject p ∉ evs

/-- The configuration of the network and of its users: the suffix and the names of services are
domain names, the suffix is not too long, and addresses and packet ids fit. -/
structure Usable (sfx : Bytes) (s : Start) (evs : List Ev) : Prop where
  query : ∀ i q mn to, .request i q mn to ∈ evs → serviceValid q.service = true → idValid q.id = true → Sendable q sfx
  suffix : sfx.length ≤ 80
  srv : ∀ j, InRange (s.srv j).services ∧ AddrOk (s.srv j).bind
  conf : ∀ j cfg srv, .conf j cfg srv ∈ evs → InRange srv.services ∧ AddrOk srv.bind
  packet : ∀ i, s.packet i < 65536

/-- No program starts so many lookups that their handles repeat. -/
def Few (n : Net) : Prop := ∀ i, (n.look i).client.uids ≤ 4294967294

end Verif.Net.Spec
