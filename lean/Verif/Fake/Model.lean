import Verif.Mslookup.Client
/-!
# The lookup method of test programs: `src/mslookup/mslookup_client_fake.c`

A test program lists the answers that are to be given, and the method gives them when their
time has come.  The list of requests that the method keeps (`requests`, 29) is not repeated
here: fake_lookup_request (46-65) adds a request at its end when the client adds it to its own,
and fake_lookup_request_cleanup (67-83) takes it out when the client frees it
(mslookup_client.c 180-184), so that the two lists hold the same requests in the same order,
if the method is added before the first request is made, as test programs do.
-/
namespace Verif.Fake
open Verif Verif.Mslookup Verif.Mslookup.Client

/-- `struct osmo_mslookup_fake_response` (mslookup_client_fake.h 24-30). -/
structure Resp where
  /-- `time_to_reply` in microseconds -/
  wait : Int
  id : Id
  service : Bytes
  result : Result
  sent : Bool := false
deriving DecidableEq, Repr

/-- An answer that was given; not in the program. -/
structure Use where
  /-- which answer of the list -/
  resp : Nat
  /-- the number of the request -/
  uid : Nat
  /-- when -/
  now : Int
deriving DecidableEq, Repr

/-- `struct fake_lookup_state` (mslookup_client_fake.c 27-33) with the client. -/
structure Fake where
  client : Client := {}
  /-- `received_at` (39) of each request, in microseconds -/
  came : Nat → Int := fun _ => 0
  resps : List Resp
  /-- the client was freed -/
  freed : Bool := false
  /-- memory was used after it was freed -/
  ub : Bool := false
  /-- the answers given, the latest first -/
  uses : List Use := []

/-- The conditions in fake_lookup_async_response (mslookup_client_fake.c 102-111): the answer
was not given yet, is for this id and service, and the request has waited long enough. -/
def due (now came : Int) (q : Query) (x : Resp) : Bool :=
  !x.sent && decide (idCmp q.id x.id = 0) && decide (q.service = x.service) && !decide (now - came < x.wait)

/-- The loops of fake_lookup_async_response (mslookup_client_fake.c 94-111) up to the first
request that has an answer: the request, the answer, and the requests after it. -/
def Fake.pick (f : Fake) (now : Int) : List Req → Option (Req × Nat × List Req)
  | [] => none
  | r :: l => match f.resps.findIdx? (due now (f.came r.uid) r.query) with
    | some i => some (r, i, l)
    | none => f.pick now l

/-- The time at which requests are made is noted (fake_lookup_request,
mslookup_client_fake.c 63); the clock stands still within an event. -/
def Fake.put (f : Fake) (now : Int) (c : Client) : Fake :=
  { f with client := c, came := fun u => if f.client.uids ≤ u then now else f.came u }

/-- An answer is given (mslookup_client_fake.c 116-117). -/
def Fake.give (out : Client → Client) (f : Fake) (now : Int) (r : Req) (i : Nat) : Fake :=
  match f.resps[i]? with
  | none => f
  | some x => { f.put now (rxResult out f.client r.handle x.result) with
      resps := f.resps.set i { x with sent := true }, uses := ⟨i, r.uid, now⟩ :: f.uses }

/-- fake_lookup_async_response (mslookup_client_fake.c 94-123) for the requests `todo`.  The
loop knows the next request before it gives an answer, and goes on there afterwards
(llist_for_each_entry_safe): if the callback has cancelled that request, it has been freed.
`n` counts the answers that may still be given. -/
def Fake.pass (out : Client → Client) (now : Int) : Nat → List Req → Fake → Fake
  | 0, _, f => f
  | n + 1, todo, f => match f.pick now todo with
    | none => f
    | some (r, i, rest) =>
      let f := f.give out now r i
      match rest with
      | [] => f
      | next :: _ =>
        if (f.client.req? next.uid).isNone then { f with ub := true }
        else f.pass out now n (f.client.reqs.dropWhile fun x => decide (x.uid ≠ next.uid))

/-- fake_lookup_async_response (mslookup_client_fake.c 85-126). -/
def Fake.tick (out : Client → Client) (f : Fake) (now : Int) : Fake :=
  f.pass out now (f.resps.length + 1) f.client.reqs

/-- What happens: something that concerns the client, or the timer of the method. -/
inductive Ev where
  | client (e : Client.Ev) (now : Int)
  | tick (now : Int)
  /-- osmo_mslookup_client_free() -/
  | free
deriving DecidableEq, Repr

/-- The timer of a request expires after the client was freed.  osmo_mslookup_client_free
(mslookup_client.c 88-97) frees the requests, which are parts of the client (254), and leaves
their timers running. -/
def Fake.late (f : Fake) : Client.Ev → Fake
  | .timeout u => { f with ub := (f.client.req? u).isSome }
  | _ => f

/-- One event; callbacks nest at most `k` deep.  After osmo_mslookup_client_free() a program does
not use the client any more, but timers are still running: those of the requests, and the one of
the method, which has no `destruct` function (mslookup_client_fake.c 144-149).  Nothing is said
about what follows a use of freed memory. -/
def step (env : Env) (k : Nat) (f : Fake) (e : Ev) : Fake :=
  if f.ub then f else match e with
    | .client e now => if f.freed then f.late e else f.put now (Client.step env k f.client e)
    | .tick now => if f.freed then { f with ub := true } else f.tick (react env k) now
    | .free => { f with freed := true }

/-- A run from osmo_mslookup_client_add_fake() (mslookup_client_fake.c 128-156) with these
answers. -/
def run (env : Env) (k : Nat) (resps : List Resp) (evs : List Ev) : Fake := evs.foldl (step env k) { resps := resps }

end Verif.Fake
