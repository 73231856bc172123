import Verif.Mslookup.Domain
/-!
# The mslookup client: `src/mslookup/mslookup_client.c`

Callbacks and lookup methods may call the client again: the n-th call of a result callback
does the things that the environment chooses for it, and a lookup method may answer while it
is being asked.  Timers and answers of other sites arrive from the main loop.
-/
namespace Verif.Mslookup.Client
open Verif Verif.Mslookup

/-- `struct osmo_mslookup_client_request` (mslookup_client.c 31-42).  `uid` is not in the
program: it numbers the requests in the order of their creation. -/
structure Req where
  uid : Nat
  handle : Nat
  query : Query
  /-- `handling.min_wait_milliseconds` -/
  minWait : Nat
  /-- `handling.result_timeout_milliseconds` -/
  timeout : Nat
  waiting : Bool := false
  /-- milliseconds for which the timer was armed last -/
  timer : Nat := 0
  result : Result := {}
deriving DecidableEq, Repr

/-- What happens to one request, as seen from outside. -/
inductive Obs where
  /-- osmo_mslookup_client_request() accepted it, with this handle, minimum wait and timeout -/
  | issued (handle minWait timeout : Nat)
  /-- a result for it arrives from a lookup method -/
  | rx (r : Result)
  /-- its timer expires -/
  | tick
  /-- osmo_mslookup_client_request_cancel() is called for it -/
  | cancel
  /-- its callback is called with the result -/
  | cb (r : Result)
deriving DecidableEq, Repr

/-- `struct osmo_mslookup_client` (mslookup_client.c 23-27). -/
structure Client where
  /-- `next_request_handle`, an uint32_t -/
  next : Nat := 0
  reqs : List Req := []
  /-- requests created so far -/
  uids : Nat := 0
  /-- callbacks called so far -/
  calls : Nat := 0
  /-- memory was used after it was freed -/
  ub : Bool := false
  /-- not in the program: a handle was given to a new request while it still stood for an
  older one -/
  clash : Bool := false
  /-- what happened to which request, the latest first -/
  log : List (Nat × Obs) := []
deriving DecidableEq, Repr

/-- What a callback may do. -/
inductive Act where
  | cancel (handle : Nat)
  | request (q : Query) (minWait timeout : Nat)
deriving DecidableEq, Repr

/-- The environment: what the n-th call of a callback does, and the answers that each lookup
method gives to the n-th request while it is being asked. -/
structure Env where
  react : Nat → List Act := fun _ => []
  answers : Nat → List (List Result) := fun _ => []

def Client.emit (c : Client) (u : Nat) (o : Obs) : Client := { c with log := (u, o) :: c.log }

/-- The request with this number, if it still exists. -/
def Client.req? (c : Client) (u : Nat) : Option Req := c.reqs.find? (·.uid == u)

/-- get_request (mslookup_client.c 44-54). -/
def Client.getReq (c : Client) (h : Nat) : Option Req :=
  if h = 0 then none else c.reqs.find? (·.handle == h)

/-- Write to a request. -/
def Client.put (c : Client) (r : Req) : Client :=
  { c with reqs := c.reqs.map (fun x => if x.uid = r.uid then r else x) }

/-- _osmo_mslookup_client_request_cleanup (mslookup_client.c 176-187).  The methods' own
cleanup does not call back. -/
def Client.cleanup (c : Client) (u : Nat) : Client := { c with reqs := c.reqs.filter (fun x => !(x.uid == u)) }

/-- osmo_mslookup_client_request_cancel (mslookup_client.c 304-310), after the last callback of
the request `u`.  `u` is not in the program: if the request is gone and the handle stands for a
newer one, it is that one which is dropped. -/
def Client.drop (c : Client) (h u : Nat) : Client :=
  match c.getReq h with
  | none => c
  | some r => { c.cleanup r.uid with clash := c.clash || r.uid != u }

/-- The same, called by the user. -/
def Client.cancel (c : Client) (h : Nat) : Client :=
  match c.getReq h with
  | none => c
  | some r => (c.emit r.uid .cancel).cleanup r.uid

/-- osmo_mslookup_request_send_result (mslookup_client.c 127-139); `out` is what the callback
does. -/
def sendResult (out : Client → Client) (c : Client) (r : Req) (finish : Bool) : Client :=
  let r := { r with result := { r.result with last := finish } }
  let c := out ((c.put r).emit r.uid (.cb r.result))
  if finish then c.drop r.handle r.uid else c

/-- osmo_mslookup_client_rx_result (mslookup_client.c 141-174). -/
def rxResult (out : Client → Client) (c : Client) (h : Nat) (res : Result) : Client :=
  match c.getReq h with
  | none => c
  | some r =>
    let c := c.emit r.uid (.rx res)
    if res.rc ≠ .result then c
    else if r.result.rc = .result ∧ res.age ≥ r.result.age then c
    else
      let r := { r with result := res }
      let c := c.put r
      if res.age = 0 then sendResult out c r true
      else if r.waiting then c
      else sendResult out c r false

/-- set_timer (mslookup_client.c 191-195): a write to the request, which may have been freed. -/
def setTimer (c : Client) (u ms : Nat) : Client :=
  match c.req? u with
  | none => { c with ub := true }
  | some r => c.put { r with timer := ms }

/-- timeout_cb (mslookup_client.c 197-231). -/
def timeoutCb (out : Client → Client) (c : Client) (u : Nat) : Client :=
  match c.req? u with
  | none => c
  | some r =>
    let c := c.emit u .tick
    if r.waiting then
      let r := { r with waiting := false }
      let c := c.put r
      if r.timeout ≤ r.minWait then
        let r := if r.result.rc ≠ .result then { r with result := { r.result with rc := .notFound } } else r
        sendResult out (c.put r) r true
      else
        let c := if r.result.rc = .result then sendResult out c r false else c
        setTimer c u (r.timeout - r.minWait)
    else
      let rc : Rc := if r.result.rc = .result then .none else .notFound
      let r := { r with result := { r.result with rc := rc } }
      sendResult out (c.put r) r true

/-- osmo_mslookup_client_request (mslookup_client.c 238-298): the handle returned.  `answers`
are what each of the methods answers while it is being asked; after each of them, the
request's handle is read again, for the next method or for the return value. -/
def request (out : Client → Client) (answers : Nat → List (List Result)) (c : Client) (q : Query)
    (minWait timeout : Nat) : Nat × Client :=
  if !serviceValid q.service || !idValid q.id then (0, c)
  else
    let h := if c.next = 0 then 1 else c.next
    let timeout := if timeout = 0 then minWait else timeout
    let timeout := if timeout = 0 then 1000 else timeout
    let u := c.uids
    let r : Req := { uid := u, handle := h, query := q, minWait := minWait, timeout := timeout }
    let c := { c with next := (h + 1) % 4294967296, uids := u + 1 }
    let c := match c.reqs.find? (·.handle == h) with
      | none => c
      | some other => sendResult out { c with clash := true } other true
    let r := if minWait ≠ 0 then { r with waiting := true, timer := minWait } else { r with timer := timeout }
    let c := { c with reqs := c.reqs ++ [r] }.emit u (.issued h minWait timeout)
    (h, (answers u).foldl (fun c l =>
      let c := l.foldl (fun c res => rxResult out c h res) c
      if (c.req? u).isNone then { c with ub := true } else c) c)

/-- What a callback does: its next `k` levels of nested calls. -/
def react (env : Env) : Nat → Client → Client
  | 0, c => { c with calls := c.calls + 1 }
  | k + 1, c => (env.react c.calls).foldl (fun c a => match a with
      | .cancel h => c.cancel h
      | .request q mn to => (request (react env k) env.answers c q mn to).2) { c with calls := c.calls + 1 }

/-- What happens in the main loop. -/
inductive Ev where
  | act (a : Act)
  /-- a lookup method delivers a result -/
  | rx (handle : Nat) (res : Result)
  /-- the timer of the request expires -/
  | timeout (u : Nat)
deriving DecidableEq, Repr

/-- One event; callbacks nest at most `k` deep. -/
def step (env : Env) (k : Nat) (c : Client) : Ev → Client
  | .act (.cancel h) => c.cancel h
  | .act (.request q mn to) => (request (react env k) env.answers c q mn to).2
  | .rx h res => rxResult (react env k) c h res
  | .timeout u => timeoutCb (react env k) c u

/-- A run from osmo_mslookup_client_new() (mslookup_client.c 56-63). -/
def run (env : Env) (k : Nat) (evs : List Ev) : Client := evs.foldl (step env k) {}

end Verif.Mslookup.Client
