import Verif.Sys.Model
/-!
# Signals, the main loop and the end of osmo-hlr (`src/hlr.c`, main)

The program is modelled from the moment at which the database is open, in steps small enough for a signal to come between any two of them.
`σ` is the state of the HLR and `handle` what it does with an event (a message, a timer, a connection); see `Sys` for both.

Simplified: a signal does not disturb the handling of an event (glibc's `signal()` restarts interrupted system calls; the handler's own use
of the log and of talloc, which is not safe in a signal handler, is not modelled); what is logged and reported is not modelled; the program does not
crash and memory does not run out.
-/
namespace Verif.Stop

/-- Signals.  `ignored` are those of osmo_init_ignore_signals() (SIGPIPE, SIGALRM, SIGHUP, SIGIO). -/
inductive Sig where
  | term | int | usr1 | ignored | kill
deriving DecidableEq, Repr

/-- Where the program is. -/
inductive Phase (ε : Type) where
  /-- hlr.c 829-856: the database is open, signals have their default actions -/
  | starting
  /-- hlr.c 870: about to look at `quit` -/
  | check
  /-- hlr.c 871: `quit` was 0; not yet waiting -/
  | enter
  /-- in poll() of osmo_select_main_ctx() -/
  | waiting
  /-- calling the callbacks for the events that poll() has reported -/
  | handling (evs : List ε)
  /-- hlr.c 873, 875, 876, 877-896: about to do the first, second, … of these -/
  | stopMdns | stopGsup | closeDb | finish
  | exited (code : Nat)
  /-- ended by a signal -/
  | killed
deriving DecidableEq, Repr

structure St (σ ε : Type) where
  phase : Phase ε := .starting
  /-- hlr.c 60 -/
  quit : Nat := 0
  sys : σ
  /-- the mDNS sockets, the GSUP server and the database are open -/
  mdns : Bool := true
  gsup : Bool := true
  db : Bool := true
  /-- the events taken up so far (not in the program, for the statements only) -/
  took : List ε := []

/-- What happens next: a signal; the program does its next step; poll() reports events. -/
inductive Act (ε : Type) where
  | sig (s : Sig)
  | go
  | io (evs : List ε)

variable {σ ε : Type}

/-- Is the program running? -/
def Phase.live : Phase ε → Bool
  | .exited _ => false
  | .killed => false
  | _ => true

/-- A signal: signal_hdlr (hlr.c 732-745), installed in hlr.c 857-860; poll() returns when a handler has run. -/
def signal (s : St σ ε) (g : Sig) : St σ ε :=
  if !s.phase.live then s
  else match g with
    | .kill => { s with phase := .killed }
    | g =>
      match s.phase with
      | .starting => { s with phase := .killed }
      | p =>
        let s := if g = .term ∨ g = .int then { s with quit := s.quit + 1 } else s
        match p with
        | .waiting => if g = .ignored then s else { s with phase := .check }
        | _ => s

/-- The next step of the program (hlr.c 829-896).  In `waiting` there is none. -/
def go (handle : σ → ε → σ) (s : St σ ε) : St σ ε :=
  match s.phase with
  | .starting => { s with phase := .check }
  | .check => { s with phase := if s.quit = 0 then .enter else .stopMdns }
  | .enter => { s with phase := .waiting }
  | .waiting => s
  | .handling [] => { s with phase := .check }
  | .handling (e :: es) => { s with sys := handle s.sys e, phase := .handling es }
  | .stopMdns => { s with mdns := false, phase := .stopGsup }
  | .stopGsup => { s with gsup := false, phase := .closeDb }
  | .closeDb => { s with db := false, phase := .finish }
  | .finish => { s with phase := .exited 0 }
  | .exited _ => s
  | .killed => s

/-- poll() returns with events; at other times events have to wait. -/
def io (s : St σ ε) (evs : List ε) : St σ ε :=
  match s.phase with
  | .waiting => { s with phase := .handling evs, took := s.took ++ evs }
  | _ => s

def step (handle : σ → ε → σ) (s : St σ ε) : Act ε → St σ ε
  | .sig g => signal s g
  | .go => go handle s
  | .io evs => io s evs

def run (handle : σ → ε → σ) (s : St σ ε) (as : List (Act ε)) : St σ ε := as.foldl (step handle) s

/-- The HLR of `Sys` (the configuration may change between events). -/
def hlr (s : Sys.Sys) (x : Sys.Cfg × Sys.Ev) : Sys.Sys := Sys.step x.1 s x.2

end Verif.Stop
