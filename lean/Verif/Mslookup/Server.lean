import Verif.Mslookup.Config
import Verif.Mslookup.Timestamp
/-!
# The mslookup server: `src/mslookup_server.c` 32-69, 189-459
-/
namespace Verif.Mslookup
open Verif Verif.Db Verif.Sys Verif.Gsup

/-- What `vsnprintf()` writes for a format string without arguments; `none` if the string
has a conversion that needs one (undefined behaviour).  osmo_ipa_name_set_str() is called
with stored names as format strings (db.h 202, mslookup_server.c 290). -/
def fmtText : Bytes → Option Bytes
  | [] => some []
  | c :: s =>
    if c = 37 then
      match s with
      | d :: s' => if d = 37 then (fmtText s').map (37 :: ·) else none
      | [] => none
    else (fmtText s).map (c :: ·)

/-- The configuration of the server (include/osmocom/hlr/hlr.h 96-113). -/
structure Srv where
  services : Services := []
  /-- `gsup_bind_addr` with the GSUP port; zero if it cannot be parsed -/
  bind : Addr := {}
  /-- `local_attach_max_age` (dgsm.c 171) -/
  maxAge : Nat := 3600

/-- Outcome of subscriber_has_done_lu_here(). -/
inductive Att where
  | no
  | yes (age : Nat) (msc : IpaName)
  /-- undefined behaviour -/
  | ub
deriving DecidableEq, Repr

/-- db_subscr_get_by_imsi() or db_subscr_get_by_msisdn() (mslookup_server.c 243-259); a
failure is treated like a missing subscriber. -/
def rowFor : Id → DbM (Option SubRow)
  | .none => pure none
  | .imsi v => do pure (← getByImsi v).2
  | .msisdn v => do pure (← getByMsisdn v).2

/-- subscriber_has_done_lu_here_hlr (mslookup_server.c 232-296) for the row found; the
names of proxies are used as formats when the row is read (db_hlr.c 513-514). -/
def luHereHlr (z : Zone) (now : Int) (maxAge : Nat) (r : SubRow) : Att :=
  let vlr := strlcpy 32 (r.vlr.getD [])
  if (fmtText (r.vlrViaProxy.getD [])).isNone ∨ (fmtText (r.sgsnViaProxy.getD [])).isNone then .ub
  else if vlr.isEmpty then .no
  else if r.vlrViaProxy.isSome then .no
  else
    let t := timestampAgeAt z now (parseLastLu z r.lastLu)
    if !t.1 then .no
    else if t.2 > maxAge then .no
    else match fmtText vlr with
      | none => .ub
      | some s => .yes t.2 (ipaSetStr {} s).2

/-- The search of subscriber_has_done_lu_here_proxy (mslookup_server.c 313-324). -/
def entryFor (p : List ProxyEntry) : Id → Option ProxySub
  | .none => none
  | .imsi v => proxyByImsi p v
  | .msisdn v => proxyByMsisdn p v

/-- subscriber_has_done_lu_here_proxy (mslookup_server.c 302-361) for the entry found. -/
def luHereProxy (z : Zone) (now : Int) (maxAge : Nat) (x : ProxySub) : Att :=
  let t := timestampAgeAt z now x.cs.lastLu
  if !t.1 ∨ t.2 > maxAge then .no
  else if x.cs.via.len ≠ 0 then .no
  else .yes t.2 x.cs.vlr

/-- subscriber_has_done_lu_here (mslookup_server.c 363-417), given the outcomes for the
database and for the proxy. -/
def luHere : Att → Att → Att
  | .ub, _ => .ub
  | .yes a n, .yes a' n' =>
    if a' < a then (if n'.len = 0 then .no else .yes a' n') else (if n.len = 0 then .no else .yes a n)
  | .no, .yes a' n' => if n'.len = 0 then .no else .yes a' n'
  | .yes a n, _ => if n.len = 0 then .no else .yes a n
  | .no, _ => .no

def optAtt (f : α → Att) : Option α → Att
  | none => .no
  | some x => f x

/-- `not_found` (mslookup_server.c 32-34). -/
def notFound : Result := { rc := .notFound }

/-- set_result (mslookup_server.c 37-50) on a zeroed result. -/
def setResult (h : Host) (age : Nat) : Result :=
  if !h.v4.nonzero ∧ !h.v6.nonzero then notFound else { rc := .result, v4 := h.v4, v6 := h.v6, age := age }

/-- mslookup_server_get_local_gsup_addr (mslookup_server.c 52-69).  The address the server
is bound to does not change while it runs. -/
def localGsup (c : Srv) : Host :=
  match serviceGet c.services {} HLR_GSUP with
  | some h => h
  | none => if c.bind.v6 then { service := [], v6 := c.bind } else { service := [], v4 := c.bind }

/-- mslookup_server_rx_hlr_gsup (mslookup_server.c 190-228). -/
def rxHlrGsup (c : Srv) : Id → DbM Result
  | .none => pure notFound
  | .imsi v => do pure (if (← existsByImsi v) ≠ 0 then notFound else setResult (localGsup c) 0)
  | .msisdn v => do pure (if (← existsByMsisdn v) ≠ 0 then notFound else setResult (localGsup c) 0)

/-- The end of mslookup_server_rx (mslookup_server.c 435-458). -/
def serviceAnswer (c : Srv) (svc : Bytes) : Att → Option Result
  | .ub => none
  | .no => some notFound
  | .yes age n =>
    match serviceGet c.services n svc with
    | some h => some (setResult h age)
    | none => match serviceGet c.services {} svc with
      | some h => some (setResult h age)
      | none => some notFound

/-- mslookup_server_rx (mslookup_server.c 420-459): `none` is undefined behaviour. -/
def serverRx (z : Zone) (now : Int) (c : Srv) (p : List ProxyEntry) (q : Query) : DbM (Option Result) :=
  if q.service = HLR_GSUP then do pure (some (← rxHlrGsup c q.id))
  else do
    let row ← rowFor q.id
    pure (serviceAnswer c q.service
      (luHere (optAtt (luHereHlr z now c.maxAge) row) (optAtt (luHereProxy z now c.maxAge) (entryFor p q.id))))

end Verif.Mslookup
