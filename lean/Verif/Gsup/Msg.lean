import Verif.Hlr.Model
import Verif.Gsup.Name
/-!
# GSUP messages and `osmo_gsup_make_response` (src/gsupclient/gsup_req.c)

The encoding of GSUP messages belongs to libosmocore and is not modelled: a message is
the record its decoder yields.
-/
namespace Verif.Gsup
open Verif Verif.Hlr

/-! ## Message types (libosmocore gsup.h; assumption) -/
abbrev UPDATE_LOCATION : Nat := 0x04
abbrev SEND_AUTH_INFO : Nat := 0x08
abbrev PURGE_MS : Nat := 0x0c
abbrev INSERT_DATA : Nat := 0x10
abbrev DELETE_DATA : Nat := 0x14
abbrev LOCATION_CANCEL : Nat := 0x1c
abbrev PROC_SS : Nat := 0x20
abbrev MO_FORWARD_SM : Nat := 0x24
abbrev MT_FORWARD_SM : Nat := 0x28
abbrev READY_FOR_SM : Nat := 0x2c
abbrev CHECK_IMEI : Nat := 0x30
/-- OSMO_GSUP_MSGT_ROUTING_ERROR: its low bits are *not* those of an error. -/
abbrev ROUTING_ERROR : Nat := 0x4e

/-- OSMO_GSUP_IS_MSGT_REQUEST. -/
def isRequest (t : Nat) : Bool := t % 4 == 0
/-- OSMO_GSUP_TO_MSGT_ERROR: replace the two low bits by 01. -/
def toError (t : Nat) : Nat := t - t % 4 + 1
/-- OSMO_GSUP_TO_MSGT_RESULT: replace the two low bits by 10. -/
def toResult (t : Nat) : Nat := t - t % 4 + 2

/-- `enum osmo_gsup_session_state`. -/
inductive SessState where
  | none | begin | continue_ | end_
deriving DecidableEq, Repr

/-- `struct osmo_gsup_message` (libosmocore gsup.h), as far as this program looks at or
sets its fields.  Absent names are `[]`, absent numbers 0. -/
structure Msg where
  typ : Nat := 0
  imsi : Bytes := []
  cls : Nat := 0
  src : Bytes := []
  dst : Bytes := []
  sessId : Nat := 0
  sessState : SessState := .none
  smRpMr : Option Nat := none
  cause : Option Cause := none
  /-- CN domain IE: 0 absent, 1 PS, 2 CS. -/
  cnDomain : Nat := 0
  msisdn : Bytes := []
  /-- the PDP contexts: `num_pdp_infos` -/
  pdp : Nat := 0
  ssInfo : Bytes := []
  smRpDaType : Nat := 0
  smRpDa : Bytes := []
  smRpCause : Option Nat := none
  imeiEnc : Option Bytes := none
  imeiAck : Bool := false
  numVectors : Nat := 0
  rand : Option Bytes := none
  auts : Option Bytes := none
  ratSgs : Bool := false
  vecs : List Auc.Vec := []
  /-- everything else in the message -/
  other : Bytes := []
deriving DecidableEq, Repr

/-- CN domain CS? (`req->gsup.cn_domain == OSMO_GSUP_CN_DOMAIN_CS`.) -/
def Msg.isCs (m : Msg) : Bool := m.cnDomain == 2

/-- The response with its unset fields filled in (gsup_req.c 312-341). -/
def fillResponse (reply rx : Msg) (error final : Bool) : Msg :=
  { reply with
    typ := if reply.typ = 0 then (if error then toError rx.typ else toResult rx.typ) else reply.typ
    imsi := if reply.imsi.isEmpty then rx.imsi else reply.imsi
    cls := if reply.cls = 0 then rx.cls else reply.cls
    dst := if reply.dst.isEmpty then rx.src else reply.dst
    smRpMr := if reply.smRpMr.isNone then rx.smRpMr else reply.smRpMr
    sessId := if reply.sessId = 0 then rx.sessId else reply.sessId
    sessState :=
      if rx.sessState ≠ .none ∧ reply.sessState = .none then
        (if final ∨ rx.sessState = .end_ then .end_ else .continue_)
      else reply.sessState }

/-- The return code (gsup_req.c 343-352). -/
def responseRc (reply rx : Msg) : Nat :=
  (if reply.imsi ≠ rx.imsi then 1 else 0)
  + (if reply.cls ≠ rx.cls then 2 else 0)
  + (if rx.smRpMr.isSome ∧ reply.smRpMr ≠ rx.smRpMr then 4 else 0)
  + (if reply.sessId ≠ rx.sessId then 8 else 0)

/-- osmo_gsup_make_response (gsup_req.c 307-354). -/
def makeResponse (reply rx : Msg) (error final : Bool) : Nat × Msg :=
  (responseRc (fillResponse reply rx error final) rx, fillResponse reply rx error final)

end Verif.Gsup
