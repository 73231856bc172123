import Verif.Auc.Model
/-!
# The request handlers of `src/hlr.c` that work on the database only

Each handler is a database program whose result is the one response it sends.
-/
namespace Verif.Hlr
open Verif Verif.Db Verif.Auc

/-- `enum gsm48_gmm_cause`, as far as used. -/
inductive Cause where
  | imsiUnknown | netFail | gprsNotAllowed | plmnNotAllowed | invMandInfo | msgtIncompPState
  | other (n : Nat)
deriving DecidableEq, Repr

/-- `enum subscr_create_on_demand_mode` (include/osmocom/hlr/hlr.h 36-41); the
length of random MSISDNs belongs to its mode. -/
inductive CodMode where
  | disabled | noMsisdn | randMsisdn (len : Nat) | msisdnFromImsi
deriving DecidableEq, Repr

/-- The part of `struct hlr` (hlr.h 43-122) the handlers look at. -/
structure Cfg where
  storeImei : Bool := false
  cod : CodMode := .disabled
  codCs : Bool := false
  codPs : Bool := false
  rejectCause : Cause := .imsiUnknown
deriving DecidableEq, Repr

/-- generate_new_msisdn (hlr.c 165-201): `n` attempts to go, next attempt `i`.
`rnd i` is the random buffer obtained in attempt `i` (after up to ten tries,
hlr.c 175-179), `none` if the random source failed. -/
def genMsisdn (rnd : Nat → Option (Nat → UInt8)) (len : Nat) : Nat → Nat → DbM (Option Bytes)
  | 0, _ => pure none
  | n + 1, i =>
    match rnd i with
    | none => pure none
    | some buf => do
      let m := (List.range len).map (fun j => 48 + buf j % 10)
      let rc ← existsByMsisdn m
      if rc = -ENOENT then pure (some m) else genMsisdn rnd len n (i + 1)

/-- The MSISDN chosen by subscr_create_on_demand (hlr.c 211-225): `none` means
"return -1 without creating", `some []` no MSISDN. -/
def codMsisdn (cfg : Cfg) (rnd : Nat → Option (Nat → UInt8)) (imsi : Bytes) : DbM (Option Bytes) :=
  match cfg.cod with
  | .msisdnFromImsi => pure (some (strlcpy 16 imsi))
  | .randMsisdn len => genMsisdn rnd len 10 0
  | .noMsisdn => pure (some [])
  | .disabled => pure none

/-- subscr_create_on_demand (hlr.c 203-246). -/
def createOnDemand (cfg : Cfg) (rnd : Nat → Option (Nat → UInt8)) (imsi : Bytes) : DbM Int := do
  let e ← existsByImsi imsi
  if e = 0 then pure (-1)
  else do
    match ← codMsisdn cfg rnd imsi with
    | none => pure (-1)
    | some m => do
      let rc ← subscrCreate imsi cfg.codCs cfg.codPs
      if rc ≠ 0 then pure rc
      else if m.isEmpty then pure 0
      else updateMsisdn imsi (some m)

/-! ## Send Auth Info -/

/-- The parts of a Send Auth Info Request rx_send_auth_info looks at: IMSI, the
requesting node's name (raw IPA name), Num Vectors Requested (0 if absent), RAND,
AUTS, and whether the RAT type is EUTRAN-SGs. -/
structure SaiReq where
  imsi : Bytes
  source : Bytes
  num : Nat := 0
  rand : Option Bytes := none
  auts : Option Bytes := none
  sgs : Bool := false

inductive SaiOut where
  | result (vecs : List Vec)
  | error (c : Cause)
  | ub
deriving DecidableEq, Repr

/-- Number of vectors generated (hlr.c 299, 308-310); OSMO_GSUP_MAX_NUM_AUTH_INFO
is 5. -/
def saiNum (num : Nat) : Nat := if 0 < num ∧ num ≤ 5 then num else 5

/-- The response to the outcome of db_get_auc (hlr.c 325-346). -/
def saiAnswer (cfg : Cfg) : AucRes → SaiOut
  | .vecs [] => .error .imsiUnknown
  | .vecs (v :: l) => .result (v :: l)
  | .err rc =>
    if rc = 0 ∨ rc = -ENOKEY then .error .imsiUnknown
    else if rc = -ENOENT then .error cfg.rejectCause
    else .error .netFail
  | .ub => .ub

/-- rx_send_auth_info (hlr.c 293-347); `rands` feeds the vectors, `rnd` random
MSISDNs. -/
def rxSai (cfg : Cfg) (c : Crypto) (rands : Nat → Option Bytes)
    (rnd : Nat → Option (Nat → UInt8)) (q : SaiReq) : DbM SaiOut := do
  let _ ← createOnDemand cfg rnd q.imsi
  let r ← dbInd q.source
  let ind := if r.1 = 0 then r.2 else 0
  let a ← dbGetAuc c rands q.imsi ind (saiNum q.num) q.rand q.auts q.sgs
  pure (saiAnswer cfg a)

/-! ## Purge MS -/

inductive PurgeOut where
  | result | error (c : Cause)
deriving DecidableEq, Repr

/-- rx_purge_ms_req (hlr.c 372-392); `cs` says the CN domain IE is CS. -/
def rxPurge (imsi : Bytes) (cs : Bool) : DbM PurgeOut := do
  let rc ← subscrPurge imsi true (!cs)
  if rc = 0 then pure .result
  else if rc = -ENOENT then pure (.error .imsiUnknown)
  else pure (.error .netFail)

/-! ## Check IMEI -/

inductive ImeiOut where
  | ack | error (c : Cause)
deriving DecidableEq, Repr

/-- rx_check_imei_req (hlr.c 394-449).  `imei` is the outcome of
`gsm48_decode_bcd_number2()` on the IMEI IE: `none` if the IE is missing or does
not decode (or does not fit the buffer of 14 digits and NUL). -/
def rxCheckImei (cfg : Cfg) (rnd : Nat → Option (Nat → UInt8)) (imsi : Bytes)
    (imei : Option Bytes) : DbM ImeiOut :=
  match imei with
  | none => pure (.error .invMandInfo)
  | some i =>
    if !imeiValid i then pure (.error .invMandInfo)
    else do
      let _ ← createOnDemand cfg rnd imsi
      if cfg.storeImei then do
        let rc ← updateImei imsi (some i)
        if rc < 0 then pure (.error .invMandInfo) else pure .ack
      else do
        let r ← getByImsi imsi
        if r.1 < 0 then pure (.error .invMandInfo) else pure .ack

end Verif.Hlr
