import Verif.Sys.Proxy
/-!
# mslookup: common types

`include/osmocom/mslookup/mslookup.h`.
-/
namespace Verif.Mslookup
open Verif Verif.Sys

/-- `struct osmo_mslookup_id` (mslookup.h 34-50). -/
inductive Id where
  | none
  | imsi (v : Bytes)
  | msisdn (v : Bytes)
deriving DecidableEq, Repr

/-- `struct osmo_mslookup_query` (mslookup.h 68-77); `priv` is not used. -/
structure Query where
  service : Bytes
  id : Id
deriving DecidableEq, Repr

/-- `enum osmo_mslookup_result_code` (mslookup.h 55-61). -/
inductive Rc where
  | none | result | notFound
deriving DecidableEq, Repr

/-- `struct osmo_mslookup_result` (mslookup.h 80-103). -/
structure Result where
  rc : Rc := .none
  v4 : Addr := {}
  v6 : Addr := {}
  age : Nat := 0
  last : Bool := false
deriving DecidableEq, Repr

/-- OSMO_MSLOOKUP_SERVICE_HLR_GSUP, "gsup.hlr" (include/osmocom/hlr/mslookup_server.h 29). -/
def HLR_GSUP : Bytes := [103, 115, 117, 112, 46, 104, 108, 114]

example : HLR_GSUP = b "gsup.hlr" := by decide +kernel

/-- OSMO_MSLOOKUP_SERVICE_MAXLEN (mslookup.h 30). -/
def SERVICE_MAXLEN : Nat := 64

end Verif.Mslookup
