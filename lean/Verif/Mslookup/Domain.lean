import Verif.Mslookup.Base
/-!
# Domain strings: `src/mslookup/mslookup.c` 109-171, 248-319
-/
namespace Verif.Mslookup
open Verif

/-- osmo_mslookup_id_valid (mslookup.c 133-143). -/
def idValid : Id → Bool
  | .none => false
  | .imsi v => imsiValid v
  | .msisdn v => msisdnValid v

/-- osmo_mslookup_service_valid (mslookup.c 145-148). -/
def serviceValid (s : Bytes) : Bool := decide (s.length > 0)

/-- `strncmp()` (libc) of two C strings that are shorter than the limit: the difference of the
first bytes that differ, counting the terminating NUL. -/
def strCmp : Bytes → Bytes → Int
  | [], [] => 0
  | [], y :: _ => 0 - (y.toNat : Int)
  | x :: _, [] => x.toNat
  | x :: a, y :: c => if x = y then strCmp a c else (x.toNat : Int) - y.toNat

/-- `enum osmo_mslookup_id_type` (mslookup.h 34-38). -/
def idType : Id → Int
  | .none => 0
  | .imsi _ => 1
  | .msisdn _ => 2

/-- The id as text, without its type. -/
def idText : Id → Bytes
  | .none => [63]
  | .imsi v => v
  | .msisdn v => v

/-- osmo_mslookup_id_cmp (mslookup.c 109-131); OSMO_CMP gives -1, 0 or 1. -/
def idCmp (x y : Id) : Int :=
  if idType x < idType y then -1 else if idType x > idType y then 1
  else match x, y with
    | .imsi v, .imsi w => strCmp v w
    | .msisdn v, .msisdn w => strCmp v w
    | _, _ => 0

/-- osmo_mslookup_id_type_names (mslookup.c 89-94). -/
def typeName : Id → Bytes
  | .none => [110, 111, 110, 101]
  | .imsi _ => [105, 109, 115, 105]
  | .msisdn _ => [109, 115, 105, 115, 100, 110]

example (v : Bytes) : typeName .none = b "none" ∧ typeName (.imsi v) = b "imsi" ∧ typeName (.msisdn v) = b "msisdn" :=
  ⟨by decide +kernel, by rw [typeName]; decide +kernel, by rw [typeName]; decide +kernel⟩

/-- osmo_mslookup_id_name_buf (mslookup.c 155-171) into a buffer that is large enough. -/
def idName (x : Id) : Bytes := idText x ++ 46 :: typeName x

/-- The domain string of a query, "SERVICE.ID.TYPE": the query part of
osmo_mslookup_result_to_str_buf (mslookup.c 201-204). -/
def domainStr (q : Query) : Bytes := q.service ++ 46 :: idName q.id

/-- The text before and after the last dot (`strrchr(s, '.')`). -/
def splitLast : Bytes → Option (Bytes × Bytes)
  | [] => none
  | x :: s => match splitLast s with
    | some (l, r) => some (x :: l, r)
    | none => if x = 46 then some ([], s) else none

/-- token (mslookup.c 248-259): `some` negative error code. -/
def tokenErr (size : Nat) (s : Bytes) : Option Int :=
  if s.isEmpty then some (-10) else if s.length ≥ size then some (-11) else none

/-- `tolower()` on an ASCII byte (libc, C locale). -/
def lower (c : UInt8) : UInt8 := if 65 ≤ c && c ≤ 90 then c + 32 else c

/-- `strcasecmp() == 0` (libc); libosmocore's get_string_value() compares this way. -/
def caseEq (s t : Bytes) : Bool := s.map lower == t.map lower

/-- osmo_mslookup_query_init_from_domain_str (mslookup.c 267-319): the error code or the
query.  The buffers have 16 (id) and 65 (service) bytes. -/
def parseDomain (s : Bytes) : Except Int Query :=
  match splitLast s with
  | none => .error (-2)
  | some (pre, typ) =>
    if pre.isEmpty then .error (-3)
    else match splitLast pre with
      | none => .error (-3)
      | some (svc, x) =>
        if svc.isEmpty then .error (-3)
        else if typ.isEmpty then .error (-4)
        else
          let service (i : Id) : Except Int Query := match tokenErr (SERVICE_MAXLEN + 1) svc with
            | some e => .error e
            | none => .ok { service := svc, id := i }
          if caseEq typ (typeName .none) then .error (-7)
          else if caseEq typ (typeName (.imsi [])) then
            match tokenErr 16 x with
            | some e => .error e
            | none => if imsiValid x then service (.imsi x) else .error (-5)
          else if caseEq typ (typeName (.msisdn [])) then
            match tokenErr 16 x with
            | some e => .error e
            | none => if msisdnValid x then service (.msisdn x) else .error (-6)
          else .error (-7)

end Verif.Mslookup
