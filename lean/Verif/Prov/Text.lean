import Verif.Mslookup.Mdns
import Verif.Mslookup.Domain
import Verif.Auc.Model
/-! # Texts of the provisioning commands

Numbers, algorithm names, hexadecimal dumps and tokens, as read and written by the
commands of src/ctrl.c and src/hlr_vty_subscr.c. -/
namespace Verif.Prov
open Verif Verif.Db Verif.Auc Verif.Mslookup Verif.Mslookup.Mdns

/-- libc `strtoll(s, &end, 10)` as used in ctrl.c 72-79, where the whole of `s` must be
consumed and `errno` must stay 0: the number, `none` if it is refused.  glibc leaves `errno`
alone if there is nothing to convert and then sets `end` to the start, so that the empty
string is read as 0. -/
def strtoll (s : Bytes) : Option Int :=
  if s.isEmpty then some 0
  else match s.dropWhile isSpace with
    | 45 :: t => (unsignedVal t).bind (fun v => if v > 2 ^ 63 then none else some (-(v : Int)))
    | 43 :: t => (unsignedVal t).bind (fun v => if v ≥ 2 ^ 63 then none else some (v : Int))
    | t => (unsignedVal t).bind (fun v => if v ≥ 2 ^ 63 then none else some (v : Int))

/-- The value of the leading digits. -/
def leadDigits : Nat → Bytes → Nat
  | n, [] => n
  | n, c :: s => if isDigit c then leadDigits (n * 10 + (c.toNat - 48)) s else n

/-- libc `atoll()` (glibc: `strtoll(s, NULL, 10)`, clamped to 64 bits). -/
def atoll (s : Bytes) : Int :=
  match s.dropWhile isSpace with
  | 45 :: t => -((min (leadDigits 0 t) (2 ^ 63) : Nat) : Int)
  | 43 :: t => (min (leadDigits 0 t) (2 ^ 63 - 1) : Nat)
  | t => (min (leadDigits 0 t) (2 ^ 63 - 1) : Nat)

/-- libc `atoi()` (glibc: the low 32 bits of `strtol(s, NULL, 10)`), assigned to the
`uint32_t` field `ind_bitlen` (ctrl.c 726, hlr_vty_subscr.c 646, 703; db.h 139). -/
def atoiU32 (s : Bytes) : Nat := (atoll s % 2 ^ 32).toNat

/-- libc `strtok_r(…, ",", …)`: the token and the text left in `saveptr`. -/
def tokComma (s : Bytes) : Option (Bytes × Bytes) :=
  let t := s.dropWhile (· == 44)
  if t.isEmpty then none
  else some (t.takeWhile (· != 44), (t.dropWhile (· != 44)).drop 1)

/-- libc `strtok_r(NULL, "\0", …)`: no delimiters, all that is left. -/
def tokRest (s : Bytes) : Option Bytes := if s.isEmpty then none else some s

/-- libosmocore `osmo_auth_alg_name()` (crypt/auth.h, table `osmo_auth_alg_vals`). -/
def algoName : Algo → Bytes
  | .none => b "None"
  | .comp128v1 => b "COMP128v1"
  | .comp128v2 => b "COMP128v2"
  | .comp128v3 => b "COMP128v3"
  | .xor3g => b "XOR-3G"
  | .milenage => b "MILENAGE"
  | .xor2g => b "XOR-2G"
  | .tuak => b "TUAK"
  | .other _ => b "unknown"

/-- What auth_algo_parse delivers: the algorithm and the permitted lengths of K/Ki and OP/OPC
in bytes. -/
structure AlgoInfo where
  algo : Algo
  minK : Nat
  maxK : Nat
  minO : Nat := 0
  maxO : Nat := 0
deriving DecidableEq, Repr

/-- auth_algo_parse (hlr_vty_subscr.c 476-522); key lengths from hlr_vty.h 45-49. -/
def algoParse (s : Bytes) : Option AlgoInfo :=
  if caseEq s (b "none") then some { algo := .none, minK := 0, maxK := 0 }
  else if caseEq s (b "comp128v1") then some { algo := .comp128v1, minK := 16, maxK := 16 }
  else if caseEq s (b "comp128v2") then some { algo := .comp128v2, minK := 16, maxK := 16 }
  else if caseEq s (b "comp128v3") then some { algo := .comp128v3, minK := 16, maxK := 16 }
  else if caseEq s (b "xor-3g") then some { algo := .xor3g, minK := 12, maxK := 16 }
  else if caseEq s (b "xor-2g") then some { algo := .xor2g, minK := 16, maxK := 16 }
  else if caseEq s (b "milenage") then
    some { algo := .milenage, minK := 16, maxK := 16, minO := 16, maxO := 16 }
  else if caseEq s (b "tuak") then some { algo := .tuak, minK := 16, maxK := 32, minO := 32, maxO := 32 }
  else none

/-- A hexadecimal digit as written by libosmocore. -/
def hexDigit (n : UInt8) : UInt8 := if n < 10 then 48 + n else 87 + n

/-- libosmocore `osmo_hexdump_nospc()`. -/
def hexdump : Bytes → Bytes
  | [] => []
  | c :: s => hexDigit (c / 16) :: hexDigit (c % 16) :: hexdump s

/-- libc `printf("%" PRIu64)` of a subscriber id (an `int64_t`, db.h 94). -/
def u64 (id : Int) : Bytes := decGo 20 (id % 2 ^ 64).toNat

end Verif.Prov
