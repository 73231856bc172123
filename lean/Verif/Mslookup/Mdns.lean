import Verif.Mslookup.Domain
/-!
# mDNS messages: `src/mslookup/mdns_rfc.c`, `mdns_msg.c`, `mdns.c`

Messages are lists of bytes.  A read beyond the end of a message or of an allocated buffer, a
write beyond the end of a buffer, the use of a NULL pointer and an abort of the process are the
outcome `crash`.
-/
namespace Verif.Mslookup.Mdns
open Verif Verif.Mslookup

/-- What a function does: it returns a value, it reports an error, or it has no defined
behaviour. -/
inductive Out (α : Type) where
  | ok (a : α)
  | error
  | crash
deriving DecidableEq, Repr

def Out.bind {α β : Type} (x : Out α) (f : α → Out β) : Out β :=
  match x with
  | .ok a => f a
  | .error => .error
  | .crash => .crash

instance : Monad Out where
  pure := .ok
  bind := Out.bind

/-! ## Numbers -/

/-- osmo_store16be (libosmocore). -/
def be16 (n : Nat) : Bytes := [(n / 256).toUInt8, n.toUInt8]
/-- osmo_store32be (libosmocore). -/
def be32 (n : Nat) : Bytes := [(n / 16777216).toUInt8, (n / 65536).toUInt8, (n / 256).toUInt8, n.toUInt8]

/-- A number from bytes, the most significant first (osmo_load16be, osmo_load32be, network byte
order of addresses). -/
def beNat : Bytes → Nat := List.foldl (fun n c => n * 256 + c.toNat) 0

/-- The bytes of an address: `k` bytes, the most significant first. -/
def beBytes : Nat → Nat → Bytes
  | 0, _ => []
  | k + 1, n => beBytes k (n / 256) ++ [n.toUInt8]

/-- Decimal digits (libc `printf("%u")` of an uint32_t, which has at most 10). -/
def decGo : Nat → Nat → Bytes
  | 0, _ => []
  | f + 1, n => if n < 10 then [(48 + n).toUInt8] else decGo f (n / 10) ++ [(48 + n % 10).toUInt8]
def dec (n : Nat) : Bytes := decGo 10 n

/-- `isspace()` (libc, C locale). -/
def isSpace (c : UInt8) : Bool := c == 32 || (9 ≤ c && c ≤ 13)

/-- The value of a string of decimal digits, `none` if another byte is in it. -/
def digitsVal : Nat → Bytes → Option Nat
  | n, [] => some n
  | n, c :: s => if isDigit c then digitsVal (n * 10 + (c.toNat - 48)) s else none

/-- The part of `strtoll()` after white space and sign: at least one digit, then the end. -/
def unsignedVal (s : Bytes) : Option Nat := if s.isEmpty then none else digitsVal 0 s

/-- decode_uint32_t (mdns.c 258-271).  glibc's strtoll() leaves errno alone if there is nothing
to convert, so that the empty string is read as 0.  Numbers too large for it are refused, as are
those above UINT32_MAX. -/
def decodeU32 (s : Bytes) : Option Nat :=
  if s.isEmpty then some 0
  else match s.dropWhile isSpace with
    | 45 :: t => match unsignedVal t with
      | some 0 => some 0
      | _ => none
    | 43 :: t => (unsignedVal t).bind (fun v => if v > 4294967295 then none else some v)
    | t => (unsignedVal t).bind (fun v => if v > 4294967295 then none else some v)

/-- decode_port (mdns.c 273-282). -/
def decodePort (s : Bytes) : Option Nat := (decodeU32 s).bind (fun v => if v > 65535 then none else some v)

/-! ## Names -/

/-- osmo_apn_from_str (libosmocore, gsm/apn.c): each label with its length in front. `acc` is
the label being copied.  The caller's buffer always suffices (mdns_rfc.c 78-80, 134-136). -/
def labels (acc : Bytes) : Bytes → Bytes
  | [] => acc.length.toUInt8 :: acc
  | c :: s => if c = 46 then acc.length.toUInt8 :: (acc ++ labels [] s) else labels (acc ++ [c]) s

/-- osmo_apn_to_str (libosmocore, gsm/apn.c): it stops at an empty label, and fails on one that
is longer than what is left.  `f` is larger than the number of bytes. -/
def unlabel : Nat → Bytes → Option Bytes
  | 0, _ => none
  | _ + 1, [] => some []
  | f + 1, c :: r =>
    if c = 0 then some []
    else if c.toNat > r.length then none
    else match unlabel f (r.drop c.toNat) with
      | none => none
      | some t => some (r.take c.toNat ++ if (r.drop c.toNat).isEmpty then [] else 46 :: t)

/-- The same, writing to a buffer as long as its input (mdns_rfc.c 103-107, 170-176). -/
def apnToStr (enc : Bytes) : Out Bytes :=
  match unlabel (enc.length + 1) enc with
  | none => .error
  | some s => if s.length ≥ enc.length then .crash else .ok s

/-! ## Header, question, record -/

/-- `struct osmo_mdns_rfc_header` (mdns_rfc.h 60-83): the fields that are used. -/
structure Header where
  id : Nat
  qr : Bool
  qdcount : Nat := 0
  ancount : Nat := 0
deriving DecidableEq, Repr

/-- osmo_mdns_rfc_header_encode (mdns_rfc.c 40-51); all other fields are 0. -/
def headerEncode (h : Header) : Bytes :=
  be16 h.id ++ [if h.qr then 128 else 0, 0] ++ be16 h.qdcount ++ be16 h.ancount ++ [0, 0, 0, 0]

/-- osmo_mdns_rfc_header_decode (mdns_rfc.c 54-69) of the first 12 bytes. -/
def headerDecode (d : Bytes) : Header :=
  { id := beNat (d.take 2), qr := (d.drop 2).head?.any (· ≥ 128), qdcount := beNat ((d.drop 4).take 2),
    ancount := beNat ((d.drop 6).take 2) }

/-- osmo_mdns_rfc_question_encode (mdns_rfc.c 72-89). -/
def questionEncode (domain : Bytes) (qtype qclass : Nat) : Bytes :=
  labels [] domain ++ 0 :: (be16 qtype ++ be16 qclass)

/-- osmo_mdns_rfc_question_decode (mdns_rfc.c 92-119): domain, type and class. -/
def questionDecode (d : Bytes) : Out (Bytes × Nat × Nat) :=
  if d.length < 6 then .error
  else do
    let dom ← apnToStr (d.take (d.length - 5))
    pure (dom, beNat ((d.drop (d.length - 4)).take 2), beNat (d.drop (d.length - 2)))

/-- `struct osmo_mdns_record` (mdns_msg.h 25-30). -/
structure Record where
  type : Nat
  data : Bytes
deriving DecidableEq, Repr

/-- osmo_mdns_rfc_record_encode (mdns_rfc.c 128-150) with class IN and a time to live of 0
(mdns_msg.c 101-107). -/
def recordEncode (domain : Bytes) (r : Record) : Bytes :=
  labels [] domain ++ 0 :: (be16 r.type ++ be16 1 ++ be32 0 ++ be16 r.data.length ++ r.data)

/-- The length found by `strnlen(data, data_len - 10)` (mdns_rfc.c 161): if `data_len < 10` the
limit wraps around, and it reads on until it finds a NUL. -/
def nameLen (d : Bytes) : Option Nat :=
  if d.length < 10 then (if (0 : UInt8) ∈ d then some (cstr d).length else none)
  else some (cstr (d.take (d.length - 10))).length

/-- osmo_mdns_rfc_record_decode (mdns_rfc.c 153-196): the domain, the record and the number of
bytes. -/
def recordDecode (d : Bytes) : Out (Bytes × Record × Nat) :=
  match nameLen d with
  | none => .crash
  | some l =>
    match d[l + 1]? with
    | none => .crash
    | some c =>
      if c ≠ 0 then .error
      else do
        let dom ← apnToStr (d.take l)
        if l + 11 > d.length then .crash
        else
          let rdlen := beNat ((d.drop (l + 9)).take 2)
          if l + 11 + rdlen > d.length then .error
          else .ok (dom, { type := beNat ((d.drop (l + 1)).take 2), data := (d.drop (l + 11)).take rdlen }, l + 11 + rdlen)

/-! ## Messages -/

/-- msgb_put() aborts the process if the message gets too long (libosmocore; mdns.c 30-33). -/
def msgb (d : Bytes) : Out Bytes := if d.length > 1024 then .crash else .ok d

/-- osmo_mdns_msg_request_encode (mdns_msg.c 31-47). -/
def requestEncode (id : Nat) (domain : Bytes) (type : Nat) : Out Bytes :=
  msgb (headerEncode { id := id, qr := false, qdcount := 1 } ++ questionEncode domain type 1)

/-- osmo_mdns_msg_request_decode (mdns_msg.c 52-73): id, domain and type. -/
def requestDecode (d : Bytes) : Out (Nat × Bytes × Nat) :=
  if d.length < 12 ∨ (headerDecode d).qr then .error
  else do
    let q ← questionDecode (d.drop 12)
    pure ((headerDecode d).id, cstr q.1, q.2.1)

/-- osmo_mdns_msg_answer_encode (mdns_msg.c 89-114). -/
def answerEncode (id : Nat) (domain : Bytes) (l : List Record) : Out Bytes :=
  msgb (headerEncode { id := id, qr := true, ancount := l.length } ++ l.flatMap (recordEncode domain))

/-- The loop of osmo_mdns_msg_answer_decode (mdns_msg.c 138-166): the domain, NULL if there is no
record, and the records.  `f` is larger than the number of bytes. -/
def answerRecords : Nat → Option Bytes → Bytes → Out (Option Bytes × List Record)
  | 0, _, _ => .crash
  | f + 1, dom, d =>
    if d.isEmpty then .ok (dom, [])
    else do
      let r ← recordDecode d
      if dom.any (fun x => cstr x != cstr r.1) then .error
      else
        let t ← answerRecords f (some (dom.getD (cstr r.1))) (d.drop r.2.2)
        pure (t.1, r.2.1 :: t.2)

/-- osmo_mdns_msg_answer_decode (mdns_msg.c 122-180): id, domain and records. -/
def answerDecode (d : Bytes) : Out (Nat × Option Bytes × List Record) :=
  if d.length < 12 ∨ !(headerDecode d).qr then .error
  else do
    let r ← answerRecords (d.length + 1) none (d.drop 12)
    if r.2.length ≠ (headerDecode d).ancount then .error
    else pure ((headerDecode d).id, r.1, r.2)

/-! ## Text records -/

/-- _osmo_mdns_record_txt_encode (mdns_msg.c 185-200). -/
def txtEncode (key value : Bytes) : Option Record :=
  if key.length + 1 + value.length > 255 then none
  else some { type := 16, data := (key.length + 1 + value.length).toUInt8 :: (key ++ 61 :: value) }

/-- osmo_print_n (libosmocore) into a buffer of 64 bytes, read as a C string. -/
def printN (s : Bytes) : Bytes := cstr (s.take 63)

/-- osmo_strnchr(…, '=') (libosmocore): the text before and after the first equals sign, if no
NUL comes first. -/
def splitEq : Bytes → Option (Bytes × Bytes)
  | [] => none
  | c :: s => if c = 61 then some ([], s) else if c = 0 then none
    else match splitEq s with
      | some (k, v) => some (c :: k, v)
      | none => none

/-- osmo_mdns_record_txt_keyval_decode (mdns_msg.c 227-261); `char` is signed, so that a length
byte above 127 never fits. -/
def txtDecode (r : Record) : Out (Bytes × Bytes) :=
  if r.type ≠ 16 then .error
  else match r.data with
    | [] => .crash
    | c :: s =>
      if c ≥ 128 ∨ c.toNat ≠ s.length then .error
      else if s.isEmpty then .error
      else match splitEq s with
        | none => .error
        | some (k, v) => .ok (printN k, printN v)

/-! ## mslookup queries and results -/

/-- osmo_sockaddr_str_is_set (libosmocore).  Simplified: the IPv4 address 0.0.0.0 with port 0
counts as not set. -/
def isSet (a : Sys.Addr) : Bool := a ≠ {}

/-- domain_from_query (mdns.c 41-60). -/
def domainOf (q : Query) (suffix : Bytes) : Option Bytes :=
  match q.id with
  | .none => none
  | _ => some (domainStr q ++ 46 :: suffix)

/-- query_from_domain (mdns.c 68-82). -/
def queryOf (domain suffix : Bytes) : Out Query :=
  let n : Int := (domain.length : Int) - suffix.length - 1
  if n ≤ 0 ∨ n ≥ 255 then .error
  else if (domain.drop n.toNat).head? ≠ some 46 ∨ domain.drop (n.toNat + 1) ≠ suffix then .error
  else match parseDomain (domain.take n.toNat) with
    | .ok q => .ok q
    | .error _ => .error

/-- osmo_mdns_query_encode (mdns.c 89-108). -/
def queryEncode (id : Nat) (q : Query) (suffix : Bytes) : Out Bytes :=
  match domainOf q suffix with
  | none => .error
  | some d => requestEncode id d 255

/-- osmo_mdns_query_decode (mdns.c 116-138): the packet id and the query. -/
def queryDecode (d suffix : Bytes) : Out (Nat × Query) := do
  let r ← requestDecode d
  let q ← queryOf r.2.1 suffix
  pure (r.1, q)

/-- The "age" record (mdns.c 207-210). -/
def ageRecord (age : Nat) : Option Record := txtEncode [97, 103, 101] (dec age)
/-- The "port" records (mdns.c 224-226, 242-244). -/
def portRecord (port : Nat) : Option Record := txtEncode [112, 111, 114, 116] (dec port)

example : [97, 103, 101] = b "age" ∧ [112, 111, 114, 116] = b "port" := by decide +kernel

/-- The records of one address (mdns.c 212-246): `type` A with 4 bytes or AAAA with 16.  An
address of the wrong family is an error. -/
def addrRecords (v6 : Bool) (a : Sys.Addr) : Out (List Record) :=
  if !isSet a then .ok []
  else if a.v6 ≠ v6 then .error
  else match portRecord a.port with
    | none => .crash
    | some p => .ok [{ type := if v6 then 28 else 1, data := beBytes (if v6 then 16 else 4) a.ip }, p]

/-- osmo_mdns_result_encode (mdns.c 183-256). -/
def resultEncode (id : Nat) (q : Query) (r : Result) (suffix : Bytes) : Out Bytes :=
  match domainOf q suffix with
  | none => .error
  | some d => match ageRecord r.age with
    | none => .crash
    | some a => do
      let r4 ← addrRecords false r.v4
      let r6 ← addrRecords true r.v6
      answerEncode id d (a :: (r4 ++ r6))

/-- The state of the loop of osmo_mdns_result_from_answer (mdns.c 295-306); `expect` says for
which address a port is expected, `true` for IPv6. -/
structure Acc where
  result : Result := {}
  age : Bool := false
  v4 : Bool := false
  v6 : Bool := false
  expect : Option Bool := none
deriving DecidableEq, Repr

/-- One record in osmo_mdns_result_from_answer (mdns.c 308-379). -/
def accRecord (s : Acc) (r : Record) : Out Acc :=
  if r.type = 1 then
    if s.expect.isSome ∨ s.v4 then .error
    else if r.data.length ≠ 4 then .error
    else .ok { s with
      v4 := true, expect := some false
      result := { s.result with v4 := { v6 := false, ip := beNat r.data, port := 0 } } }
  else if r.type = 28 then
    if s.expect.isSome ∨ s.v6 then .error
    else if r.data.length ≠ 16 then .error
    else .ok { s with
      v6 := true, expect := some true
      result := { s.result with v6 := { v6 := true, ip := beNat r.data, port := 0 } } }
  else if r.type = 16 then do
    let kv ← txtDecode r
    if kv.1 = [97, 103, 101] then
      if s.age then .error
      else match decodeU32 kv.2 with
        | none => .error
        | some a => .ok { s with age := true, result := { s.result with age := a } }
    else if kv.1 = [112, 111, 114, 116] then
      match s.expect with
      | none => .error
      | some v6 => match decodePort kv.2 with
        | none => .error
        | some p => .ok { s with
            expect := none
            result := if v6 then { s.result with v6 := { s.result.v6 with port := p } }
              else { s.result with v4 := { s.result.v4 with port := p } } }
    else .error
  else .error

def accRecords (s : Acc) : List Record → Out Acc
  | [] => .ok s
  | r :: l => do accRecords (← accRecord s r) l

/-- osmo_mdns_result_from_answer (mdns.c 295-393). -/
def resultOf (l : List Record) : Out Result := do
  let s ← accRecords {} l
  if !s.age ∨ !(s.v4 || s.v6) ∨ s.expect.isSome then .error
  else pure { s.result with rc := .result }

/-- osmo_mdns_result_decode (mdns.c 403-425): packet id, query and result.  `strlen(NULL)` if
there is no record. -/
def resultDecode (d suffix : Bytes) : Out (Nat × Query × Result) := do
  let a ← answerDecode d
  match a.2.1 with
  | none => .crash
  | some dom =>
    let q ← queryOf dom suffix
    let r ← resultOf a.2.2
    pure (a.1, q, r)

/-- OSMO_MDNS_DOMAIN_SUFFIX_DEFAULT (mdns.h 26). -/
def defaultSuffix : Bytes := b "mdns.osmocom.org"

end Verif.Mslookup.Mdns
