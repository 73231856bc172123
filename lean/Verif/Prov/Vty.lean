import Verif.Prov.Text
import Verif.Sys.State
/-! # The subscriber commands of the VTY: `src/hlr_vty_subscr.c`

A command is a database program that ends with CMD_SUCCESS or CMD_WARNING, a text written to
the terminal, and what is to be sent to the GSUP clients.  The parsing of the command line is
libosmovty's and not modelled: keywords arrive spelled out, free arguments as typed.  The end of
line is a newline here; on a telnet terminal it is `\r\n`. -/
namespace Verif.Prov.Vty
open Verif Verif.Db Verif.Auc Verif.Mslookup Verif.Mslookup.Mdns Verif.Prov

/-- `(imsi|msisdn|id|imei)` (hlr_vty_subscr.c 258). -/
inductive IdType where
  | imsi | msisdn | id | imei
deriving DecidableEq, Repr

/-- The keyword. -/
def IdType.text : IdType → Bytes
  | .imsi => b "imsi"
  | .msisdn => b "msisdn"
  | .id => b "id"
  | .imei => b "imei"

/-- What is sent to GSUP clients: osmo_hlr_subscriber_update_notify() for a subscriber, or the
DELETE DATA requests of hlr_subscr_nam() (hlr.c 281-284). -/
inductive Act where
  | notify (s : HlrSubscr)
  | delData (s : HlrSubscr)
deriving DecidableEq, Repr

/-- The end of a command: CMD_SUCCESS or CMD_WARNING with the text written and the messages to
send; or undefined behaviour (an uninitialised `struct hlr_subscriber` is printed). -/
inductive Res where
  | done (ok : Bool) (text : Bytes) (acts : List Act)
  | ub
deriving DecidableEq, Repr

/-- CMD_WARNING. -/
def warn (t : Bytes) : Res := .done false t []

/-- CMD_SUCCESS with nothing to send. -/
def success (t : Bytes) : Res := .done true t []

/-- What the VTY needs of the clock: the current time and get_datestr (hlr_vty_subscr.c 40-46:
`strftime("%FT%T+00:00")` of a time in UTC).  Any function; the time zone is UTC (see C49 for
others). -/
structure Clock where
  now : Int
  date : Int → Bytes

/-! ## IMEI check digits -/

/-- The sums of libosmocore `osmo_luhn()` over the digits from the last to the first: every
second digit, starting with the last one, counts double, less 9 if it has two digits. -/
def luhnSum : Bool → Bytes → Nat
  | _, [] => 0
  | true, c :: s =>
    let dbl := (c.toNat - 48) * 2
    (if dbl > 9 then dbl - 9 else dbl) + luhnSum false s
  | false, c :: s => (c.toNat - 48) + luhnSum true s

/-- libosmocore `osmo_luhn(in, in_len)`: `none` is -EINVAL. -/
def luhn (s : Bytes) (n : Nat) : Option UInt8 :=
  if n ≤ s.length && (s.take n).all isDigit then
    some (UInt8.ofNat ((luhnSum true (s.take n).reverse * 9) % 10 + 48))
  else none

/-- libosmocore `osmo_imei_str_valid(imei, true)`: 15 digits, the last one being the check
digit. -/
def imeiChkValid (s : Bytes) : Bool := isNDigits 15 15 s && luhn s 14 == s[14]?

/-- "Cut the checksum off": osmo_strlcpy() to a buffer of 15 bytes (hlr_vty_subscr.c 203-204,
766-767). -/
def imeiCut (s : Bytes) : Bytes := strlcpy 15 s

/-! ## Printing -/

/-- The line about the last location update in a domain (dump_last_lu_seen,
hlr_vty_subscr.c 48-76, with `only_age` false). -/
def lastLu (ck : Clock) (dom : Bytes) (t : Int) : Bytes :=
  if t = 0 then []
  else b "    last LU seen on " ++ dom ++ b ": " ++ ck.date t ++ age (Sys.timestampAge ck.now t)
where
  /-- UNIT_AGO (hlr_vty_subscr.c 61-65). -/
  unit (name : UInt8) (u a : Nat) : Bytes := if a ≥ u then dec (a / u) ++ [name] else []
  /-- the age in days, hours, minutes and seconds -/
  age : Bool × Nat → Bytes
  | (false, _) => b " (invalid timestamp)\n"
  | (true, a) => b " (" ++ unit 100 86400 a ++ unit 104 3600 (a % 86400)
    ++ unit 109 60 (a % 86400 % 3600) ++ unit 115 1 (a % 86400 % 3600 % 60) ++ b " ago)\n"

/-- A labelled line, or nothing for an empty text. -/
def optLine (label t : Bytes) : Bytes := if t.isEmpty then [] else label ++ t ++ [10]

/-- The IMEI with its check digit (hlr_vty_subscr.c 88-94).  `char` is signed, as on x86: where
it is not, the comparison with -EINVAL never holds. -/
def imeiLine (i : Bytes) : Bytes :=
  if i.isEmpty then []
  else match luhn i 14 with
    | none => b "    IMEI: " ++ i ++ b " (INVALID LENGTH!)\n"
    | some c => b "    IMEI: " ++ i ++ [c, 10]

/-- subscr_dump_full_vty up to the keys (hlr_vty_subscr.c 78-119).  The columns `sgsn_address`,
`periodic_lu_timer`, `periodic_rau_tau_timer` and `lmsi` are never written by the code. -/
def dumpHead (ck : Clock) (s : HlrSubscr) : Bytes :=
  b "    ID: " ++ u64 s.id ++ [10]
    ++ b "    IMSI: " ++ (if s.imsi.isEmpty then b "none" else s.imsi) ++ [10]
    ++ b "    MSISDN: " ++ (if s.msisdn.isEmpty then b "none" else s.msisdn) ++ [10]
    ++ imeiLine s.imei
    ++ optLine (b "    VLR number: ") s.vlrNumber
    ++ optLine (b "    SGSN number: ") s.sgsnNumber
    ++ (if s.namCs then [] else b "    CS disabled\n")
    ++ (if s.purgedCs then b "    CS purged\n" else [])
    ++ (if s.namPs then [] else b "    PS disabled\n")
    ++ (if s.purgedPs then b "    PS purged\n" else [])
    ++ lastLu ck (b "CS") s.lastLu ++ lastLu ck (b "PS") s.lastLuPs

/-- The 2G keys (hlr_vty_subscr.c 148-153). -/
def dump2 : Option Aud2 → Bytes
  | none => []
  | some a => b "    2G auth: " ++ algoName a.algo ++ b "\n             KI=" ++ hexdump a.ki ++ [10]

/-- The 3G keys (hlr_vty_subscr.c 155-165). -/
def dump3 : Option Aud3 → Bytes
  | none => []
  | some a => b "    3G auth: " ++ algoName a.algo ++ b "\n             K=" ++ hexdump a.k
    ++ b "\n             " ++ (if a.isOp then b "OP" else b "OPC") ++ b "=" ++ hexdump a.opc
    ++ b "\n             IND-bitlen=" ++ dec a.bl
    ++ (if a.sqn = 0 then [] else b " last-SQN=" ++ decGo 20 a.sqn) ++ [10]

/-- `printf("%d")`. -/
def decInt (i : Int) : Bytes := if i < 0 then 45 :: dec i.natAbs else dec i.natAbs

/-- subscr_dump_full_vty (hlr_vty_subscr.c 78-167). -/
def dump (ck : Clock) (s : HlrSubscr) : DbM Bytes :=
  if s.imsi.isEmpty then pure (dumpHead ck s)
  else do
    match ← getAuthData s.imsi with
    | .keys _ g u => pure (dumpHead ck s ++ dump2 g ++ dump3 u)
    | .err rc =>
      if rc = -ENOENT ∨ rc = -ENOKEY then pure (dumpHead ck s)
      else pure (dumpHead ck s ++ b "% Error retrieving data from database (" ++ decInt rc ++ b ")\n")

/-! ## Selecting -/

/-- The identity looked up, and what is printed before (get_subscr_by_argv,
hlr_vty_subscr.c 191-216). -/
def ident (t : IdType) (id : Bytes) : Bytes × Bytes :=
  if t = .imei ∧ imeiChkValid id = true then
    (imeiCut id, b "% Checksum validated and stripped for search: imei = '" ++ imeiCut id ++ b "'\n")
  else (id, [])

/-- The database call of get_subscr_by_argv (hlr_vty_subscr.c 194-211). -/
def lookup (t : IdType) (id : Bytes) : DbM (Int × Option SubRow) :=
  match t with
  | .imsi => getByImsi id
  | .msisdn => getByMsisdn id
  | .id => getById (atoll id)
  | .imei => getByImei (ident .imei id).1

/-- get_subscr_by_argv (hlr_vty_subscr.c 191-216) followed by `k`, which gets the text printed
so far. -/
def withSub (t : IdType) (id : Bytes) (k : Bytes → HlrSubscr → DbM Res) : DbM Res := do
  match ← lookup t id with
  | (_, none) => pure (warn ((ident t id).2 ++ b "% No subscriber for " ++ t.text ++ b " = '" ++ (ident t id).1 ++ b "'\n"))
  | (_, some row) => k (ident t id).2 (HlrSubscr.ofRow row)

/-! ## The commands -/

/-- subscriber_show (hlr_vty_subscr.c 274-288). -/
def show_ (ck : Clock) (t : IdType) (id : Bytes) : DbM Res :=
  withSub t id fun p s => do pure (success (p ++ (← dump ck s)))

/-- subscriber_create (hlr_vty_subscr.c 341-376).  The result of the second look at the database
is not checked. -/
def create (ck : Clock) (imsi : Bytes) : DbM Res :=
  if !imsiValid imsi then pure (warn (b "% Not a valid IMSI: " ++ imsi ++ [10]))
  else do report (← subscrCreate imsi true true)
where
  /-- hlr_vty_subscr.c 357-375 -/
  report (rc : Int) : DbM Res :=
    if rc ≠ 0 then
      pure (warn (if rc = -EEXIST then b "% Subscriber already exists for IMSI = " ++ imsi ++ [10]
        else b "% Error (rc=" ++ decInt rc ++ b "): cannot create subscriber for IMSI = " ++ imsi ++ [10]))
    else do created (← getByImsi imsi)
  /-- hlr_vty_subscr.c 369-375 -/
  created : Int × Option SubRow → DbM Res
    | (_, none) => pure .ub
    | (_, some r) => do
      let t ← dump ck (HlrSubscr.ofRow r)
      pure (success (b "% Created subscriber " ++ imsi ++ [10] ++ t))

/-- subscriber_delete (hlr_vty_subscr.c 378-403). -/
def delete (t : IdType) (id : Bytes) : DbM Res :=
  withSub t id fun p s => do
    let rc ← subscrDelete s.id
    if rc ≠ 0 then pure (warn (p ++ b "% Error: Failed to remove subscriber for IMSI '" ++ s.imsi ++ b "'\n"))
    else pure (success (p ++ b "% Deleted subscriber for IMSI '" ++ s.imsi ++ b "'\n"))

/-- subscriber_msisdn (hlr_vty_subscr.c 405-454). -/
def msisdn (t : IdType) (id v : Bytes) : DbM Res :=
  if v ≠ b "none" ∧ v.length > 15 then pure (warn (b "% MSISDN is too long, max. 15 characters are allowed\n"))
  else if v ≠ b "none" ∧ msisdnValid v = false then pure (warn (b "% MSISDN invalid: '" ++ v ++ b "'\n"))
  else withSub t id fun p s => do
    let rc ← updateMsisdn s.imsi (if v = b "none" then none else some v)
    if rc ≠ 0 then
      pure (warn (p ++ b "% Error: cannot update MSISDN for subscriber IMSI='" ++ s.imsi ++ b "'\n"))
    else if v = b "none" then
      pure (.done true (p ++ b "% Updated subscriber IMSI='" ++ s.imsi ++ b "': removed MSISDN\n") [.notify s])
    else do
      let txt := p ++ b "% Updated subscriber IMSI='" ++ s.imsi ++ b "' to MSISDN='" ++ v ++ b "'\n"
      match ← getByMsisdn v with
      | (_, none) => pure (success txt)
      | (_, some r) => pure (.done true txt [.notify (HlrSubscr.ofRow r)])

/-- is_hexkey_valid (hlr_vty_subscr.c 456-463): the complaint, if any. -/
def hexkey (label v : Bytes) (min max : Nat) : Option Bytes :=
  if isHexStr (min * 2) (max * 2) v then none
  else some (b "% Invalid value for " ++ label ++ b ": '" ++ v ++ b "'\n")

/-- The common end of the four commands on keys (hlr_vty_subscr.c 541-549, 586-595, 614-622,
668-677, 725-734): `enoent` tells whether -ENOENT counts as success. -/
def setKeys (t : IdType) (id : Bytes) (a : AudStr) (enoent : Bool) (what : Bytes) : DbM Res :=
  withSub t id fun p s => do
    let rc ← updateAud s.id a
    if rc ≠ 0 ∧ ¬ (enoent = true ∧ rc = -ENOENT) then
      pure (warn (p ++ b "% Error: cannot " ++ what ++ b " auth data for IMSI='" ++ s.imsi ++ b "'\n"))
    else pure (success p)

/-- subscriber_no_aud2g (hlr_vty_subscr.c 524-550). -/
def noAud2 (t : IdType) (id : Bytes) : DbM Res := setKeys t id (.gsm .none []) true (b "disable 2G")

/-- subscriber_aud2g (hlr_vty_subscr.c 552-596). -/
def aud2 (t : IdType) (id alg ki : Bytes) : DbM Res :=
  match algoParse alg with
  | none => pure (warn (b "% Unknown auth algorithm: '" ++ alg ++ b "'\n"))
  | some a => match hexkey (b "KI") ki a.minK a.maxK with
    | some e => pure (warn e)
    | none => setKeys t id (.gsm a.algo ki) false (b "set 2G")

/-- subscriber_no_aud3g (hlr_vty_subscr.c 598-624). -/
def noAud3 (t : IdType) (id : Bytes) : DbM Res :=
  setKeys t id (.umts .none [] [] false 0) true (b "disable 3G")

/-- The IND bit length argument (hlr_vty_subscr.c 646, 703): 5 if left out. -/
def bitlen : Option Bytes → Nat
  | none => 5
  | some t => atoiU32 t

/-- subscriber_aud3g (hlr_vty_subscr.c 626-678). -/
def aud3 (t : IdType) (id alg k choice o : Bytes) (bl : Option Bytes) : DbM Res :=
  let isOp := caseEq (b "op") choice
  match algoParse alg with
  | none => pure (warn (b "% Unknown auth algorithm: '" ++ alg ++ b "'\n"))
  | some a => match hexkey (b "K") k a.minK a.maxK with
    | some e => pure (warn e)
    | none => match hexkey (if isOp then b "OP" else b "OPC") o a.minO a.maxO with
      | some e => pure (warn e)
      | none => setKeys t id (.umts a.algo k o isOp (bitlen bl)) false (b "set 3G")

/-- The OPC stored with XOR-3G keys (hlr_vty_subscr.c 709). -/
def zeroOpc : Bytes := List.replicate 32 48

/-- subscriber_aud3g_xor (hlr_vty_subscr.c 680-735). -/
def xor3 (t : IdType) (id k : Bytes) (bl : Option Bytes) : DbM Res :=
  match algoParse (b "xor-3g") with
  | none => pure (warn (b "% Unknown auth algorithm: 'xor-3g'\n"))
  | some a => match hexkey (b "K") k a.minK a.maxK with
    | some e => pure (warn e)
    | none => setKeys t id (.umts a.algo k zeroOpc false (bitlen bl)) false (b "set 3G")

/-- subscriber_imei (hlr_vty_subscr.c 737-785). -/
def imei (t : IdType) (id v : Bytes) : DbM Res :=
  if v = b "none" then put none
  else if imeiChkValid v then put (some (imeiCut v))
  else if imeiValid v then put (some v)
  else pure (warn (b "% IMEI invalid: '" ++ v ++ b "'\n"))
where
  /-- hlr_vty_subscr.c 768-784 -/
  put (i : Option Bytes) : DbM Res := withSub t id fun p s => do
    let rc ← updateImei s.imsi i
    if rc ≠ 0 then
      pure (warn (p ++ b "% Error: cannot update IMEI for subscriber IMSI='" ++ s.imsi ++ b "'\n"))
    else pure (success (p ++ b "% Updated subscriber IMSI='" ++ s.imsi ++ (match i with
      | some i => b "' to IMEI='" ++ i ++ b "'\n"
      | none => b "': removed IMEI\n")))

/-- hlr_subscr_nam (hlr.c 256-286): the messages to send.  The return code is not looked at by
subscriber_nam. -/
def hlrNam (s : HlrSubscr) (val isPs : Bool) : DbM (List Act) :=
  if (if isPs then s.namPs else s.namCs) = val then pure []
  else do
    let rc ← subscrNam s.imsi val isPs
    pure (if rc ≠ 0 ∨ val = true then [] else [.delData s])

/-- libc `strstr(s, p)`, whether found. -/
def contains (p : Bytes) : Bytes → Bool
  | [] => p.isEmpty
  | c :: s => p.isPrefixOf (c :: s) || contains p s

/-- subscriber_nam (hlr_vty_subscr.c 787-811): always CMD_SUCCESS.  That messages go out before
the second database call is not modelled: they are all sent at the end. -/
def nam (t : IdType) (id v : Bytes) : DbM Res :=
  let cs := contains (b "cs") v
  let ps := contains (b "ps") v
  withSub t id fun p s => do
    let a ← (if cs ≠ s.namCs then hlrNam s cs false else pure [])
    let a' ← (if ps ≠ s.namPs then hlrNam s ps true else pure [])
    pure (.done true p (a ++ a'))

/-- A command. -/
inductive Cmd where
  | show_ (t : IdType) (id : Bytes)
  | create (imsi : Bytes)
  | delete (t : IdType) (id : Bytes)
  | msisdn (t : IdType) (id v : Bytes)
  | noAud2 (t : IdType) (id : Bytes)
  | aud2 (t : IdType) (id alg ki : Bytes)
  | noAud3 (t : IdType) (id : Bytes)
  | aud3 (t : IdType) (id alg k choice o : Bytes) (bl : Option Bytes)
  | xor3 (t : IdType) (id k : Bytes) (bl : Option Bytes)
  | imei (t : IdType) (id v : Bytes)
  | nam (t : IdType) (id v : Bytes)
deriving DecidableEq, Repr

/-- One command. -/
def vty (ck : Clock) : Cmd → DbM Res
  | .show_ t id => show_ ck t id
  | .create i => create ck i
  | .delete t id => delete t id
  | .msisdn t id v => msisdn t id v
  | .noAud2 t id => noAud2 t id
  | .aud2 t id alg ki => aud2 t id alg ki
  | .noAud3 t id => noAud3 t id
  | .aud3 t id alg k c o bl => aud3 t id alg k c o bl
  | .xor3 t id k bl => xor3 t id k bl
  | .imei t id v => imei t id v
  | .nam t id v => nam t id v

end Verif.Prov.Vty
