import Verif.Prov.Text
/-! # The CTRL interface: `src/ctrl.c`

A command is a GET or SET of a variable below `subscriber.by-…`, or a SET of
`subscriber.create` or `subscriber.delete`.  The transport and the parsing of the request line
are libosmoctrl's and not modelled; the value of a SET is a C string. -/
namespace Verif.Prov
open Verif Verif.Db Verif.Auc Verif.Mslookup Verif.Mslookup.Mdns

/-- The reply to a command: CTRL_CMD_REPLY with its text, or CTRL_CMD_ERROR with its text,
`none` where the code leaves `cmd->reply` NULL. -/
inductive Reply where
  | reply (t : Bytes)
  | error (t : Option Bytes)
deriving DecidableEq, Repr

/-- An error with a text. -/
def err (s : String) : Reply := .error (some (b s))

/-- The success of a SET (`cmd->reply = "OK"`). -/
def okReply : Reply := .reply (b "OK")

/-- SEL_BY_IMSI, SEL_BY_MSISDN, SEL_BY_ID (ctrl.c 35-38). -/
def byImsi : Bytes := b "by-imsi-"
def byMsisdn : Bytes := b "by-msisdn-"
def byId : Bytes := b "by-id-"

/-- startswith (ctrl.c 46-49). -/
def startswith (s p : Bytes) : Bool := p.isPrefixOf s

/-- _get_subscriber (ctrl.c 51-81). -/
def selectSub (sel : Bytes) : DbM (Int × Option SubRow) :=
  if startswith sel byImsi then
    let v := sel.drop byImsi.length
    if !imsiValid v then pure (-EINVAL, none) else getByImsi v
  else if startswith sel byMsisdn then
    let v := sel.drop byMsisdn.length
    if !msisdnValid v then pure (-EINVAL, none) else getByMsisdn v
  else if startswith sel byId then
    let v := sel.drop byId.length
    if v.head? == some 43 then pure (-EINVAL, none)
    else match strtoll v with
      | none => pure (-EINVAL, none)
      | some id => getById id
  else pure (-ENOTSUP, none)

/-- The error texts of get_subscriber (ctrl.c 88-104). -/
def selectError (rc : Int) : Reply :=
  if rc = -ENOTSUP then err "Not a known subscriber 'by-xxx-' selector."
  else if rc = -EINVAL then err "Invalid value part of 'by-xxx-value' selector."
  else if rc = -ENOENT then err "No such subscriber."
  else err "An unknown error has occurred during get_subscriber()."

/-- get_subscriber (ctrl.c 83-105) followed by `k`. -/
def withSub (sel : Bytes) (k : HlrSubscr → DbM Reply) : DbM Reply := do
  match ← selectSub sel with
  | (rc, none) => pure (selectError rc)
  | (_, some row) => k (HlrSubscr.ofRow row)

/-- get_subscriber_imsi (ctrl.c 109-120) followed by `k`: an IMSI is taken as it is. -/
def withImsi (sel : Bytes) (k : Bytes → DbM Reply) : DbM Reply :=
  if startswith sel byImsi then k (sel.drop byImsi.length)
  else withSub sel fun s => k s.imsi

/-! ## Reading -/

/-- FMT_S/ARG_S (ctrl.c 122-128). -/
def lineS (name val : Bytes) : Bytes := if val.isEmpty then [] else 10 :: name ++ 9 :: val

/-- FMT_BOOL/ARG_BOOL (ctrl.c 130-133). -/
def lineB (name : Bytes) (v : Bool) : Bytes := 10 :: name ++ [9, if v then 49 else 48]

/-- print_subscr_info (ctrl.c 135-168).  The columns `sgsn_address`, `periodic_lu_timer`,
`periodic_rau_tau_timer` and `lmsi` are never written by the code: NULL, printed as nothing
and 0. -/
def printInfo (s : HlrSubscr) : Bytes :=
  b "\nid\t" ++ u64 s.id ++ lineS (b "imsi") s.imsi ++ lineS (b "msisdn") s.msisdn
    ++ lineB (b "nam_cs") s.namCs ++ lineB (b "nam_ps") s.namPs
    ++ lineS (b "vlr_number") s.vlrNumber ++ lineS (b "sgsn_number") s.sgsnNumber
    ++ lineB (b "ms_purged_cs") s.purgedCs ++ lineB (b "ms_purged_ps") s.purgedPs
    ++ b "\nperiodic_lu_timer\t0\nperiodic_rau_tau_timer\t0\nlmsi\t00000000"

/-- print_subscr_info_aud2g (ctrl.c 170-180); `none` is OSMO_AUTH_ALG_NONE. -/
def printAud2 : Option Aud2 → Bytes
  | none => []
  | some a => b "\naud2g.algo\t" ++ algoName a.algo ++ b "\naud2g.ki\t" ++ hexdump a.ki

/-- print_subscr_info_aud3g (ctrl.c 182-203). -/
def printAud3 : Option Aud3 → Bytes
  | none => []
  | some a => b "\naud3g.algo\t" ++ algoName a.algo ++ b "\naud3g.k\t" ++ hexdump a.k
    ++ b "\naud3g." ++ (if a.isOp then b "op" else b "opc") ++ 9 :: hexdump a.opc
    ++ b "\naud3g.ind_bitlen\t" ++ dec a.bl ++ b "\naud3g.sqn\t" ++ decGo 20 a.sqn

/-- The calls of db_get_auth_data (ctrl.c 295-310, 332-347, 511-522, 612-623): missing keys
are no error.  `k` gets the two records, `none` for OSMO_AUTH_ALG_NONE (which no stored record
has, see C07). -/
def withKeys (imsi : Bytes) (e : Reply) (k : Option Aud2 → Option Aud3 → Reply) : DbM Reply := do
  match ← getAuthData imsi with
  | .keys _ g u => pure (k g u)
  | .err rc => if rc = -ENOENT ∨ rc = -ENOKEY then pure (k none none) else pure e

/-- The reply to GET aud2g (ctrl.c 524-531). -/
def aud2Text : Option Aud2 → Bytes
  | none => b "none"
  | some a => algoName a.algo ++ 44 :: hexdump a.ki

/-- The reply to GET aud3g (ctrl.c 625-635). -/
def aud3Text : Option Aud3 → Bytes
  | none => b "none"
  | some a => algoName a.algo ++ 44 :: hexdump a.k ++ 44 :: (if a.isOp then b "OP" else b "OPC")
    ++ 44 :: hexdump a.opc ++ 44 :: dec a.bl

/-- The variables below `subscriber.by-…` (ctrl.c 773-781). -/
inductive Var where
  | imsi | msisdn | cs | ps | aud2g | aud3g | info | infoAud | infoAll
deriving DecidableEq, Repr

/-- The text for a flag (ctrl.c 381-382). -/
def flagText (v : Bool) : Bytes := if v then b "1" else b "0"

/-- The GET functions (ctrl.c 275-360, 370-384, 428-441, 456-469, 504-532, 604-636). -/
def get (sel : Bytes) : Var → DbM Reply
  | .imsi => withSub sel fun s => pure (.reply s.imsi)
  | .msisdn => withSub sel fun s => pure (.reply (if s.msisdn.isEmpty then b "none" else s.msisdn))
  | .cs => withSub sel fun s => pure (.reply (flagText s.namCs))
  | .ps => withSub sel fun s => pure (.reply (flagText s.namPs))
  | .aud2g => withSub sel fun s =>
    withKeys s.imsi (err "Error retrieving data from database.") fun g _ => .reply (aud2Text g)
  | .aud3g => withSub sel fun s =>
    withKeys s.imsi (err "Error retrieving data from database.") fun _ u => .reply (aud3Text u)
  | .info => withSub sel fun s => pure (.reply (printInfo s))
  | .infoAud => withImsi sel fun i =>
    withKeys i (err "Error retrieving authentication data.") fun g u => .reply (printAud2 g ++ printAud3 u)
  | .infoAll => withSub sel fun s =>
    withKeys s.imsi (err "Error retrieving authentication data.")
      fun g u => .reply (printInfo s ++ printAud2 g ++ printAud3 u)

/-! ## Writing -/

/-- The value of SET aud2g (ctrl.c 549-580): the error text or the key record. -/
def parseAud2 (v : Bytes) : Except Reply AudStr :=
  match tokComma v with
  | none => .error (err "Invalid format")
  | some (tok, rest) =>
    if tok = b "none" then .ok (.gsm .none [])
    else match algoParse tok with
      | none => .error (err "Unknown auth algorithm.")
      | some a =>
        if a.algo = .none then .ok (.gsm .none [])
        else match tokRest rest with
          | none => .error (err "Invalid format.")
          | some ki =>
            if isHexStr (a.minK * 2) (a.maxK * 2) ki then .ok (.gsm a.algo ki)
            else .error (err "Invalid KI.")

/-- The OP/OPC choice (ctrl.c 694-701). -/
def parseChoice (t : Bytes) : Option Bool :=
  if caseEq t (b "op") then some true else if caseEq t (b "opc") then some false else none

/-- The OP/OPC value and the IND length (ctrl.c 704-727): the default length is 5. -/
def parseOpc (a : AlgoInfo) (s : Bytes) : Except Reply (Bytes × Nat) :=
  let present := s.contains 44
  match (if present then tokComma s else (tokRest s).map (fun t => (t, []))) with
  | none => .error (err "Invalid format.")
  | some (opc, rest) =>
    if !isHexStr (a.minO * 2) (a.maxO * 2) opc then .error (err "Invalid OP/OPC.")
    else if present then
      match tokRest rest with
      | none => .error (err "Invalid format.")
      | some t => .ok (opc, atoiU32 t)
    else .ok (opc, 5)

/-- The value of SET aud3g (ctrl.c 660-728). -/
def parseAud3 (v : Bytes) : Except Reply AudStr :=
  match tokComma v with
  | none => .error (err "Invalid format.")
  | some (tok, rest) =>
    if tok = b "none" then .ok (.umts .none [] [] false 5)
    else match algoParse tok with
      | none => .error (err "Unknown auth algorithm.")
      | some a =>
        if a.algo = .none then .ok (.umts .none [] [] false 5)
        else match tokComma rest with
          | none => .error (err "Invalid format.")
          | some (k, rest) =>
            if !isHexStr (a.minK * 2) (a.maxK * 2) k then .error (err "Invalid KI.")
            else match tokComma rest with
              | none => .error (err "Invalid format.")
              | some (c, rest) => match parseChoice c with
                | none => .error (err "Invalid format.")
                | some isOp => match parseOpc a rest with
                  | .error e => .error e
                  | .ok (opc, bl) => .ok (.umts a.algo k opc isOp bl)

/-- The verify functions (ctrl.c 362-368, 445-455, 496-503, 596-603): whether the value may be
passed to the SET function; libosmoctrl answers "Value failed verification." otherwise. -/
def verify (v : Bytes) : Var → Bool
  | .cs | .ps => v == b "0" || v == b "1"
  | .msisdn => v.length ≤ 15 && (v == b "none" || msisdnValid v)
  | .aud2g | .aud3g => caseEq v (b "none") || v.contains 44
  | _ => false

/-- A SET's answer from the return code of the database function. -/
def answer (e : Reply) (rc : Int) : Reply := if rc ≠ 0 then e else okReply

/-- The SET functions after verification (ctrl.c 386-399, 470-493, 533-593, 637-739). -/
def setVar (sel v : Bytes) : Var → DbM Reply
  | .cs => withImsi sel fun i => do pure (answer (.error none) (← subscrNam i (v == b "1") false))
  | .ps => withImsi sel fun i => do pure (answer (.error none) (← subscrNam i (v == b "1") true))
  | .msisdn => withSub sel fun s => do
    pure (answer (err "Update MSISDN failed") (← updateMsisdn s.imsi (if v = b "none" then none else some v)))
  | .aud2g => withSub sel fun s => match parseAud2 v with
    | .error e => pure e
    | .ok a => do pure (answer (err "Update aud2g failed.") (← updateAud s.id a))
  | .aud3g => withSub sel fun s => match parseAud3 v with
    | .error e => pure e
    | .ok a => do pure (answer (err "Update aud3g failed.") (← updateAud s.id a))
  | _ => pure (err "Read Only attribute")

/-- SET of a variable (libosmoctrl: read-only variables are refused, values are verified). -/
def set (sel : Bytes) (x : Var) (v : Bytes) : DbM Reply :=
  match x with
  | .imsi | .info | .infoAud | .infoAll => pure (err "Read Only attribute")
  | _ => if verify v x then setVar sel v x else pure (err "Value failed verification.")

/-- set_subscr_create (ctrl.c 206-239). -/
def create (imsi : Bytes) : DbM Reply :=
  if !imsiValid imsi then pure (err "Invalid IMSI value.")
  else do
    let rc ← subscrCreate imsi true true
    if rc ≠ 0 then
      pure (if rc = -EEXIST then err "Subscriber already exists." else err "Cannot create subscriber.")
    else match ← getByImsi imsi with
      | (_, none) => pure (err "Failed retrieving ID of newly created subscriber.")
      | (_, some r) => pure (.reply (u64 r.id))

/-- set_subscr_delete (ctrl.c 242-273). -/
def delete (imsi : Bytes) : DbM Reply :=
  if !imsiValid imsi then pure (err "Invalid IMSI value.")
  else do
    match ← getByImsi imsi with
    | (_, none) => pure (err "Subscriber doesn't exist.")
    | (_, some r) =>
      let rc ← subscrDelete r.id
      pure (if rc ≠ 0 then err "Cannot delete subscriber." else .reply (u64 r.id))

/-- A command. -/
inductive Cmd where
  | create (imsi : Bytes)
  | delete (imsi : Bytes)
  | get (sel : Bytes) (x : Var)
  | set (sel : Bytes) (x : Var) (v : Bytes)
deriving DecidableEq, Repr

/-- One command. -/
def ctrl : Cmd → DbM Reply
  | .create i => create i
  | .delete i => delete i
  | .get sel x => get sel x
  | .set sel x v => set sel x v

end Verif.Prov
