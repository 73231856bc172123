import Verif.Sys.Model
/-! # What the properties of the running HLR say -/
namespace Verif.Sys
open Verif Verif.Db Verif.Gsup Verif.Hlr

/-- Request `nr` is open: it was received, it has not been concluded since, and the
process has not been restarted since.  (Newest log entry first.) -/
def isOpen (nr : Nat) : List Out → Bool
  | [] => false
  | .rx n _ _ :: l => n == nr || isOpen nr l
  | .concl n _ :: l => n != nr && isOpen nr l
  | .restart :: _ => false
  | .tx _ _ _ :: l => isOpen nr l
  | .connected _ :: l => isOpen nr l
  | .closed _ :: l => isOpen nr l
  | .remote _ _ _ :: l => isOpen nr l
  | .remoteRx _ _ :: l => isOpen nr l

/-- The messages that ask the HLR for something and that it knows how to answer. -/
def NeedsAnswer (typ : Nat) : Prop :=
  typ = SEND_AUTH_INFO ∨ typ = UPDATE_LOCATION ∨ typ = PURGE_MS ∨ typ = CHECK_IMEI
    ∨ typ = MO_FORWARD_SM ∨ typ = MT_FORWARD_SM ∨ typ = READY_FOR_SM

/-- A message of a supplementary service session that is handled. -/
def IsSs (typ : Nat) : Prop := typ = PROC_SS ∨ typ = PROC_SS + 2

/-- How a request of type `typ` may end. -/
def HowOk (typ : Nat) : How → Prop
  | .answered => True
  | .forwarded => True
  | .dropped => ¬ NeedsAnswer typ
  | .session => IsSs typ

/-- `m` can be recognised as a response to `m0`. -/
structure Correlated (m m0 : Msg) : Prop where
  imsi : m.imsi = m0.imsi
  cls : m.cls = m0.cls
  sessId : m.sessId = m0.sessId
  smRpMr : m0.smRpMr.isSome → m.smRpMr = m0.smRpMr

/-- A message to the requester that does not yet conclude the request `m0`: the subscriber
data during a location update, and the messages within a USSD session. -/
def Provisional (m0 m : Msg) : Prop :=
  (m0.typ = UPDATE_LOCATION ∧ m.typ = INSERT_DATA) ∨ IsSs m0.typ

/-- What may happen after `past`: only an open request is answered, passed on to a remote
HLR (unchanged but for the name of its source) or concluded, the
response belongs to it, nothing is sent after a response that is not provisional, requests that need an answer are not dropped, and a number is
given to only one request. -/
def Allowed (past : List Out) : Out → Prop
  | .rx nr _ _ => ∀ c m, .rx nr c m ∉ past
  | .tx _ m (some nr) => isOpen nr past = true ∧ ∃ c m0, .rx nr c (some m0) ∈ past ∧ Correlated m m0
      ∧ (∀ c' m', .tx c' m' (some nr) ∈ past → Provisional m0 m')
      ∧ ∀ a' m', .remote a' m' (some nr) ∉ past
  | .tx _ _ none => True
  | .concl nr how => isOpen nr past = true
      ∧ ∃ c mo, .rx nr c mo ∈ past ∧ ∀ m, mo = some m → HowOk m.typ how
  | .connected _ => True
  | .closed _ => True
  | .restart => True
  | .remote _ m (some nr) => isOpen nr past = true ∧ ∃ c m0, .rx nr c (some m0) ∈ past
      ∧ (∃ n, m = { m0 with src := n })
      ∧ (∀ c' m', .tx c' m' (some nr) ∈ past → Provisional m0 m')
      ∧ ∀ a' m', .remote a' m' (some nr) ∉ past
  | .remote _ _ none => True
  | .remoteRx _ _ => True

/-- Every entry of the log was allowed when it was made. -/
def GoodLog : List Out → Prop
  | [] => True
  | o :: past => Allowed past o ∧ GoodLog past

/-- The requests a USSD session keeps. -/
def Sess.reqs (x : Sess) : List Req := x.reqMs.toList ++ x.reqEuse.toList

/-- The requests that wait: for the end of a location update, or of a USSD session, or for
a remote HLR. -/
def waiting (s : Sys) : List Req := s.lus.map (·.req) ++ s.sess.flatMap Sess.reqs ++ s.pending

/-- A start of the process on some database, with nothing connected. -/
def init (d : Db) : Sys := { db := d }

/-- The states reachable from a fresh start on any database by any events, while the configuration
changes in any way. -/
def Reach (s : Sys) : Prop := ∃ d evs, s = run (init d) evs

/-- A history during which the configuration does not change (for examples). -/
def runWith (cfg : Cfg) (s : Sys) (evs : List Ev) : Sys := run s (evs.map fun ev => (cfg, ev))

/-- The key of a USSD session. -/
def Sess.key (x : Sess) : Bytes × Nat := (x.imsi, x.id)

end Verif.Sys
