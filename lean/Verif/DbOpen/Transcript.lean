import Verif.DbOpen.Model
/-! # The upgrade test of the project, replayed on the model

`tests/db_upgrade/hlr_db_v0.sql` as a file of the model, and the tables recorded in
`tests/db_upgrade/db_upgrade_test.ok` before and after the upgrade by osmo-hlr.  These are tests of the
model against the behaviour recorded from the real program: `#guard` evaluates them during the build and
fails it if a result differs. -/
namespace Verif.DbOpen.Transcript
open Verif Verif.Db Verif.DbOpen

/-- The tables of tests/db_upgrade/hlr_db_v0.sql. -/
def v0Tables : T → Option Table
  | .subscriber => some { cols := [⟨.id, true, true⟩, ⟨.imsi, true, true⟩, ⟨.msisdn, true, false⟩, ⟨.imeisv, false, false⟩, ⟨.vlrNumber, false, false⟩, ⟨.hlrNumber, false, false⟩, ⟨.sgsnNumber, false, false⟩, ⟨.sgsnAddress, false, false⟩, ⟨.ggsnNumber, false, false⟩, ⟨.gmlcNumber, false, false⟩, ⟨.smscNumber, false, false⟩, ⟨.periodicLuTmr, false, false⟩, ⟨.periodicRauTauTmr, false, false⟩, ⟨.namCs, false, true⟩, ⟨.namPs, false, true⟩, ⟨.lmsi, false, false⟩, ⟨.msPurgedCs, false, true⟩, ⟨.msPurgedPs, false, true⟩], rows := [[.int 1, .text (b "123456789012345"), .text (b "098765432109876"), .null, .text (b "MSC-1"), .null, .null, .null, .null, .null, .null, .null, .null, .int 1, .int 1, .null, .int 0, .int 0],
          [.int 2, .text (b "111111111"), .null, .null, .null, .null, .null, .null, .null, .null, .null, .null, .null, .int 1, .int 1, .null, .int 1, .int 0],
          [.int 3, .text (b "222222222"), .text (b "22222"), .null, .null, .null, .null, .null, .null, .null, .null, .null, .null, .int 1, .int 1, .null, .int 0, .int 1],
          [.int 4, .text (b "333333"), .text (b "3"), .null, .null, .null, .null, .null, .null, .null, .null, .null, .null, .int 0, .int 1, .null, .int 0, .int 0],
          [.int 5, .text (b "444444444444444"), .text (b "4444"), .null, .null, .null, .null, .null, .null, .null, .null, .null, .null, .int 1, .int 0, .null, .int 0, .int 0],
          [.int 6, .text (b "5555555"), .text (b "55555555555555"), .null, .null, .null, .null, .null, .null, .null, .null, .null, .null, .int 0, .int 0, .null, .int 0, .int 0]] }
  | .subscriberApn => some { cols := [⟨.subscriberId, false, false⟩, ⟨.apn, false, true⟩], rows := [] }
  | .subscriberMultiMsisdn => some { cols := [⟨.subscriberId, false, false⟩, ⟨.msisdn, false, true⟩], rows := [] }
  | .auc2g => some { cols := [⟨.subscriberId, true, true⟩, ⟨.algoId2g, false, true⟩, ⟨.ki, false, true⟩], rows := [[.int 1, .int 1, .text (b "BeefedCafeFaceAcedAddedDecadeFee")],
          [.int 4, .int 2, .text (b "33333333333333333333333333333333")],
          [.int 6, .int 6, .text (b "55555555555555555555555555555555")]] }
  | .auc3g => some { cols := [⟨.subscriberId, true, true⟩, ⟨.algoId3g, false, true⟩, ⟨.k, false, true⟩, ⟨.op, false, false⟩, ⟨.opc, false, false⟩, ⟨.sqn, false, true⟩, ⟨.indBitlen, false, true⟩], rows := [[.int 1, .int 5, .text (b "C01ffedC1cadaeAc1d1f1edAcac1aB0a"), .null, .text (b "CededEffacedAceFacedBadFadedBeef"), .int 0, .int 5],
          [.int 5, .int 5, .text (b "44444444444444444444444444444444"), .text (b "44444444444444444444444444444444"), .null, .int 0, .int 5],
          [.int 6, .int 5, .text (b "55555555555555555555555555555555"), .null, .text (b "55555555555555555555555555555555"), .int 0, .int 5]] }
  | _ => none

/-- tests/db_upgrade/hlr_db_v0.sql -/
def v0 : File := { version := 0, idx := true, tables := v0Tables }

/-- A table as the test prints it: name, columns by name (with NOT NULL or PRIMARY KEY), rows. -/
abbrev Dump := List (T × List (Cn × Bool) × List (List Val))

/-- db_upgrade_test.ok 3-75 -/
def before : Dump := [
  (.auc2g, [(.algoId2g, true), (.ki, true), (.subscriberId, true)],
   [[.int 1, .text (b "BeefedCafeFaceAcedAddedDecadeFee"), .int 1],
    [.int 2, .text (b "33333333333333333333333333333333"), .int 4],
    [.int 6, .text (b "55555555555555555555555555555555"), .int 6]]),
  (.auc3g, [(.algoId3g, true), (.indBitlen, true), (.k, true), (.op, false), (.opc, false), (.sqn, true), (.subscriberId, true)],
   [[.int 5, .int 5, .text (b "C01ffedC1cadaeAc1d1f1edAcac1aB0a"), .null, .text (b "CededEffacedAceFacedBadFadedBeef"), .int 0, .int 1],
    [.int 5, .int 5, .text (b "44444444444444444444444444444444"), .text (b "44444444444444444444444444444444"), .null, .int 0, .int 5],
    [.int 5, .int 5, .text (b "55555555555555555555555555555555"), .null, .text (b "55555555555555555555555555555555"), .int 0, .int 6]]),
  (.subscriber, [(.ggsnNumber, false), (.gmlcNumber, false), (.hlrNumber, false), (.id, true), (.imeisv, false), (.imsi, true), (.lmsi, false), (.msPurgedCs, true), (.msPurgedPs, true), (.msisdn, false), (.namCs, true), (.namPs, true), (.periodicLuTmr, false), (.periodicRauTauTmr, false), (.sgsnAddress, false), (.sgsnNumber, false), (.smscNumber, false), (.vlrNumber, false)],
   [[.null, .null, .null, .int 1, .null, .text (b "123456789012345"), .null, .int 0, .int 0, .text (b "098765432109876"), .int 1, .int 1, .null, .null, .null, .null, .null, .text (b "MSC-1")],
    [.null, .null, .null, .int 2, .null, .text (b "111111111"), .null, .int 1, .int 0, .null, .int 1, .int 1, .null, .null, .null, .null, .null, .null],
    [.null, .null, .null, .int 3, .null, .text (b "222222222"), .null, .int 0, .int 1, .text (b "22222"), .int 1, .int 1, .null, .null, .null, .null, .null, .null],
    [.null, .null, .null, .int 4, .null, .text (b "333333"), .null, .int 0, .int 0, .text (b "3"), .int 0, .int 1, .null, .null, .null, .null, .null, .null],
    [.null, .null, .null, .int 5, .null, .text (b "444444444444444"), .null, .int 0, .int 0, .text (b "4444"), .int 1, .int 0, .null, .null, .null, .null, .null, .null],
    [.null, .null, .null, .int 6, .null, .text (b "5555555"), .null, .int 0, .int 0, .text (b "55555555555555"), .int 0, .int 0, .null, .null, .null, .null, .null, .null]]),
  (.subscriberApn, [(.apn, true), (.subscriberId, false)],
   []),
  (.subscriberMultiMsisdn, [(.msisdn, true), (.subscriberId, false)],
   [])]

/-- db_upgrade_test.ok 92-176 -/
def after : Dump := [
  (.auc2g, [(.algoId2g, true), (.ki, true), (.subscriberId, true)],
   [[.int 1, .text (b "BeefedCafeFaceAcedAddedDecadeFee"), .int 1],
    [.int 2, .text (b "33333333333333333333333333333333"), .int 4],
    [.int 6, .text (b "55555555555555555555555555555555"), .int 6]]),
  (.auc3g, [(.algoId3g, true), (.indBitlen, true), (.k, true), (.op, false), (.opc, false), (.sqn, true), (.subscriberId, true)],
   [[.int 5, .int 5, .text (b "C01ffedC1cadaeAc1d1f1edAcac1aB0a"), .null, .text (b "CededEffacedAceFacedBadFadedBeef"), .int 0, .int 1],
    [.int 5, .int 5, .text (b "44444444444444444444444444444444"), .text (b "44444444444444444444444444444444"), .null, .int 0, .int 5],
    [.int 5, .int 5, .text (b "55555555555555555555555555555555"), .null, .text (b "55555555555555555555555555555555"), .int 0, .int 6]]),
  (.ind, [(.ind, true), (.vlr, true)],
   []),
  (.subscriber, [(.ggsnNumber, false), (.gmlcNumber, false), (.id, true), (.imei, false), (.imeisv, false), (.imsi, true), (.lastLuSeen, false), (.lastLuSeenPs, false), (.lmsi, false), (.msPurgedCs, true), (.msPurgedPs, true), (.mscNumber, false), (.msisdn, false), (.namCs, true), (.namPs, true), (.periodicLuTmr, false), (.periodicRauTauTmr, false), (.sgsnAddress, false), (.sgsnNumber, false), (.sgsnViaProxy, false), (.smscNumber, false), (.vlrNumber, false), (.vlrViaProxy, false)],
   [[.null, .null, .int 1, .null, .null, .text (b "123456789012345"), .null, .null, .null, .int 0, .int 0, .null, .text (b "098765432109876"), .int 1, .int 1, .null, .null, .null, .null, .null, .null, .text (b "MSC-1"), .null],
    [.null, .null, .int 2, .null, .null, .text (b "111111111"), .null, .null, .null, .int 1, .int 0, .null, .null, .int 1, .int 1, .null, .null, .null, .null, .null, .null, .null, .null],
    [.null, .null, .int 3, .null, .null, .text (b "222222222"), .null, .null, .null, .int 0, .int 1, .null, .text (b "22222"), .int 1, .int 1, .null, .null, .null, .null, .null, .null, .null, .null],
    [.null, .null, .int 4, .null, .null, .text (b "333333"), .null, .null, .null, .int 0, .int 0, .null, .text (b "3"), .int 0, .int 1, .null, .null, .null, .null, .null, .null, .null, .null],
    [.null, .null, .int 5, .null, .null, .text (b "444444444444444"), .null, .null, .null, .int 0, .int 0, .null, .text (b "4444"), .int 1, .int 0, .null, .null, .null, .null, .null, .null, .null, .null],
    [.null, .null, .int 6, .null, .null, .text (b "5555555"), .null, .null, .null, .int 0, .int 0, .null, .text (b "55555555555555"), .int 0, .int 0, .null, .null, .null, .null, .null, .null, .null, .null]]),
  (.subscriberApn, [(.apn, true), (.subscriberId, false)],
   []),
  (.subscriberMultiMsisdn, [(.msisdn, true), (.subscriberId, false)],
   [])]

/-- The same of a file of the model, in the order of the recorded tables and columns (which are
sorted by name). -/
def dump (like : Dump) (f : File) : Dump :=
  like.filterMap fun (t, cols, _) => (f.tables t).map fun tab =>
    (t, cols.filterMap (fun c => (tab.cols.find? (·.name == c.1)).map (fun k => (k.name, k.notNull))),
      tab.rows.map (fun r => cols.map (fun c => valAt tab.cols r c.1)))

/-- The file has these tables with these columns and no others. -/
def sameShape (like : Dump) (f : File) : Bool :=
  [T.subscriber, .subscriberBackup, .subscriberApn, .subscriberMultiMsisdn, .auc2g, .auc3g, .oldAuc3g, .ind].all fun t =>
    (like.find? (·.1 == t)).map (fun x => x.2.1.length) == (f.tables t).map (fun x => x.cols.length)

#guard dump before v0 = before && sameShape before v0
#guard (dbOpen true v0 []).1 = .opened
#guard dump after (dbOpen true v0 []).2 = after && sameShape after (dbOpen true v0 []).2
-- "Verify that osmo-hlr can open it", without --db-upgrade
#guard (dbOpen true v0 []).2.version = 7 && (dbOpen false (dbOpen true v0 []).2 []).1 = .opened

end Verif.DbOpen.Transcript
