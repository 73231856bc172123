import Verif.Prov.Ctrl
/-! # The CTRL transcripts of the project's own tests, replayed on the model

Generated from `tests/test_subscriber.ctrl` and `tests/test_subscriber_errors.ctrl` (commands
answered by libosmoctrl's own parser left out), on the database of `tests/test_subscriber.sql`.
These are tests of the model against the behaviour recorded from the real program: `#guard` evaluates them during the
build and fails it if an answer differs. -/
namespace Verif.Prov.Transcript
open Verif Verif.Db Verif.Prov

/-- `tests/test_subscriber.sql`. -/
def db0 : Db :=
  { subs := [{ id := 1, imsi := b "901990000000001", msisdn := some (b "1") },
             { id := 2, imsi := b "901990000000002" },
             { id := 3, imsi := b "901990000000003", msisdn := some (b "103") },
             { id := 123, imsi := b "123123", msisdn := some (b "123") }]
    auc2 := [{ id := 1, algo := .comp128v1, ki := b "000102030405060708090a0b0c0d0e0f" },
             { id := 3, algo := .comp128v1, ki := b "000102030405060708090a0b0c0d0e0f" },
             { id := 123, algo := .comp128v3, ki := b "BeefedCafeFaceAcedAddedDecadeFee" }]
    auc3 := [{ id := 2, algo := .milenage, k := b "000102030405060708090a0b0c0d0e0f", op := none
               opc := some (b "101112131415161718191a1b1c1d1e1f"), sqn := 4223 },
             { id := 3, algo := .milenage, k := b "000102030405060708090a0b0c0d0e0f", op := none
               opc := some (b "101112131415161718191a1b1c1d1e1f"), sqn := 2342 }] }

/-- Whether the commands get these answers, one after the other. -/
def replay : Db → List (Cmd × Reply) → Bool
  | _, [] => true
  | d, (c, r) :: l => decide ((exec (ctrl c) d []).1 = some r) && replay (exec (ctrl c) d []).2 l

/-- `tests/test_subscriber.ctrl`. -/
def subscriber : List (Cmd × Reply) :=
  [(.get (b "by-imsi-901990000000001") .info, .reply (b "\nid\t1\nimsi\t901990000000001\nmsisdn\t1\nnam_cs\t1\nnam_ps\t1\nms_purged_cs\t0\nms_purged_ps\t0\nperiodic_lu_timer\t0\nperiodic_rau_tau_timer\t0\nlmsi\t00000000")),
   (.get (b "by-imsi-901990000000001") .infoAud, .reply (b "\naud2g.algo\tCOMP128v1\naud2g.ki\t000102030405060708090a0b0c0d0e0f")),
   (.get (b "by-imsi-901990000000001") .infoAll, .reply (b "\nid\t1\nimsi\t901990000000001\nmsisdn\t1\nnam_cs\t1\nnam_ps\t1\nms_purged_cs\t0\nms_purged_ps\t0\nperiodic_lu_timer\t0\nperiodic_rau_tau_timer\t0\nlmsi\t00000000\naud2g.algo\tCOMP128v1\naud2g.ki\t000102030405060708090a0b0c0d0e0f")),
   (.get (b "by-imsi-901990000000002") .info, .reply (b "\nid\t2\nimsi\t901990000000002\nnam_cs\t1\nnam_ps\t1\nms_purged_cs\t0\nms_purged_ps\t0\nperiodic_lu_timer\t0\nperiodic_rau_tau_timer\t0\nlmsi\t00000000")),
   (.get (b "by-imsi-901990000000002") .infoAud, .reply (b "\naud3g.algo\tMILENAGE\naud3g.k\t000102030405060708090a0b0c0d0e0f\naud3g.opc\t101112131415161718191a1b1c1d1e1f\naud3g.ind_bitlen\t5\naud3g.sqn\t4223")),
   (.get (b "by-imsi-901990000000002") .infoAll, .reply (b "\nid\t2\nimsi\t901990000000002\nnam_cs\t1\nnam_ps\t1\nms_purged_cs\t0\nms_purged_ps\t0\nperiodic_lu_timer\t0\nperiodic_rau_tau_timer\t0\nlmsi\t00000000\naud3g.algo\tMILENAGE\naud3g.k\t000102030405060708090a0b0c0d0e0f\naud3g.opc\t101112131415161718191a1b1c1d1e1f\naud3g.ind_bitlen\t5\naud3g.sqn\t4223")),
   (.get (b "by-imsi-901990000000003") .info, .reply (b "\nid\t3\nimsi\t901990000000003\nmsisdn\t103\nnam_cs\t1\nnam_ps\t1\nms_purged_cs\t0\nms_purged_ps\t0\nperiodic_lu_timer\t0\nperiodic_rau_tau_timer\t0\nlmsi\t00000000")),
   (.get (b "by-imsi-901990000000003") .infoAud, .reply (b "\naud2g.algo\tCOMP128v1\naud2g.ki\t000102030405060708090a0b0c0d0e0f\naud3g.algo\tMILENAGE\naud3g.k\t000102030405060708090a0b0c0d0e0f\naud3g.opc\t101112131415161718191a1b1c1d1e1f\naud3g.ind_bitlen\t5\naud3g.sqn\t2342")),
   (.get (b "by-imsi-901990000000003") .infoAll, .reply (b "\nid\t3\nimsi\t901990000000003\nmsisdn\t103\nnam_cs\t1\nnam_ps\t1\nms_purged_cs\t0\nms_purged_ps\t0\nperiodic_lu_timer\t0\nperiodic_rau_tau_timer\t0\nlmsi\t00000000\naud2g.algo\tCOMP128v1\naud2g.ki\t000102030405060708090a0b0c0d0e0f\naud3g.algo\tMILENAGE\naud3g.k\t000102030405060708090a0b0c0d0e0f\naud3g.opc\t101112131415161718191a1b1c1d1e1f\naud3g.ind_bitlen\t5\naud3g.sqn\t2342")),
   (.get (b "by-imsi-901990000000003") .ps, .reply (b "1")),
   (.set (b "by-imsi-901990000000003") .ps (b "0"), .reply (b "OK")),
   (.get (b "by-imsi-901990000000003") .ps, .reply (b "0")),
   (.get (b "by-imsi-901990000000003") .info, .reply (b "\nid\t3\nimsi\t901990000000003\nmsisdn\t103\nnam_cs\t1\nnam_ps\t0\nms_purged_cs\t0\nms_purged_ps\t0\nperiodic_lu_timer\t0\nperiodic_rau_tau_timer\t0\nlmsi\t00000000")),
   (.set (b "by-imsi-901990000000003") .ps (b "0"), .reply (b "OK")),
   (.get (b "by-imsi-901990000000003") .ps, .reply (b "0")),
   (.set (b "by-imsi-901990000000003") .ps (b "1"), .reply (b "OK")),
   (.get (b "by-imsi-901990000000003") .ps, .reply (b "1")),
   (.get (b "by-imsi-901990000000003") .info, .reply (b "\nid\t3\nimsi\t901990000000003\nmsisdn\t103\nnam_cs\t1\nnam_ps\t1\nms_purged_cs\t0\nms_purged_ps\t0\nperiodic_lu_timer\t0\nperiodic_rau_tau_timer\t0\nlmsi\t00000000")),
   (.set (b "by-imsi-901990000000003") .ps (b "1"), .reply (b "OK")),
   (.get (b "by-imsi-901990000000003") .ps, .reply (b "1")),
   (.get (b "by-imsi-901990000000003") .cs, .reply (b "1")),
   (.set (b "by-imsi-901990000000003") .cs (b "0"), .reply (b "OK")),
   (.get (b "by-imsi-901990000000003") .cs, .reply (b "0")),
   (.get (b "by-imsi-901990000000003") .info, .reply (b "\nid\t3\nimsi\t901990000000003\nmsisdn\t103\nnam_cs\t0\nnam_ps\t1\nms_purged_cs\t0\nms_purged_ps\t0\nperiodic_lu_timer\t0\nperiodic_rau_tau_timer\t0\nlmsi\t00000000")),
   (.set (b "by-imsi-901990000000003") .cs (b "0"), .reply (b "OK")),
   (.get (b "by-imsi-901990000000003") .cs, .reply (b "0")),
   (.set (b "by-imsi-901990000000003") .cs (b "1"), .reply (b "OK")),
   (.get (b "by-imsi-901990000000003") .cs, .reply (b "1")),
   (.get (b "by-imsi-901990000000003") .info, .reply (b "\nid\t3\nimsi\t901990000000003\nmsisdn\t103\nnam_cs\t1\nnam_ps\t1\nms_purged_cs\t0\nms_purged_ps\t0\nperiodic_lu_timer\t0\nperiodic_rau_tau_timer\t0\nlmsi\t00000000")),
   (.set (b "by-imsi-901990000000003") .cs (b "1"), .reply (b "OK")),
   (.get (b "by-imsi-901990000000003") .cs, .reply (b "1")),
   (.set (b "by-imsi-901990000000003") .ps (b "0"), .reply (b "OK")),
   (.set (b "by-imsi-901990000000003") .cs (b "0"), .reply (b "OK")),
   (.get (b "by-imsi-901990000000003") .info, .reply (b "\nid\t3\nimsi\t901990000000003\nmsisdn\t103\nnam_cs\t0\nnam_ps\t0\nms_purged_cs\t0\nms_purged_ps\t0\nperiodic_lu_timer\t0\nperiodic_rau_tau_timer\t0\nlmsi\t00000000")),
   (.set (b "by-imsi-901990000000003") .ps (b "1"), .reply (b "OK")),
   (.set (b "by-imsi-901990000000003") .cs (b "1"), .reply (b "OK")),
   (.get (b "by-imsi-901990000000003") .info, .reply (b "\nid\t3\nimsi\t901990000000003\nmsisdn\t103\nnam_cs\t1\nnam_ps\t1\nms_purged_cs\t0\nms_purged_ps\t0\nperiodic_lu_timer\t0\nperiodic_rau_tau_timer\t0\nlmsi\t00000000")),
   (.get (b "by-msisdn-103") .info, .reply (b "\nid\t3\nimsi\t901990000000003\nmsisdn\t103\nnam_cs\t1\nnam_ps\t1\nms_purged_cs\t0\nms_purged_ps\t0\nperiodic_lu_timer\t0\nperiodic_rau_tau_timer\t0\nlmsi\t00000000")),
   (.get (b "by-msisdn-103") .infoAud, .reply (b "\naud2g.algo\tCOMP128v1\naud2g.ki\t000102030405060708090a0b0c0d0e0f\naud3g.algo\tMILENAGE\naud3g.k\t000102030405060708090a0b0c0d0e0f\naud3g.opc\t101112131415161718191a1b1c1d1e1f\naud3g.ind_bitlen\t5\naud3g.sqn\t2342")),
   (.get (b "by-msisdn-103") .infoAll, .reply (b "\nid\t3\nimsi\t901990000000003\nmsisdn\t103\nnam_cs\t1\nnam_ps\t1\nms_purged_cs\t0\nms_purged_ps\t0\nperiodic_lu_timer\t0\nperiodic_rau_tau_timer\t0\nlmsi\t00000000\naud2g.algo\tCOMP128v1\naud2g.ki\t000102030405060708090a0b0c0d0e0f\naud3g.algo\tMILENAGE\naud3g.k\t000102030405060708090a0b0c0d0e0f\naud3g.opc\t101112131415161718191a1b1c1d1e1f\naud3g.ind_bitlen\t5\naud3g.sqn\t2342")),
   (.get (b "by-msisdn-103") .ps, .reply (b "1")),
   (.set (b "by-msisdn-103") .ps (b "0"), .reply (b "OK")),
   (.get (b "by-msisdn-103") .ps, .reply (b "0")),
   (.get (b "by-msisdn-103") .info, .reply (b "\nid\t3\nimsi\t901990000000003\nmsisdn\t103\nnam_cs\t1\nnam_ps\t0\nms_purged_cs\t0\nms_purged_ps\t0\nperiodic_lu_timer\t0\nperiodic_rau_tau_timer\t0\nlmsi\t00000000")),
   (.set (b "by-msisdn-103") .ps (b "0"), .reply (b "OK")),
   (.get (b "by-msisdn-103") .ps, .reply (b "0")),
   (.set (b "by-msisdn-103") .ps (b "1"), .reply (b "OK")),
   (.get (b "by-msisdn-103") .ps, .reply (b "1")),
   (.get (b "by-msisdn-103") .info, .reply (b "\nid\t3\nimsi\t901990000000003\nmsisdn\t103\nnam_cs\t1\nnam_ps\t1\nms_purged_cs\t0\nms_purged_ps\t0\nperiodic_lu_timer\t0\nperiodic_rau_tau_timer\t0\nlmsi\t00000000")),
   (.set (b "by-msisdn-103") .ps (b "1"), .reply (b "OK")),
   (.get (b "by-msisdn-103") .ps, .reply (b "1")),
   (.get (b "by-msisdn-103") .cs, .reply (b "1")),
   (.set (b "by-msisdn-103") .cs (b "0"), .reply (b "OK")),
   (.get (b "by-msisdn-103") .cs, .reply (b "0")),
   (.get (b "by-msisdn-103") .info, .reply (b "\nid\t3\nimsi\t901990000000003\nmsisdn\t103\nnam_cs\t0\nnam_ps\t1\nms_purged_cs\t0\nms_purged_ps\t0\nperiodic_lu_timer\t0\nperiodic_rau_tau_timer\t0\nlmsi\t00000000")),
   (.set (b "by-msisdn-103") .cs (b "0"), .reply (b "OK")),
   (.get (b "by-msisdn-103") .cs, .reply (b "0")),
   (.set (b "by-msisdn-103") .cs (b "1"), .reply (b "OK")),
   (.get (b "by-msisdn-103") .cs, .reply (b "1")),
   (.get (b "by-msisdn-103") .info, .reply (b "\nid\t3\nimsi\t901990000000003\nmsisdn\t103\nnam_cs\t1\nnam_ps\t1\nms_purged_cs\t0\nms_purged_ps\t0\nperiodic_lu_timer\t0\nperiodic_rau_tau_timer\t0\nlmsi\t00000000")),
   (.set (b "by-msisdn-103") .cs (b "1"), .reply (b "OK")),
   (.get (b "by-msisdn-103") .cs, .reply (b "1")),
   (.set (b "by-msisdn-103") .ps (b "0"), .reply (b "OK")),
   (.set (b "by-msisdn-103") .cs (b "0"), .reply (b "OK")),
   (.get (b "by-msisdn-103") .info, .reply (b "\nid\t3\nimsi\t901990000000003\nmsisdn\t103\nnam_cs\t0\nnam_ps\t0\nms_purged_cs\t0\nms_purged_ps\t0\nperiodic_lu_timer\t0\nperiodic_rau_tau_timer\t0\nlmsi\t00000000")),
   (.set (b "by-msisdn-103") .ps (b "1"), .reply (b "OK")),
   (.set (b "by-msisdn-103") .cs (b "1"), .reply (b "OK")),
   (.get (b "by-msisdn-103") .info, .reply (b "\nid\t3\nimsi\t901990000000003\nmsisdn\t103\nnam_cs\t1\nnam_ps\t1\nms_purged_cs\t0\nms_purged_ps\t0\nperiodic_lu_timer\t0\nperiodic_rau_tau_timer\t0\nlmsi\t00000000")),
   (.get (b "by-id-3") .info, .reply (b "\nid\t3\nimsi\t901990000000003\nmsisdn\t103\nnam_cs\t1\nnam_ps\t1\nms_purged_cs\t0\nms_purged_ps\t0\nperiodic_lu_timer\t0\nperiodic_rau_tau_timer\t0\nlmsi\t00000000")),
   (.get (b "by-id-3") .infoAud, .reply (b "\naud2g.algo\tCOMP128v1\naud2g.ki\t000102030405060708090a0b0c0d0e0f\naud3g.algo\tMILENAGE\naud3g.k\t000102030405060708090a0b0c0d0e0f\naud3g.opc\t101112131415161718191a1b1c1d1e1f\naud3g.ind_bitlen\t5\naud3g.sqn\t2342")),
   (.get (b "by-id-3") .infoAll, .reply (b "\nid\t3\nimsi\t901990000000003\nmsisdn\t103\nnam_cs\t1\nnam_ps\t1\nms_purged_cs\t0\nms_purged_ps\t0\nperiodic_lu_timer\t0\nperiodic_rau_tau_timer\t0\nlmsi\t00000000\naud2g.algo\tCOMP128v1\naud2g.ki\t000102030405060708090a0b0c0d0e0f\naud3g.algo\tMILENAGE\naud3g.k\t000102030405060708090a0b0c0d0e0f\naud3g.opc\t101112131415161718191a1b1c1d1e1f\naud3g.ind_bitlen\t5\naud3g.sqn\t2342")),
   (.get (b "by-id-3") .ps, .reply (b "1")),
   (.set (b "by-id-3") .ps (b "0"), .reply (b "OK")),
   (.get (b "by-id-3") .ps, .reply (b "0")),
   (.get (b "by-id-3") .info, .reply (b "\nid\t3\nimsi\t901990000000003\nmsisdn\t103\nnam_cs\t1\nnam_ps\t0\nms_purged_cs\t0\nms_purged_ps\t0\nperiodic_lu_timer\t0\nperiodic_rau_tau_timer\t0\nlmsi\t00000000")),
   (.set (b "by-id-3") .ps (b "0"), .reply (b "OK")),
   (.get (b "by-id-3") .ps, .reply (b "0")),
   (.set (b "by-id-3") .ps (b "1"), .reply (b "OK")),
   (.get (b "by-id-3") .ps, .reply (b "1")),
   (.get (b "by-id-3") .info, .reply (b "\nid\t3\nimsi\t901990000000003\nmsisdn\t103\nnam_cs\t1\nnam_ps\t1\nms_purged_cs\t0\nms_purged_ps\t0\nperiodic_lu_timer\t0\nperiodic_rau_tau_timer\t0\nlmsi\t00000000")),
   (.set (b "by-id-3") .ps (b "1"), .reply (b "OK")),
   (.get (b "by-id-3") .ps, .reply (b "1")),
   (.get (b "by-id-3") .cs, .reply (b "1")),
   (.set (b "by-id-3") .cs (b "0"), .reply (b "OK")),
   (.get (b "by-id-3") .cs, .reply (b "0")),
   (.get (b "by-id-3") .info, .reply (b "\nid\t3\nimsi\t901990000000003\nmsisdn\t103\nnam_cs\t0\nnam_ps\t1\nms_purged_cs\t0\nms_purged_ps\t0\nperiodic_lu_timer\t0\nperiodic_rau_tau_timer\t0\nlmsi\t00000000")),
   (.set (b "by-id-3") .cs (b "0"), .reply (b "OK")),
   (.get (b "by-id-3") .cs, .reply (b "0")),
   (.set (b "by-id-3") .cs (b "1"), .reply (b "OK")),
   (.get (b "by-id-3") .cs, .reply (b "1")),
   (.get (b "by-id-3") .info, .reply (b "\nid\t3\nimsi\t901990000000003\nmsisdn\t103\nnam_cs\t1\nnam_ps\t1\nms_purged_cs\t0\nms_purged_ps\t0\nperiodic_lu_timer\t0\nperiodic_rau_tau_timer\t0\nlmsi\t00000000")),
   (.set (b "by-id-3") .cs (b "1"), .reply (b "OK")),
   (.get (b "by-id-3") .cs, .reply (b "1")),
   (.set (b "by-id-3") .ps (b "0"), .reply (b "OK")),
   (.set (b "by-id-3") .cs (b "0"), .reply (b "OK")),
   (.get (b "by-id-3") .info, .reply (b "\nid\t3\nimsi\t901990000000003\nmsisdn\t103\nnam_cs\t0\nnam_ps\t0\nms_purged_cs\t0\nms_purged_ps\t0\nperiodic_lu_timer\t0\nperiodic_rau_tau_timer\t0\nlmsi\t00000000")),
   (.set (b "by-id-3") .ps (b "1"), .reply (b "OK")),
   (.set (b "by-id-3") .cs (b "1"), .reply (b "OK")),
   (.get (b "by-id-3") .info, .reply (b "\nid\t3\nimsi\t901990000000003\nmsisdn\t103\nnam_cs\t1\nnam_ps\t1\nms_purged_cs\t0\nms_purged_ps\t0\nperiodic_lu_timer\t0\nperiodic_rau_tau_timer\t0\nlmsi\t00000000")),
   (.get (b "by-id-00123") .info, .reply (b "\nid\t123\nimsi\t123123\nmsisdn\t123\nnam_cs\t1\nnam_ps\t1\nms_purged_cs\t0\nms_purged_ps\t0\nperiodic_lu_timer\t0\nperiodic_rau_tau_timer\t0\nlmsi\t00000000")),
   (.create (b "901991234567891"), .reply (b "124")),
   (.get (b "by-id-124") .info, .reply (b "\nid\t124\nimsi\t901991234567891\nnam_cs\t1\nnam_ps\t1\nms_purged_cs\t0\nms_purged_ps\t0\nperiodic_lu_timer\t0\nperiodic_rau_tau_timer\t0\nlmsi\t00000000")),
   (.get (b "by-imsi-901991234567891") .msisdn, .reply (b "none")),
   (.set (b "by-imsi-901991234567891") .msisdn (b "555666"), .reply (b "OK")),
   (.get (b "by-imsi-901991234567891") .msisdn, .reply (b "555666")),
   (.set (b "by-imsi-901991234567891") .msisdn (b "888000"), .reply (b "OK")),
   (.get (b "by-imsi-901991234567891") .msisdn, .reply (b "888000")),
   (.get (b "by-imsi-901991234567891") .info, .reply (b "\nid\t124\nimsi\t901991234567891\nmsisdn\t888000\nnam_cs\t1\nnam_ps\t1\nms_purged_cs\t0\nms_purged_ps\t0\nperiodic_lu_timer\t0\nperiodic_rau_tau_timer\t0\nlmsi\t00000000")),
   (.set (b "by-imsi-901991234567891") .msisdn (b "none"), .reply (b "OK")),
   (.get (b "by-imsi-901991234567891") .msisdn, .reply (b "none")),
   (.get (b "by-imsi-901991234567891") .info, .reply (b "\nid\t124\nimsi\t901991234567891\nnam_cs\t1\nnam_ps\t1\nms_purged_cs\t0\nms_purged_ps\t0\nperiodic_lu_timer\t0\nperiodic_rau_tau_timer\t0\nlmsi\t00000000")),
   (.get (b "by-imsi-901991234567891") .aud2g, .reply (b "none")),
   (.set (b "by-imsi-901991234567891") .aud2g (b "xor-2g,c01ffedc1cadaeac1d1f1edacac1ab0a"), .reply (b "OK")),
   (.get (b "by-imsi-901991234567891") .aud2g, .reply (b "XOR-2G,c01ffedc1cadaeac1d1f1edacac1ab0a")),
   (.set (b "by-imsi-901991234567891") .aud2g (b "none"), .reply (b "OK")),
   (.get (b "by-imsi-901991234567891") .aud2g, .reply (b "none")),
   (.get (b "by-imsi-901991234567891") .aud3g, .reply (b "none")),
   (.set (b "by-imsi-901991234567891") .aud3g (b "milenage,c01ffedc1cadaeac1d1f1edacac1ab0a,OP,FB2A3D1B360F599ABAB99DB8669F8308"), .reply (b "OK")),
   (.get (b "by-imsi-901991234567891") .aud3g, .reply (b "MILENAGE,c01ffedc1cadaeac1d1f1edacac1ab0a,OP,fb2a3d1b360f599abab99db8669f8308,5")),
   (.set (b "by-imsi-901991234567891") .aud3g (b "milenage,c01ffedc1cadaeac1d1f1edacac1ab0a,OPC,FB2A3D1B360F599ABAB99DB8669F8308,7"), .reply (b "OK")),
   (.get (b "by-imsi-901991234567891") .aud3g, .reply (b "MILENAGE,c01ffedc1cadaeac1d1f1edacac1ab0a,OPC,fb2a3d1b360f599abab99db8669f8308,7")),
   (.set (b "by-imsi-901991234567891") .aud3g (b "none"), .reply (b "OK")),
   (.get (b "by-imsi-901991234567891") .aud3g, .reply (b "none")),
   (.delete (b "901991234567891"), .reply (b "124"))]

#guard replay db0 subscriber

/-- `tests/test_subscriber_errors.ctrl`. -/
def errors : List (Cmd × Reply) :=
  [(.get (b "by-imsi-nonsense") .info, err "Invalid value part of 'by-xxx-value' selector."),
   (.get (b "by-msisdn-nonsense") .info, err "Invalid value part of 'by-xxx-value' selector."),
   (.get (b "by-id-nonsense") .info, err "Invalid value part of 'by-xxx-value' selector."),
   (.get (b "by-nonsense-123456") .info, err "Not a known subscriber 'by-xxx-' selector."),
   (.get (b "by-123456") .info, err "Not a known subscriber 'by-xxx-' selector."),
   (.get (b "by-imsi-") .info, err "Invalid value part of 'by-xxx-value' selector."),
   (.get (b "by-imsi--") .info, err "Invalid value part of 'by-xxx-value' selector."),
   (.get (b "by-imsi-12345678901234567") .info, err "Invalid value part of 'by-xxx-value' selector."),
   (.get (b "by-imsi-12345") .info, err "Invalid value part of 'by-xxx-value' selector."),
   (.get (b "by-imsi-1234567890123456") .info, err "Invalid value part of 'by-xxx-value' selector."),
   (.get (b "by-id-99999999999999999999999999") .info, err "Invalid value part of 'by-xxx-value' selector."),
   (.get (b "by-id-9223372036854775807") .info, err "No such subscriber."),
   (.get (b "by-id-9223372036854775808") .info, err "Invalid value part of 'by-xxx-value' selector."),
   (.get (b "by-id--1") .info, err "No such subscriber."),
   (.get (b "by-id--9223372036854775808") .info, err "No such subscriber."),
   (.get (b "by-id--9223372036854775809") .info, err "Invalid value part of 'by-xxx-value' selector."),
   (.get (b "by-id--") .info, err "Invalid value part of 'by-xxx-value' selector."),
   (.get (b "by-id---1") .info, err "Invalid value part of 'by-xxx-value' selector."),
   (.set (b "by-imsi-901990000000001") .info (b "foo"), err "Read Only attribute"),
   (.set (b "by-imsi-901990000000001") .infoAud (b "foo"), err "Read Only attribute"),
   (.set (b "by-imsi-901990000000001") .infoAll (b "foo"), err "Read Only attribute"),
   (.set (b "by-imsi-901990000000001") .ps (b "nonsense"), err "Value failed verification."),
   (.set (b "by-imsi-901990000000001") .cs (b "nonsense"), err "Value failed verification."),
   (.get (b "by-imsi-1234567890123456") .ps, err "Invalid value part of 'by-xxx-value' selector."),
   (.get (b "by-imsi-1234567890123456") .cs, err "Invalid value part of 'by-xxx-value' selector."),
   (.get (b "by-id-0x0123") .info, err "Invalid value part of 'by-xxx-value' selector."),
   (.create (b "zzz"), err "Invalid IMSI value."),
   (.create (b "901990000000001"), err "Subscriber already exists."),
   (.set (b "by-imsi-1234567890123456") .msisdn (b "hellobadmsisdn"), err "Value failed verification."),
   (.delete (b "100000"), err "Subscriber doesn't exist."),
   (.delete (b "zzz"), err "Invalid IMSI value."),
   (.set (b "by-imsi-901990000000003") .aud2g (b "foobar"), err "Value failed verification."),
   (.set (b "by-imsi-901990000000003") .aud2g (b "foobar,2134"), err "Unknown auth algorithm."),
   (.set (b "by-imsi-901990000000003") .aud2g (b "xor-2g,2134"), err "Invalid KI."),
   (.set (b "by-imsi-901990000000003") .aud3g (b "foobar"), err "Value failed verification."),
   (.set (b "by-imsi-901990000000003") .aud3g (b "foobar,2134"), err "Unknown auth algorithm."),
   (.set (b "by-imsi-901990000000003") .aud3g (b "milenage,2134"), err "Invalid KI."),
   (.set (b "by-imsi-901990000000003") .aud3g (b "milenage,c01ffedc1cadaeac1d1f1edacac1ab0a,AAA"), err "Invalid format."),
   (.set (b "by-imsi-901990000000003") .aud3g (b "milenage,c01ffedc1cadaeac1d1f1edacac1ab0a,OPC"), err "Invalid format."),
   (.set (b "by-imsi-901990000000003") .aud3g (b "milenage,c01ffedc1cadaeac1d1f1edacac1ab0a,OPC,zzz"), err "Invalid OP/OPC."),
   (.set (b "by-imsi-901990000000003") .aud3g (b "milenage,c01ffedc1cadaeac1d1f1edacac1ab0a,OPC,fb2a3d1b360f599abab99db8669f8308,"), err "Invalid format.")]

#guard replay db0 errors

end Verif.Prov.Transcript
