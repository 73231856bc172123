import Verif.Prov.Vty
/-! # The VTY transcript of the project's own tests, replayed on the model

Generated from `tests/test_subscriber.vty` (online help and commands refused by libosmovty's
parser left out), on the database of `tests/test_subscriber.vty.sql`.  These are tests of the
model against the behaviour recorded from the real program: `#guard` evaluates them during the
build and fails it if an answer differs. -/
namespace Verif.Prov.Vty.Transcript
open Verif Verif.Db Verif.Prov Verif.Prov.Vty

/-- `tests/test_subscriber.vty.sql`. -/
def db0 : Db :=
  { subs := [{ id := 99, imsi := b "000000000000099", imei := some (b "12345") }, { id := 100, imsi := b "000000000000100" }] }

/-- The clock does not matter here. -/
def clock : Clock := { now := 0, date := fun _ => [] }

/-- The text written by a command. -/
def text : Option Res → Option Bytes
  | some (.done _ t _) => some t
  | _ => none

/-- Whether the commands write these texts, one after the other. -/
def replay : Db → List (Cmd × Bytes) → Bool
  | _, [] => true
  | d, (c, r) :: l => decide (text (exec (vty clock c) d []).1 = some r) && replay (exec (vty clock c) d []).2 l

/-- `tests/test_subscriber.vty`. -/
def subscriber : List (Cmd × Bytes) :=
  [(.show_ .imsi (b "123456789023000"), b "% No subscriber for imsi = '123456789023000'\n"),
   (.show_ .id (b "101"), b "% No subscriber for id = '101'\n"),
   (.show_ .msisdn (b "12345"), b "% No subscriber for msisdn = '12345'\n"),
   (.show_ .imei (b "357613004448485"), b "% Checksum validated and stripped for search: imei = '35761300444848'\n% No subscriber for imei = '35761300444848'\n"),
   (.show_ .imsi (b "123456789023000"), b "% No subscriber for imsi = '123456789023000'\n"),
   (.show_ .id (b "101"), b "% No subscriber for id = '101'\n"),
   (.show_ .msisdn (b "12345"), b "% No subscriber for msisdn = '12345'\n"),
   (.show_ .imei (b "357613004448485"), b "% Checksum validated and stripped for search: imei = '35761300444848'\n% No subscriber for imei = '35761300444848'\n"),
   (.create (b "1234567890230001"), b "% Not a valid IMSI: 1234567890230001\n"),
   (.create (b "12345678902300x"), b "% Not a valid IMSI: 12345678902300x\n"),
   (.create (b "12345"), b "% Not a valid IMSI: 12345\n"),
   (.create (b "123456789023000"), b "% Created subscriber 123456789023000\n    ID: 101\n    IMSI: 123456789023000\n    MSISDN: none\n"),
   (.show_ .imsi (b "123456789023000"), b "    ID: 101\n    IMSI: 123456789023000\n    MSISDN: none\n"),
   (.show_ .id (b "101"), b "    ID: 101\n    IMSI: 123456789023000\n    MSISDN: none\n"),
   (.show_ .msisdn (b "12345"), b "% No subscriber for msisdn = '12345'\n"),
   (.msisdn .imsi (b "123456789023000") (b "12345"), b "% Updated subscriber IMSI='123456789023000' to MSISDN='12345'\n"),
   (.show_ .imsi (b "123456789023000"), b "    ID: 101\n    IMSI: 123456789023000\n    MSISDN: 12345\n"),
   (.show_ .id (b "101"), b "    ID: 101\n    IMSI: 123456789023000\n    MSISDN: 12345\n"),
   (.show_ .msisdn (b "12345"), b "    ID: 101\n    IMSI: 123456789023000\n    MSISDN: 12345\n"),
   (.msisdn .msisdn (b "12345") (b "423"), b "% Updated subscriber IMSI='123456789023000' to MSISDN='423'\n"),
   (.show_ .msisdn (b "12345"), b "% No subscriber for msisdn = '12345'\n"),
   (.msisdn .msisdn (b "423") (b "none"), b "% Updated subscriber IMSI='123456789023000': removed MSISDN\n"),
   (.show_ .msisdn (b "423"), b "% No subscriber for msisdn = '423'\n"),
   (.show_ .imsi (b "123456789023000"), b "    ID: 101\n    IMSI: 123456789023000\n    MSISDN: none\n"),
   (.msisdn .imsi (b "123456789023000") (b "423"), b "% Updated subscriber IMSI='123456789023000' to MSISDN='423'\n"),
   (.show_ .msisdn (b "423"), b "    ID: 101\n    IMSI: 123456789023000\n    MSISDN: 423\n"),
   (.show_ .imsi (b "123456789023000"), b "    ID: 101\n    IMSI: 123456789023000\n    MSISDN: 423\n"),
   (.show_ .id (b "101"), b "    ID: 101\n    IMSI: 123456789023000\n    MSISDN: 423\n"),
   (.show_ .msisdn (b "423"), b "    ID: 101\n    IMSI: 123456789023000\n    MSISDN: 423\n"),
   (.aud2 .imsi (b "123456789023000") (b "xor-2g") (b "Deaf0ff1ceD0d0DabbedD1ced1ceF00d"), b ""),
   (.show_ .imsi (b "123456789023000"), b "    ID: 101\n    IMSI: 123456789023000\n    MSISDN: 423\n    2G auth: XOR-2G\n             KI=deaf0ff1ced0d0dabbedd1ced1cef00d\n"),
   (.aud2 .imsi (b "123456789023000") (b "comp128v1") (b "BeefedCafeFaceAcedAddedDecadeFee"), b ""),
   (.show_ .imsi (b "123456789023000"), b "    ID: 101\n    IMSI: 123456789023000\n    MSISDN: 423\n    2G auth: COMP128v1\n             KI=beefedcafefaceacedaddeddecadefee\n"),
   (.show_ .id (b "101"), b "    ID: 101\n    IMSI: 123456789023000\n    MSISDN: 423\n    2G auth: COMP128v1\n             KI=beefedcafefaceacedaddeddecadefee\n"),
   (.show_ .msisdn (b "423"), b "    ID: 101\n    IMSI: 123456789023000\n    MSISDN: 423\n    2G auth: COMP128v1\n             KI=beefedcafefaceacedaddeddecadefee\n"),
   (.aud2 .id (b "101") (b "comp128v2") (b "CededEffacedAceFacedBadFadedBeef"), b ""),
   (.show_ .id (b "101"), b "    ID: 101\n    IMSI: 123456789023000\n    MSISDN: 423\n    2G auth: COMP128v2\n             KI=cededeffacedacefacedbadfadedbeef\n"),
   (.show_ .msisdn (b "423"), b "    ID: 101\n    IMSI: 123456789023000\n    MSISDN: 423\n    2G auth: COMP128v2\n             KI=cededeffacedacefacedbadfadedbeef\n"),
   (.show_ .imsi (b "123456789023000"), b "    ID: 101\n    IMSI: 123456789023000\n    MSISDN: 423\n    2G auth: COMP128v2\n             KI=cededeffacedacefacedbadfadedbeef\n"),
   (.aud2 .msisdn (b "423") (b "comp128v3") (b "C01ffedC1cadaeAc1d1f1edAcac1aB0a"), b ""),
   (.show_ .msisdn (b "423"), b "    ID: 101\n    IMSI: 123456789023000\n    MSISDN: 423\n    2G auth: COMP128v3\n             KI=c01ffedc1cadaeac1d1f1edacac1ab0a\n"),
   (.show_ .imsi (b "123456789023000"), b "    ID: 101\n    IMSI: 123456789023000\n    MSISDN: 423\n    2G auth: COMP128v3\n             KI=c01ffedc1cadaeac1d1f1edacac1ab0a\n"),
   (.show_ .id (b "101"), b "    ID: 101\n    IMSI: 123456789023000\n    MSISDN: 423\n    2G auth: COMP128v3\n             KI=c01ffedc1cadaeac1d1f1edacac1ab0a\n"),
   (.show_ .id (b "101"), b "    ID: 101\n    IMSI: 123456789023000\n    MSISDN: 423\n    2G auth: COMP128v3\n             KI=c01ffedc1cadaeac1d1f1edacac1ab0a\n"),
   (.show_ .id (b "101"), b "    ID: 101\n    IMSI: 123456789023000\n    MSISDN: 423\n    2G auth: COMP128v3\n             KI=c01ffedc1cadaeac1d1f1edacac1ab0a\n"),
   (.aud2 .id (b "101") (b "xor-2g") (b "CoiffedCicadaeAcidifiedAcaciaBoa"), b "% Invalid value for KI: 'CoiffedCicadaeAcidifiedAcaciaBoa'\n"),
   (.show_ .id (b "101"), b "    ID: 101\n    IMSI: 123456789023000\n    MSISDN: 423\n    2G auth: COMP128v3\n             KI=c01ffedc1cadaeac1d1f1edacac1ab0a\n"),
   (.aud2 .id (b "101") (b "xor-2g") (b "C01ffedC1cadaeAc1d1f1edAcac1aB0aX"), b "% Invalid value for KI: 'C01ffedC1cadaeAc1d1f1edAcac1aB0aX'\n"),
   (.show_ .id (b "101"), b "    ID: 101\n    IMSI: 123456789023000\n    MSISDN: 423\n    2G auth: COMP128v3\n             KI=c01ffedc1cadaeac1d1f1edacac1ab0a\n"),
   (.noAud2 .id (b "101"), b ""),
   (.show_ .id (b "101"), b "    ID: 101\n    IMSI: 123456789023000\n    MSISDN: 423\n"),
   (.aud3 .imsi (b "123456789023000") (b "milenage") (b "Deaf0ff1ceD0d0DabbedD1ced1ceF00d") (b "opc") (b "CededEffacedAceFacedBadFadedBeef") none, b ""),
   (.show_ .imsi (b "123456789023000"), b "    ID: 101\n    IMSI: 123456789023000\n    MSISDN: 423\n    3G auth: MILENAGE\n             K=deaf0ff1ced0d0dabbedd1ced1cef00d\n             OPC=cededeffacedacefacedbadfadedbeef\n             IND-bitlen=5\n"),
   (.aud3 .imsi (b "123456789023000") (b "milenage") (b "Deaf0ff1ceD0d0DabbedD1ced1ceF00d") (b "op") (b "DeafBeddedBabeAcceededFadedDecaf") none, b ""),
   (.show_ .imsi (b "123456789023000"), b "    ID: 101\n    IMSI: 123456789023000\n    MSISDN: 423\n    3G auth: MILENAGE\n             K=deaf0ff1ced0d0dabbedd1ced1cef00d\n             OP=deafbeddedbabeacceededfadeddecaf\n             IND-bitlen=5\n"),
   (.noAud3 .imsi (b "123456789023000"), b ""),
   (.show_ .imsi (b "123456789023000"), b "    ID: 101\n    IMSI: 123456789023000\n    MSISDN: 423\n"),
   (.aud3 .imsi (b "123456789023000") (b "milenage") (b "Deaf0ff1ceD0d0DabbedD1ced1ceF00d") (b "opc") (b "CededEffacedAceFacedBadFadedBeef") (some (b "23")), b ""),
   (.show_ .imsi (b "123456789023000"), b "    ID: 101\n    IMSI: 123456789023000\n    MSISDN: 423\n    3G auth: MILENAGE\n             K=deaf0ff1ced0d0dabbedd1ced1cef00d\n             OPC=cededeffacedacefacedbadfadedbeef\n             IND-bitlen=23\n"),
   (.aud3 .imsi (b "123456789023000") (b "milenage") (b "CoiffedCicadaeAcidifiedAcaciaBoa") (b "opc") (b "CededEffacedAceFacedBadFadedBeef") none, b "% Invalid value for K: 'CoiffedCicadaeAcidifiedAcaciaBoa'\n"),
   (.show_ .imsi (b "123456789023000"), b "    ID: 101\n    IMSI: 123456789023000\n    MSISDN: 423\n    3G auth: MILENAGE\n             K=deaf0ff1ced0d0dabbedd1ced1cef00d\n             OPC=cededeffacedacefacedbadfadedbeef\n             IND-bitlen=23\n"),
   (.aud3 .imsi (b "123456789023000") (b "milenage") (b "Deaf0ff1ceD0d0DabbedD1ced1ceF00d") (b "opc") (b "CoiffedCicadaeAcidifiedAcaciaBoa") none, b "% Invalid value for OPC: 'CoiffedCicadaeAcidifiedAcaciaBoa'\n"),
   (.show_ .imsi (b "123456789023000"), b "    ID: 101\n    IMSI: 123456789023000\n    MSISDN: 423\n    3G auth: MILENAGE\n             K=deaf0ff1ced0d0dabbedd1ced1cef00d\n             OPC=cededeffacedacefacedbadfadedbeef\n             IND-bitlen=23\n"),
   (.aud3 .imsi (b "123456789023000") (b "milenage") (b "Deaf0ff1ceD0d0DabbedD1ced1ceF00d") (b "op") (b "C01ffedC1cadaeAc1d1f1edAcac1aB0a") none, b ""),
   (.aud3 .imsi (b "123456789023000") (b "milenage") (b "Deaf0ff1ceD0d0DabbedD1ced1ceF00d") (b "op") (b "CoiffedCicadaeAcidifiedAcaciaBoa") none, b "% Invalid value for OP: 'CoiffedCicadaeAcidifiedAcaciaBoa'\n"),
   (.show_ .imsi (b "123456789023000"), b "    ID: 101\n    IMSI: 123456789023000\n    MSISDN: 423\n    3G auth: MILENAGE\n             K=deaf0ff1ced0d0dabbedd1ced1cef00d\n             OP=c01ffedc1cadaeac1d1f1edacac1ab0a\n             IND-bitlen=5\n"),
   (.aud2 .id (b "101") (b "comp128v2") (b "CededEffacedAceFacedBadFadedBeef"), b ""),
   (.show_ .id (b "101"), b "    ID: 101\n    IMSI: 123456789023000\n    MSISDN: 423\n    2G auth: COMP128v2\n             KI=cededeffacedacefacedbadfadedbeef\n    3G auth: MILENAGE\n             K=deaf0ff1ced0d0dabbedd1ced1cef00d\n             OP=c01ffedc1cadaeac1d1f1edacac1ab0a\n             IND-bitlen=5\n"),
   (.delete .imsi (b "123456789023000"), b "% Deleted subscriber for IMSI '123456789023000'\n"),
   (.show_ .imsi (b "123456789023000"), b "% No subscriber for imsi = '123456789023000'\n"),
   (.show_ .id (b "101"), b "% No subscriber for id = '101'\n"),
   (.show_ .msisdn (b "423"), b "% No subscriber for msisdn = '423'\n"),
   (.create (b "123456789023000"), b "% Created subscriber 123456789023000\n    ID: 101\n    IMSI: 123456789023000\n    MSISDN: none\n"),
   (.delete .imsi (b "123456789023000"), b "% Deleted subscriber for IMSI '123456789023000'\n"),
   (.create (b "123456789023000"), b "% Created subscriber 123456789023000\n    ID: 101\n    IMSI: 123456789023000\n    MSISDN: none\n"),
   (.imei .imsi (b "123456789023000") (b "35761300444848"), b "% Updated subscriber IMSI='123456789023000' to IMEI='35761300444848'\n"),
   (.imei .imsi (b "123456789023000") (b "357613004448484"), b "% IMEI invalid: '357613004448484'\n"),
   (.imei .imsi (b "123456789023000") (b "357613004448485"), b "% Updated subscriber IMSI='123456789023000' to IMEI='35761300444848'\n"),
   (.show_ .imei (b "35761300444848"), b "    ID: 101\n    IMSI: 123456789023000\n    MSISDN: none\n    IMEI: 357613004448485\n"),
   (.show_ .imei (b "357613004448485"), b "% Checksum validated and stripped for search: imei = '35761300444848'\n    ID: 101\n    IMSI: 123456789023000\n    MSISDN: none\n    IMEI: 357613004448485\n"),
   (.show_ .imei (b "357613004448484"), b "% No subscriber for imei = '357613004448484'\n"),
   (.imei .imsi (b "123456789023000") (b "none"), b "% Updated subscriber IMSI='123456789023000': removed IMEI\n"),
   (.show_ .imsi (b "123456789023000"), b "    ID: 101\n    IMSI: 123456789023000\n    MSISDN: none\n"),
   (.delete .imsi (b "123456789023000"), b "% Deleted subscriber for IMSI '123456789023000'\n"),
   (.show_ .id (b "99"), b "    ID: 99\n    IMSI: 000000000000099\n    MSISDN: none\n    IMEI: 12345 (INVALID LENGTH!)\n"),
   (.create (b "123456789023000"), b "% Created subscriber 123456789023000\n    ID: 101\n    IMSI: 123456789023000\n    MSISDN: none\n"),
   (.nam .imsi (b "123456789023000") (b "none"), b ""),
   (.show_ .imsi (b "123456789023000"), b "    ID: 101\n    IMSI: 123456789023000\n    MSISDN: none\n    CS disabled\n    PS disabled\n"),
   (.nam .imsi (b "123456789023000") (b "cs"), b ""),
   (.show_ .imsi (b "123456789023000"), b "    ID: 101\n    IMSI: 123456789023000\n    MSISDN: none\n    PS disabled\n"),
   (.nam .imsi (b "123456789023000") (b "ps"), b ""),
   (.show_ .imsi (b "123456789023000"), b "    ID: 101\n    IMSI: 123456789023000\n    MSISDN: none\n    CS disabled\n"),
   (.nam .imsi (b "123456789023000") (b "cs+ps"), b ""),
   (.show_ .imsi (b "123456789023000"), b "    ID: 101\n    IMSI: 123456789023000\n    MSISDN: none\n"),
   (.delete .imsi (b "123456789023000"), b "% Deleted subscriber for IMSI '123456789023000'\n")]

#guard replay db0 subscriber

end Verif.Prov.Vty.Transcript
