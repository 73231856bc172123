import Verif.Prov.VtyProps2
import Verif.Prov.Props
/-! # C55: concrete cases, and what goes wrong -/
namespace Verif.Prov.Vty.Props
open Verif Verif.Db Verif.Auc Verif.Mslookup Verif.Mslookup.Mdns Verif.Prov Verif.Prov.Vty

/-- A clock. -/
def exClock : Clock := { now := 100, date := fun _ => b "1970-01-01T00:00:00+00:00" }

/-- The database after the example history. -/
def exDb : Db := runHist {} Prov.Props.exHist

/-- An identity names one subscriber of the example: the hypotheses of the theorems of
`VtyProps2` are met for each of the four ways to name a subscriber. -/
example : ∃ r, Only exDb .imsi (b "901990000000001") r ∧ r.id < 2 ^ 63 := by
  refine ⟨exDb.subs.head (by decide +kernel), only_of (reachable_good _) (List.head_mem _) ?_ (by decide), by decide +kernel⟩
  show SubRow.imsi _ = _
  decide +kernel

example : ∃ r, Only exDb .msisdn (b "1") r ∧ r.id < 2 ^ 63 := by
  refine ⟨exDb.subs.head (by decide +kernel), only_of (reachable_good _) (List.head_mem _) ?_ (by decide), by decide +kernel⟩
  show SubRow.msisdn _ = _
  decide +kernel

example : ∃ r, Only exDb .id (b "1") r ∧ r.id < 2 ^ 63 := by
  refine ⟨exDb.subs.head (by decide +kernel), only_of (reachable_good _) (List.head_mem _) ?_ (by decide), by decide +kernel⟩
  exact ⟨1, by unfold Numeral; decide +kernel, by decide +kernel⟩

/-- What the theorems say of the example: an MSISDN is set and announced, one in use is refused,
keys are set, network access is closed and withdrawn, the subscriber is deleted. -/
example : (exec (vty exClock (.msisdn .imsi (b "901990000000002") (b "2"))) exDb []).1
      = some (.done true (b "% Updated subscriber IMSI='901990000000002' to MSISDN='2'\n")
          [.notify (HlrSubscr.ofRow { id := 2, imsi := b "901990000000002", msisdn := some (b "2"), namCs := true, namPs := false })])
    ∧ (exec (vty exClock (.msisdn .imsi (b "901990000000002") (b "1"))) exDb []).1
      = some (.done false (b "% Error: cannot update MSISDN for subscriber IMSI='901990000000002'\n") [])
    ∧ (exec (vty exClock (.xor3 .id (b "2") (b "BeefedCafeFaceAcedAddedDecadeFee") none)) exDb []).1 = some (.done true [] [])
    ∧ (∃ s, (exec (vty exClock (.nam .imsi (b "901990000000002") (b "none"))) exDb []).1 = some (.done true [] [.delData s]))
    ∧ (exec (vty exClock (.delete .msisdn (b "1"))) exDb []).2.subs.map (·.id) = [2] := by
  refine ⟨by decide +kernel, by decide +kernel, by decide +kernel,
    ⟨HlrSubscr.ofRow { id := 2, imsi := b "901990000000002", namCs := true, namPs := false }, ?_⟩, by decide +kernel⟩
  decide +kernel

/-- The IND bit length and the algorithm names of the theorems exist. -/
example : Bitlen none 5 ∧ Bitlen (some (b "28")) 28 ∧ Called (b "milenage") .milenage ∧ Called (b "MILENAGE") .milenage := by
  refine ⟨rfl, ?_, ?_, ?_⟩
  · show Numeral _ _; unfold Numeral; decide +kernel
  · unfold Called; decide +kernel
  · unfold Called; decide +kernel

/-- A full IMEI is found without its check digit. -/
example : FullImei (b "357613004448485") ∧ ¬ FullImei (b "357613004448484") := by
  unfold FullImei Digits; decide +kernel

/-! ## What goes wrong -/

/-- C55 fails: `network-access-mode` reports success although the database refused the change. -/
theorem c55_nam_violated :
    exec (vty exClock (.nam .imsi (b "901990000000001") (b "none"))) exDb [.ok, .ioerr, .ioerr]
      = (some (.done true [] []), exDb)
    ∧ ∃ r ∈ exDb.subs, r.imsi = b "901990000000001" ∧ r.namCs = true ∧ r.namPs = true := by
  refine ⟨by decide +kernel, exDb.subs.head (by decide +kernel), List.head_mem _, by decide +kernel⟩

/-- C55 fails: if the new record cannot be read back, `create` prints an uninitialised struct. -/
theorem c55_create_violated :
    (exec (vty exClock (.create (b "901990000000003"))) exDb [.ok, .ioerr]).1 = some .ub := by
  decide +kernel

/-- A history with two subscribers using the same equipment. -/
def exSameImei : List (Op × Script) :=
  [(.create (b "901990000000001") true true, []), (.create (b "901990000000002") true true, []),
   (.imei (b "901990000000001") (some (b "35761300444848")), []),
   (.imei (b "901990000000002") (some (b "35761300444848")), [])]

/-- C55 fails: an IMEI may name several subscribers; `delete` removes the first one and says so
only in passing. -/
theorem c55_imei_violated :
    (∀ r ∈ (runHist {} exSameImei).subs, NamesV .imei (b "35761300444848") r)
    ∧ (runHist {} exSameImei).subs.length = 2
    ∧ (exec (vty exClock (.delete .imei (b "35761300444848"))) (runHist {} exSameImei) []).1
        = some (.done true (b "% Deleted subscriber for IMSI '901990000000001'\n") [])
    ∧ (exec (vty exClock (.delete .imei (b "35761300444848"))) (runHist {} exSameImei) []).2.subs.map (·.imsi)
        = [b "901990000000002"] := by
  refine ⟨?_, by decide +kernel, by decide +kernel, by decide +kernel⟩
  intro r hr
  left
  revert r
  decide +kernel

/-- C55 fails: what follows the digits of a database id is ignored: a mistyped id deletes a subscriber it does not name. -/
theorem c55_id_violated :
    (∀ n, ¬ Numeral (b "1x01990000000002") n)
    ∧ (exec (vty exClock (.delete .id (b "1x01990000000002"))) exDb []).1
        = some (.done true (b "% Deleted subscriber for IMSI '901990000000001'\n") []) := by
  refine ⟨fun n h => ?_, by decide +kernel⟩
  have := h.2.1 120 (by decide +kernel)
  revert this
  decide

/-- C55 fails: a K of 12 bytes is within the limits of XOR-3G the command tells, but is refused by
the database. -/
theorem c55_xor3g_violated :
    exec (vty exClock (.xor3 .id (b "2") (b "BeefedCafeFaceAcedAddedD") none)) exDb []
      = (some (.done false (b "% Error: cannot set 3G auth data for IMSI='901990000000002'\n") []), exDb) := by
  decide +kernel

/-- C55 fails: TUAK is offered by the command, but no TUAK key can be stored. -/
theorem c55_tuak_violated (ck : Clock) (hist : List (Op × Script)) (sc : Script) (t : IdType) (id k c o : Bytes)
    (bl : Option Bytes) (hc : Cmd.Ok (.aud3 t id (b "tuak") k c o bl)) :
    (¬ Succ (exec (vty ck (.aud3 t id (b "tuak") k c o bl)) (runHist {} hist) sc).1) := by
  intro h
  obtain ⟨r, hr, hn, hd⟩ := c55_ok_partial ck hist sc _ hc (by simp) (by simp) (by simp) h
  generalize (exec (vty ck (.aud3 t id (b "tuak") k c o bl)) (runHist {} hist) sc).2 = x at hd
  cases hd with
  | aud3None hx => exact absurd hx (by unfold Called; decide +kernel)
  | aud3 hx => exact absurd hx (by unfold Called; decide +kernel)

end Verif.Prov.Vty.Props
