import Verif.Prov.Lemmas5
import Verif.Db.Props
/-! # C53, C54: the CTRL interface reads and writes what it says -/
namespace Verif.Prov.Props
open Verif Verif.Db Verif.Auc Verif.Mslookup Verif.Mslookup.Mdns Verif.Prov

/-- Neither blanks nor `+`: libosmoctrl refuses other variable names ("contains invalid
characters"). -/
def SelOk (sel : Bytes) : Prop := ∀ x ∈ sel, isSpace x = false ∧ x ≠ 43

instance (sel : Bytes) : Decidable (SelOk sel) := by unfold SelOk; exact inferInstance

/-- An example database: two subscribers, one with MSISDN and keys. -/
def exHist : List (Op × Script) :=
  [(.create (b "901990000000001") true true, []), (.create (b "901990000000002") true false, []),
   (.msisdn (b "901990000000001") (some (b "1")), []),
   (.aud 1 (.gsm .comp128v1 (b "BeefedCafeFaceAcedAddedDecadeFee")), []),
   (.aud 1 (.umts .milenage (b "C01ffedC1cadaeAc1d1f1edAcac1aB0a") (b "FB2A3d1b360f599abab99db8669f8308") false 5), []),
   (.lu 1 (b "MSC-1") false none (some 0), [])]

/-! ## C53 -/

/-- C53: on a working database, a GET about an existing subscriber, selected by IMSI, MSISDN or
id, answers exactly what is stored about this subscriber. -/
theorem c53_get (hist : List (Op × Script)) (sc : Script) (hsc : ∀ f ∈ sc, f = .ok) (sel : Bytes) (x : Var)
    (r : SubRow) (hr : r ∈ (runHist {} hist).subs) (h : Names sel r) (hid : r.id < 2 ^ 63) :
    exec (get sel x) (runHist {} hist) sc
      = (some (.reply (getText (runHist {} hist) r x)), runHist {} hist) := by
  rw [(get_uniform sel x).exec _ hsc]
  exact get_nil (reachable_good hist) hr h hid x

/-- C53: whatever fails or crashes, a GET never changes the database; and an answer other than
an error says what is stored about a subscriber the selector names.  The exception is `info-aud`
for an IMSI that is not in the database, see `c53_unknown_violated`. -/
theorem c53_truth_partial (hist : List (Op × Script)) (sc : Script) (sel : Bytes) (hs : SelOk sel) (x : Var) :
    let d := runHist {} hist
    let res := exec (get sel x) d sc
    res.2 = d
    ∧ ∀ t, res.1 = some (.reply t) →
      (∃ r ∈ d.subs, Names sel r ∧ t = getText d r x)
      ∨ (x = .infoAud ∧ t = [] ∧ ∃ i, sel = b "by-imsi-" ++ i ∧ ¬ Known d i) := by
  intro d res
  have hG : Good d := reachable_good hist
  obtain ⟨o, t, h1, h2⟩ := get_run (w := { db := d, script := sc }) hG sel x
  have hres : res = (o, d) := by
    show exec (get sel x) d sc = _
    unfold exec
    rw [h1]
  rw [hres]
  refine ⟨rfl, fun y hy => ?_⟩
  dsimp only at hy
  subst hy
  rcases h2 with h | ⟨e, h⟩ | ⟨c, r, hc, hf, h⟩ | ⟨hx, hp, ⟨r, hr, hi, h⟩ | ⟨hk, h⟩⟩
  · cases h
  · cases h
  · cases h
    exact .inl ⟨r, List.mem_of_find?_eq_some hf, selCond_found hG hc hs hf, rfl⟩
  · cases h
    refine .inl ⟨r, hr, .inl ?_, rfl⟩
    rw [hi]
    exact isPrefixOf_drop hp
  · cases h
    exact .inr ⟨hx, rfl, _, isPrefixOf_drop hp, hk⟩

/-- C53: an answer names a subscriber: no answer but an error for a selector that names none
(`info-aud` excepted). -/
theorem c53_no_such_partial (hist : List (Op × Script)) (sc : Script) (sel : Bytes) (hs : SelOk sel) (x : Var)
    (hx : x ≠ .infoAud) (hn : ∀ r ∈ (runHist {} hist).subs, ¬ Names sel r) :
    (exec (get sel x) (runHist {} hist) sc).1 = none
    ∨ ∃ e, (exec (get sel x) (runHist {} hist) sc).1 = some (.error e) := by
  have h := (c53_truth_partial hist sc sel hs x).2
  cases hr : (exec (get sel x) (runHist {} hist) sc).1 with
  | none => exact .inl rfl
  | some y =>
    cases y with
    | error e => exact .inr ⟨e, rfl⟩
    | reply t =>
      rcases h t hr with ⟨r, hr, hn', -⟩ | ⟨e, -⟩
      · exact absurd hn' (hn r hr)
      · exact absurd e hx

/-- C53 is false for `info-aud` by IMSI: for an IMSI that is not in the database (or is no IMSI at
all) the answer is an empty success, not an error. -/
theorem c53_unknown_violated :
    exec (get (b "by-imsi-nonsense") .infoAud) (runHist {} exHist) [] = (some (.reply []), runHist {} exHist)
    ∧ ∀ r ∈ (runHist {} exHist).subs, ¬ Names (b "by-imsi-nonsense") r := by
  refine ⟨by decide +kernel, ?_⟩
  have : (runHist {} exHist).subs.map (·.imsi) = [b "901990000000001", b "901990000000002"]
      ∧ (runHist {} exHist).subs.map (·.msisdn) = [some (b "1"), none] := by decide +kernel
  intro r hr h
  have h1 : r.imsi ∈ [b "901990000000001", b "901990000000002"] := this.1 ▸ List.mem_map_of_mem (f := SubRow.imsi) hr
  have h2 : r.msisdn ∈ [some (b "1"), none] := this.2 ▸ List.mem_map_of_mem (f := SubRow.msisdn) hr
  rcases h with h | ⟨m, hm, h⟩ | ⟨t, n, h, -⟩
  · simp only [List.mem_cons, List.not_mem_nil, or_false] at h1
    rcases h1 with e | e <;> rw [e] at h <;> revert h <;> decide +kernel
  · rw [hm] at h2
    simp only [List.mem_cons, List.not_mem_nil, or_false, Option.some.injEq, reduceCtorEq] at h2
    rw [h2] at h
    revert h
    decide +kernel
  · have hp : startswith (b "by-imsi-nonsense") byId = true := by rw [h]; exact startswith_append byId t
    revert hp
    decide +kernel

example :
    let d := runHist {} exHist
    ∃ r ∈ d.subs, Names (b "by-msisdn-1") r ∧ Names (b "by-imsi-901990000000001") r ∧ Names (b "by-id-01") r
      ∧ getText d r .aud2g = b "COMP128v1,beefedcafefaceacedaddeddecadefee"
      ∧ getText d r .aud3g = b "MILENAGE,c01ffedc1cadaeac1d1f1edacac1ab0a,OPC,fb2a3d1b360f599abab99db8669f8308,5" := by
  refine ⟨(runHist {} exHist).subs.head (by decide +kernel), by decide +kernel,
    .inr (.inl ⟨b "1", by decide +kernel, by decide +kernel⟩), .inl (by decide +kernel),
    .inr (.inr ⟨b "01", 1, by decide +kernel, ⟨by decide +kernel, by decide +kernel, by decide +kernel⟩, by decide +kernel⟩),
    by decide +kernel, by decide +kernel⟩

example : exec (get (b "by-msisdn-1") .info) (runHist {} exHist) []
    = (some (.reply (b "\nid\t1\nimsi\t901990000000001\nmsisdn\t1\nnam_cs\t1\nnam_ps\t1\nvlr_number\tMSC-1\nms_purged_cs\t0\nms_purged_ps\t0\nperiodic_lu_timer\t0\nperiodic_rau_tau_timer\t0\nlmsi\t00000000")),
      runHist {} exHist) := by decide +kernel

end Verif.Prov.Props
