import Verif.Db.Keys
/-!
# Property theorems C01 – C11 (subscriber database)

`runHist {} hist` ranges over every reachable database: `hist` is an arbitrary
list of API calls with arbitrary arguments, each with an arbitrary script of
statement fates (success, I/O failure, process death), starting from the empty
database.
-/
namespace Verif.Db.Props
open Verif Verif.Db

/-! ## Non-vacuity: a concrete reachable database used in the examples -/

/-- Two subscribers, keys, an MSISDN, one VLR. -/
def exHist : List (Op × Script) :=
  [(.create (b "001010000000001") true true, []),
   (.create (b "001010000000002") true false, []),
   (.msisdn (b "001010000000001") (some (b "1234")), []),
   (.aud 1 (.gsm .comp128v1 (b "00112233445566778899aabbccddeeff")), []),
   (.aud 1 (.umts .milenage (b "00112233445566778899aabbccddeeff")
      (b "ffeeddccbbaa99887766554433221100") true 5), []),
   (.lu 1 (b "MSC-1") false none (some 1000), []),
   (.ind (b "MSC-1" ++ [0]), []),
   (.imei (b "001010000000002") (some (b "12345678901234")), [.ioerr])]

def exDb : Db := runHist {} exHist

theorem unique_empty : Unique {} := by constructor <;> simp

/-- Every reachable database has unique identities (C01), used below. -/
theorem reachable_unique (hist : List (Op × Script)) : Unique (runHist {} hist) :=
  runHist_keeps (fun op => unique_op op) hist {} unique_empty

/-! ## C01 -/

/-- C01: in every reachable database identities are unique. -/
theorem c01_identities_unique (hist : List (Op × Script)) : Unique (runHist {} hist) :=
  reachable_unique hist

/-- C01, from any database that already satisfies it (e.g. an existing file). -/
theorem c01_identities_stay_unique (d : Db) (hd : Unique d) (hist : List (Op × Script)) :
    Unique (runHist d hist) :=
  runHist_keeps (fun op => unique_op op) hist d hd

-- non-trivial: two subscribers, keys and an index are actually stored
example : exDb.subs.length = 2 ∧ exDb.auc2.length = 1 ∧ exDb.auc3.length = 1
    ∧ exDb.inds.length = 1 := by decide +kernel
-- and a second subscriber cannot take the first one's MSISDN or IMSI
example : (exec (updateMsisdn (b "001010000000002") (some (b "1234"))) exDb []).1 = some (-EIO) := by
  decide +kernel
example : (exec (subscrCreate (b "001010000000002") true true) exDb []).1 = some (-EEXIST) := by
  decide +kernel

/-! ## C02 -/

/-- C02 for create. -/
theorem c02_create (d : Db) (s : Script) (imsi : Bytes) (cs ps : Bool) :
    let res := exec (subscrCreate imsi cs ps) d s
    (res.1 = some 0 ↔ Digits 6 15 imsi ∧ ¬ Known d imsi ∧ firstFate s = .ok)
    ∧ (res.1 = some 0 → ∃ id, (∀ r ∈ d.subs, r.id ≠ id)
        ∧ res.2 = { d with subs := d.subs ++ [{ id := id, imsi := imsi, namCs := cs, namPs := ps }] })
    ∧ (res.1 ≠ some 0 → res.2 = d)
    ∧ (res.1 = some (-22) ↔ ¬ Digits 6 15 imsi)
    ∧ (res.1 = some (-17) ↔ Digits 6 15 imsi ∧ firstFate s = .ok ∧ Known d imsi)
    ∧ (res.1 = some (-5) ↔ Digits 6 15 imsi ∧ firstFate s = .ioerr)
    ∧ (res.1 = none ↔ Digits 6 15 imsi ∧ firstFate s = .crash) := by
  intro res
  have hres : res = exec (subscrCreate imsi cs ps) d s := rfl
  clear_value res
  unfold subscrCreate at hres
  by_cases hv : imsiValid imsi = true
  · have hv' : Digits 6 15 imsi := isNDigits_spec.mp hv
    simp only [hv, Bool.not_true, Bool.false_eq_true, ↓reduceIte, exec_bind_stmt] at hres
    by_cases hk : Known d imsi
    · have ha := (any_iff_known d imsi).mpr hk
      have hs : sqlCreate imsi cs ps d = (.unique, d) := by simp only [sqlCreate, ha, if_true]
      rcases s with _ | ⟨_ | _ | _, s⟩ <;>
        simp only [hs, exec_pure, firstFate, List.headD] at hres ⊢ <;> subst hres <;>
        simp [hv', hk, firstFate]
    · have ha : ¬ d.subs.any (fun r => r.imsi == imsi) = true := by
        rw [any_iff_known]; exact hk
      have hs : sqlCreate imsi cs ps d = (.done 1, { d with subs := d.subs ++
          [{ id := newId (d.subs.map (·.id)), imsi := imsi, namCs := cs, namPs := ps }] }) := by
        simp only [sqlCreate, ha]; rfl
      have hid : ∀ r ∈ d.subs, ¬ r.id = newId (d.subs.map (·.id)) := by
        intro r hr h
        exact newId_fresh (d.subs.map (·.id)) (h ▸ List.mem_map_of_mem (f := (·.id)) hr)
      rcases s with _ | ⟨_ | _ | _, s⟩ <;>
        simp only [hs, exec_pure, firstFate, List.headD] at hres ⊢ <;> subst hres <;>
        simp [hv', hk, firstFate] <;> exact hid
  · have hv' : ¬ Digits 6 15 imsi := fun h => hv (isNDigits_spec.mpr h)
    simp only [hv, Bool.not_false, ↓reduceIte, exec_pure] at hres
    subst hres
    simp [hv']

/-- C02 for setting an MSISDN. -/
theorem c02_set_msisdn (hist : List (Op × Script)) (s : Script) (imsi m : Bytes) :
    let d := runHist {} hist
    Contract (Digits 1 15 m) (Known d imsi) (∀ r ∈ d.subs, r.imsi ≠ imsi → r.msisdn ≠ some m)
      (firstFate s) d (withRow d imsi (fun r => { r with msisdn := some m }))
      (exec (updateMsisdn imsi (some m)) d s) :=
  contract_msisdn _ (reachable_unique hist) s imsi m

/-- C02 for clearing the MSISDN. -/
theorem c02_clear_msisdn (hist : List (Op × Script)) (s : Script) (imsi : Bytes) :
    let d := runHist {} hist
    Contract True (Known d imsi) True (firstFate s) d
      (withRow d imsi (fun r => { r with msisdn := none })) (exec (updateMsisdn imsi none) d s) :=
  contract_delMsisdn _ (reachable_unique hist) s imsi

/-- C02 for setting or clearing the IMEI. -/
theorem c02_imei (hist : List (Op × Script)) (s : Script) (imsi : Bytes) (v : Option Bytes) :
    let d := runHist {} hist
    Contract (∀ x, v = some x → Digits 14 14 x) (Known d imsi) True (firstFate s) d
      (withRow d imsi (fun r => { r with imei := v })) (exec (updateImei imsi v) d s) :=
  contract_imei _ (reachable_unique hist) s imsi v

/-- C02 for enabling/disabling a domain. -/
theorem c02_nam (hist : List (Op × Script)) (s : Script) (imsi : Bytes) (v ps : Bool) :
    let d := runHist {} hist
    Contract True (Known d imsi) True (firstFate s) d
      (withRow d imsi (fun r => if ps then { r with namPs := v } else { r with namCs := v }))
      (exec (subscrNam imsi v ps) d s) :=
  contract_nam _ (reachable_unique hist) s imsi v ps

/-- C02 for purge. -/
theorem c02_purge (hist : List (Op × Script)) (s : Script) (imsi : Bytes) (v ps : Bool) :
    let d := runHist {} hist
    Contract True (Known d imsi) True (firstFate s) d
      (withRow d imsi (fun r => if ps then { r with purgedPs := v } else { r with purgedCs := v }))
      (exec (subscrPurge imsi v ps) d s) :=
  contract_purge _ (reachable_unique hist) s imsi v ps

-- non-trivial: a success and each failure occur
example : (exec (updateMsisdn (b "001010000000002") (some (b "99"))) exDb []).1 = some 0 := by decide +kernel
example : (exec (updateMsisdn (b "001010000000009") (some (b "99"))) exDb []).1 = some (-ENOENT) := by
  decide +kernel
example : (exec (updateMsisdn (b "001010000000002") (some (b "9x"))) exDb []).1 = some (-EINVAL) := by
  decide +kernel
example : (exec (subscrNam (b "001010000000002") true true) exDb [.ioerr]).1 = some (-EIO) := by decide +kernel

/-! ## C03 -/

/-- C03: every history of calls, with every failure and crash, is a run of the
abstract store with the same return codes. -/
theorem c03_refines_map (hist : List (Op × Script)) :
    Run (fun _ => none) (trace {} hist) (abs (runHist {} hist)) :=
  run_hist hist {} unique_empty

/-- C03: a lookup by IMSI on a working database reads the abstract store. -/
theorem c03_lookup (hist : List (Op × Script)) (imsi : Bytes) (s : Script) :
    firstFate s = .ok →
    exec (getByImsi imsi) (runHist {} hist) s =
      (match abs (runHist {} hist) imsi with
       | some r => (some (0, some r), runHist {} hist)
       | none => (some (-ENOENT, none), runHist {} hist)) := by
  intro hs
  simp only [getByImsi, dbSel, exec_bind_stmt, sqlSel, abs]
  rcases s with _ | ⟨_ | _ | _, s⟩
  · cases List.find? (fun r => r.imsi == imsi) (runHist {} hist).subs <;> rfl
  · cases List.find? (fun r => r.imsi == imsi) (runHist {} hist).subs <;> rfl
  · simp [firstFate] at hs
  · simp [firstFate] at hs

-- non-trivial: the store of the example database has two entries
example : (abs exDb (b "001010000000001")).isSome ∧ (abs exDb (b "001010000000002")).isSome
    ∧ abs exDb (b "001010000000003") = none := by decide +kernel
example : ((abs exDb (b "001010000000001")).bind (·.vlr)) = some (b "MSC-1") := by decide +kernel

/-! ## C04 -/

/-- C04: whatever happens to the statements of a call, everything not addressed
by it is unchanged. -/
theorem c04_frame (d : Db) (op : Op) (s : Script) : OthersSame op d (exec op.run d s).2 :=
  (othersSame_op op).exec d s

/-- C04 in terms of lookups: a call naming another subscriber does not change what
is stored under `imsi`, nor the keys of `id`. -/
theorem c04_lookup_unaffected (hist : List (Op × Script)) (op : Op) (s : Script) (r : SubRow)
    (hr : abs (runHist {} hist) r.imsi = some r) (ho : op.ownsSub r = false) :
    abs (exec op.run (runHist {} hist) s).2 r.imsi = some r := by
  have hf := c04_frame (runHist {} hist) op s
  have hu : Unique (exec op.run (runHist {} hist) s).2 :=
    (unique_op op).exec _ s (reachable_unique hist)
  have hm : r ∈ (runHist {} hist).subs.filter (fun r => !op.ownsSub r) :=
    List.mem_filter.mpr ⟨(abs_mem hr).1, by simp [ho]⟩
  rw [← hf.subs] at hm
  exact abs_of_mem hu (List.mem_filter.mp hm).1

example : (abs exDb (b "001010000000001")).any (fun r => !(Op.delete 2).ownsSub r) = true
    ∧ (exec (subscrDelete 2) exDb [.ok, .crash]).1 = none := by decide +kernel

/-! ## C05 -/

/-- C05: a lookup by any key, on a working database, finds a subscriber iff one has
that key, and returns it. -/
theorem c05_lookup (d : Db) (cond : SubRow → Bool) (s : Script) (hs : firstFate s = .ok) :
    (∃ r, r ∈ d.subs ∧ cond r = true ∧ exec (dbSel cond) d s = (some (0, some r), d))
    ∨ ((∀ r ∈ d.subs, cond r = false) ∧ exec (dbSel cond) d s = (some (-ENOENT, none), d)) := by
  simp only [dbSel, exec_bind_stmt, sqlSel]
  have : (∃ r, r ∈ d.subs ∧ cond r = true ∧ d.subs.find? cond = some r)
      ∨ ((∀ r ∈ d.subs, cond r = false) ∧ d.subs.find? cond = none) := by
    cases hf : d.subs.find? cond with
    | some r => left; exact ⟨r, List.mem_of_find?_eq_some hf, List.find?_some hf, rfl⟩
    | none =>
      right
      exact ⟨fun r hr => by simpa using List.find?_eq_none.mp hf r hr, rfl⟩
  rcases this with ⟨r, h1, h2, h3⟩ | ⟨h1, h3⟩
  · left
    refine ⟨r, h1, h2, ?_⟩
    rw [h3]
    rcases s with _ | ⟨_ | _ | _, s⟩
    · rfl
    · rfl
    · simp [firstFate] at hs
    · simp [firstFate] at hs
  · right
    refine ⟨h1, ?_⟩
    rw [h3]
    rcases s with _ | ⟨_ | _ | _, s⟩
    · rfl
    · rfl
    · simp [firstFate] at hs
    · simp [firstFate] at hs

/-- C05: on a failing database a lookup reports -EIO and returns nothing. -/
theorem c05_lookup_error (d : Db) (cond : SubRow → Bool) (s : Script) (hs : firstFate s = .ioerr) :
    exec (dbSel cond) d s = (some (-EIO, none), d) := by
  simp only [dbSel, exec_bind_stmt]
  rcases s with _ | ⟨_ | _ | _, s⟩
  · simp [firstFate] at hs
  · simp [firstFate] at hs
  · rfl
  · simp [firstFate] at hs

/-- C05: in a reachable database at most one subscriber matches an id, an IMSI or
an MSISDN. -/
theorem c05_unambiguous (hist : List (Op × Script)) (r r' : SubRow)
    (hr : r ∈ (runHist {} hist).subs) (hr' : r' ∈ (runHist {} hist).subs)
    (h : r.id = r'.id ∨ r.imsi = r'.imsi ∨ (∃ m, r.msisdn = some m ∧ r'.msisdn = some m)) :
    r = r' := by
  have hU := reachable_unique hist
  rcases h with h | h | ⟨m, h1, h2⟩
  · exact eq_of_nodup_map hU.ids hr hr' h
  · exact eq_of_nodup_map hU.imsis hr hr' h
  · exact eq_of_nodup_filterMap hU.msisdns hr hr' h1 h2

/-- C05, spelled out: lookup by IMSI on a working database. -/
theorem c05_by_imsi (hist : List (Op × Script)) (imsi : Bytes) (s : Script) (hs : firstFate s = .ok) :
    let d := runHist {} hist
    (∀ r, exec (getByImsi imsi) d s = (some (0, some r), d) ↔ r ∈ d.subs ∧ r.imsi = imsi)
    ∧ (exec (getByImsi imsi) d s = (some (-2, none), d) ↔ ¬ ∃ r ∈ d.subs, r.imsi = imsi) := by
  intro d
  rcases c05_lookup d (·.imsi == imsi) s hs with ⟨r, h1, h2, h3⟩ | ⟨h1, h3⟩
  · have h2 : r.imsi = imsi := by simpa using h2
    simp only [getByImsi, h3]
    refine ⟨fun r' => ⟨fun h => ?_, fun h => ?_⟩, ⟨fun h => by simp at h, fun h => absurd ⟨r, h1, h2⟩ h⟩⟩
    · simp only [Prod.mk.injEq, Option.some.injEq, true_and, and_true] at h; rw [← h]; exact ⟨h1, h2⟩
    · rw [c05_unambiguous hist r' r h.1 h1 (.inr (.inl (h.2.trans h2.symm)))]
  · have h1 : ∀ r ∈ d.subs, r.imsi ≠ imsi := fun r hr => by simpa using h1 r hr
    simp only [getByImsi, h3]
    exact ⟨fun r' => ⟨fun h => by simp at h, fun h => absurd h.2 (h1 r' h.1)⟩,
      ⟨fun _ ⟨r, hr, he⟩ => h1 r hr he, fun _ => trivial⟩⟩

/-- C05, spelled out: lookup by MSISDN on a working database. -/
theorem c05_by_msisdn (hist : List (Op × Script)) (m : Bytes) (s : Script) (hs : firstFate s = .ok) :
    let d := runHist {} hist
    (∀ r, exec (getByMsisdn m) d s = (some (0, some r), d) ↔ r ∈ d.subs ∧ r.msisdn = some m)
    ∧ (exec (getByMsisdn m) d s = (some (-2, none), d) ↔ ¬ ∃ r ∈ d.subs, r.msisdn = some m) := by
  intro d
  rcases c05_lookup d (·.msisdn == some m) s hs with ⟨r, h1, h2, h3⟩ | ⟨h1, h3⟩
  · have h2 : r.msisdn = some m := by simpa using h2
    simp only [getByMsisdn, h3]
    refine ⟨fun r' => ⟨fun h => ?_, fun h => ?_⟩, ⟨fun h => by simp at h, fun h => absurd ⟨r, h1, h2⟩ h⟩⟩
    · simp only [Prod.mk.injEq, Option.some.injEq, true_and, and_true] at h; rw [← h]; exact ⟨h1, h2⟩
    · rw [c05_unambiguous hist r' r h.1 h1 (.inr (.inr ⟨m, h.2, h2⟩))]
  · have h1 : ∀ r ∈ d.subs, r.msisdn ≠ some m := fun r hr => by simpa using h1 r hr
    simp only [getByMsisdn, h3]
    exact ⟨fun r' => ⟨fun h => by simp at h, fun h => absurd h.2 (h1 r' h.1)⟩,
      ⟨fun _ ⟨r, hr, he⟩ => h1 r hr he, fun _ => trivial⟩⟩

/-- C05, spelled out: lookup by id on a working database. -/
theorem c05_by_id (hist : List (Op × Script)) (id : Int) (s : Script) (hs : firstFate s = .ok) :
    let d := runHist {} hist
    (∀ r, exec (getById id) d s = (some (0, some r), d) ↔ r ∈ d.subs ∧ r.id = id)
    ∧ (exec (getById id) d s = (some (-2, none), d) ↔ ¬ ∃ r ∈ d.subs, r.id = id) := by
  intro d
  rcases c05_lookup d (·.id == id) s hs with ⟨r, h1, h2, h3⟩ | ⟨h1, h3⟩
  · have h2 : r.id = id := by simpa using h2
    simp only [getById, h3]
    refine ⟨fun r' => ⟨fun h => ?_, fun h => ?_⟩, ⟨fun h => by simp at h, fun h => absurd ⟨r, h1, h2⟩ h⟩⟩
    · simp only [Prod.mk.injEq, Option.some.injEq, true_and, and_true] at h; rw [← h]; exact ⟨h1, h2⟩
    · rw [c05_unambiguous hist r' r h.1 h1 (.inl (h.2.trans h2.symm))]
  · have h1 : ∀ r ∈ d.subs, r.id ≠ id := fun r hr => by simpa using h1 r hr
    simp only [getById, h3]
    exact ⟨fun r' => ⟨fun h => by simp at h, fun h => absurd h.2 (h1 r' h.1)⟩,
      ⟨fun _ ⟨r, hr, he⟩ => h1 r hr he, fun _ => trivial⟩⟩

/-- C05, spelled out: lookup by IMEI (not unique: some subscriber with it). -/
theorem c05_by_imei (d : Db) (i : Bytes) (s : Script) (hs : firstFate s = .ok) :
    (∀ r, exec (getByImei i) d s = (some (0, some r), d) → r ∈ d.subs ∧ r.imei = some i)
    ∧ ((∃ r ∈ d.subs, r.imei = some i) → ∃ r, exec (getByImei i) d s = (some (0, some r), d))
    ∧ (exec (getByImei i) d s = (some (-2, none), d) ↔ ¬ ∃ r ∈ d.subs, r.imei = some i) := by
  rcases c05_lookup d (·.imei == some i) s hs with ⟨r, h1, h2, h3⟩ | ⟨h1, h3⟩
  · have h2 : r.imei = some i := by simpa using h2
    simp only [getByImei, h3]
    refine ⟨fun r' h => ?_, fun _ => ⟨r, rfl⟩, ⟨fun h => by simp at h, fun h => absurd ⟨r, h1, h2⟩ h⟩⟩
    simp only [Prod.mk.injEq, Option.some.injEq, true_and, and_true] at h; rw [← h]; exact ⟨h1, h2⟩
  · have h1 : ∀ r ∈ d.subs, r.imei ≠ some i := fun r hr => by simpa using h1 r hr
    simp only [getByImei, h3]
    exact ⟨fun r' h => by simp at h, fun ⟨r, hr, he⟩ => absurd he (h1 r hr),
      ⟨fun _ ⟨r, hr, he⟩ => h1 r hr he, fun _ => trivial⟩⟩

/-- C05: the existence tests agree with the lookups on a working database. -/
theorem c05_exists (d : Db) (x : Bytes) (s : Script) (hs : firstFate s = .ok) :
    (exec (existsByImsi x) d s = (some 0, d) ↔ ∃ r ∈ d.subs, r.imsi = x)
    ∧ (exec (existsByImsi x) d s = (some (-2), d) ↔ ¬ ∃ r ∈ d.subs, r.imsi = x)
    ∧ (exec (existsByMsisdn x) d s = (some 0, d) ↔ ∃ r ∈ d.subs, r.msisdn = some x)
    ∧ (exec (existsByMsisdn x) d s = (some (-2), d) ↔ ¬ ∃ r ∈ d.subs, r.msisdn = some x) := by
  have hA : ∀ c : SubRow → Bool, (∃ r ∈ d.subs, c r = true) ↔ (d.subs.find? c).isSome = true := by
    intro c; rw [List.find?_isSome]
  have e1 : (∃ r ∈ d.subs, r.imsi = x) ↔ (d.subs.find? (·.imsi == x)).isSome = true := by
    rw [← hA]; simp
  have e2 : (∃ r ∈ d.subs, r.msisdn = some x) ↔ (d.subs.find? (·.msisdn == some x)).isSome = true := by
    rw [← hA]; simp
  rw [e1, e2]
  simp only [existsByImsi, existsByMsisdn, exec_bind_stmt, sqlSel]
  have : s = [] ∨ ∃ t, s = .ok :: t := by
    rcases s with _ | ⟨_ | _ | _, s⟩ <;> simp [firstFate] at hs ⊢
  rcases this with rfl | ⟨t, rfl⟩
  all_goals
    cases d.subs.find? (·.imsi == x) <;> cases d.subs.find? (·.msisdn == some x) <;>
      simp [exec_pure]

/-- C05: what the caller gets to see of the identities is exactly what is stored
(the fixed-size buffers never truncate a stored IMSI, MSISDN or IMEI). -/
theorem c05_identities_not_truncated (hist : List (Op × Script)) (r : SubRow)
    (hr : r ∈ (runHist {} hist).subs) :
    (HlrSubscr.ofRow r).imsi = r.imsi
    ∧ (∀ m, r.msisdn = some m → (HlrSubscr.ofRow r).msisdn = m)
    ∧ (∀ i, r.imei = some i → (HlrSubscr.ofRow r).imei = i) := by
  have hI := runHist_keeps (fun op => identitiesOk_op op) hist {} (by intro r hr; simp at hr) r hr
  have hcopy : ∀ lo hi t, hi ≤ 15 → Digits lo hi t → strlcpy 16 t = t := by
    intro lo hi t hh hd
    have hl := hd.2.1
    simp only [strlcpy]
    exact List.take_of_length_le (by omega)
  refine ⟨hcopy 6 15 _ (by omega) hI.1, ?_, ?_⟩
  · intro m hm
    simp only [HlrSubscr.ofRow, hm, Option.getD_some]
    exact hcopy 1 15 _ (by omega) (hI.2.1 m hm)
  · intro i hi
    simp only [HlrSubscr.ofRow, hi, Option.getD_some]
    exact hcopy 14 14 _ (by omega) (hI.2.2 i hi)

/-- The existence tests do not report a database failure as documented (-EIO) but
as a positive number. -/
theorem c05_exists_error_code (d : Db) (x : Bytes) (s : Script) (hs : firstFate s = .ioerr) :
    ∃ rc : Int, 0 < rc ∧ exec (existsByImsi x) d s = (some rc, d) := by
  refine ⟨SQLITE_IOERR, by decide, ?_⟩
  simp only [existsByImsi, exec_bind_stmt]
  rcases s with _ | ⟨_ | _ | _, s⟩ <;> simp [firstFate] at hs
  rfl

example : ((exec (getByMsisdn (b "1234")) exDb []).1.map (fun x => x.2.map (·.imsi)))
    = some (some (b "001010000000001")) := by decide +kernel

/-! ## C06 -/

/-- C06 is violated: a delete that meets an I/O error after its first statement
reports success and leaves the keys behind, and the next subscriber created (a
different IMSI) gets the same id and thereby the old keys. -/
theorem c06_violated_ioerr :
    let d0 := runHist {} [(.create (b "001010000000001") true true, []),
      (.aud 1 (.gsm .comp128v1 (b "00112233445566778899aabbccddeeff")), [])]
    let del := exec (subscrDelete 1) d0 [.ok, .ioerr]
    let d1 := runHist del.2 [(.create (b "001010000000002") true true, [])]
    del.1 = some 0 ∧ (abs del.2 (b "001010000000001")) = none
    ∧ (abs d1 (b "001010000000002")).any (fun r => (key2 d1 r.id).isSome) = true := by decide +kernel

/-- C06 is violated: the same by a crash between the statements. -/
theorem c06_violated_crash :
    let d0 := runHist {} [(.create (b "001010000000001") true true, []),
      (.aud 1 (.gsm .comp128v1 (b "00112233445566778899aabbccddeeff")), [])]
    let d1 := runHist d0 [(.delete 1, [.ok, .crash]), (.create (b "001010000000002") true true, [])]
    (abs d1 (b "001010000000002")).any (fun r => (key2 d1 r.id).isSome) = true := by
  decide +kernel

/-- C06 is violated: keys can be provisioned for an id that does not exist, and
the subscriber that later gets the id inherits them. -/
theorem c06_violated_unknown_id :
    let d1 := runHist {} [(.aud 1 (.gsm .comp128v1 (b "00112233445566778899aabbccddeeff")), []),
      (.create (b "001010000000002") true true, [])]
    (abs d1 (b "001010000000002")).any (fun r => (key2 d1 r.id).isSome) = true := by
  decide +kernel

/-- C06, proved part: a delete that meets no database failure removes the
subscriber and every key record of its id (missing: failures inside the delete). -/
theorem c06_delete_removes_keys_partial (d : Db) (s : Script) (hs : ∀ f ∈ s, f = .ok) (id : Int) :
    ∃ rc, (exec (subscrDelete id) d s).1 = some rc
    ∧ (∀ r ∈ (exec (subscrDelete id) d s).2.subs, r.id ≠ id)
    ∧ key2 (exec (subscrDelete id) d s).2 id = none
    ∧ key3 (exec (subscrDelete id) d s).2 id = none := by
  obtain ⟨rc, h⟩ := exec_delete_ok d s hs id
  refine ⟨rc, ?_⟩
  rw [h]
  simp [key2, key3]

/-- C06, proved part: in every history in which deletes meet no database failure
and keys are only provisioned for existing subscribers, every key record belongs
to an existing subscriber, and a newly created subscriber has no keys. -/
theorem c06_no_inherited_keys_partial (hist : List (Op × Script)) (hc : CleanHist {} hist) :
    NoOrphanKeys (runHist {} hist)
    ∧ ∀ imsi cs ps s r,
        (exec (subscrCreate imsi cs ps) (runHist {} hist) s).1 = some 0 →
        abs (exec (subscrCreate imsi cs ps) (runHist {} hist) s).2 imsi = some r →
        key2 (exec (subscrCreate imsi cs ps) (runHist {} hist) s).2 r.id = none
        ∧ key3 (exec (subscrCreate imsi cs ps) (runHist {} hist) s).2 r.id = none := by
  have hno : NoOrphanKeys (runHist {} hist) :=
    cleanHist_noOrphan hist {} (by constructor <;> simp) hc
  refine ⟨hno, ?_⟩
  intro imsi cs ps s r h0 hr
  obtain ⟨hsucc, heff, _⟩ := c02_create (runHist {} hist) s imsi cs ps
  obtain ⟨id, hid, hdb⟩ := heff h0
  have hnk := (hsucc.mp h0).2.1
  rw [hdb] at hr ⊢
  have hrid : r.id = id := by
    have hm := abs_mem hr
    rcases List.mem_append.mp hm.1 with h | h
    · exact absurd ⟨r, h, hm.2⟩ hnk
    · rw [List.mem_singleton.mp h]
  rw [hrid]
  constructor
  · simp only [key2]
    rw [List.find?_eq_none]
    intro a ha hai
    obtain ⟨r', hr', hid'⟩ := hno.1 a ha
    exact hid r' hr' (hid'.trans (by simpa using hai))
  · simp only [key3]
    rw [List.find?_eq_none]
    intro a ha hai
    obtain ⟨r', hr', hid'⟩ := hno.2 a ha
    exact hid r' hr' (hid'.trans (by simpa using hai))

-- the hypotheses are met by a history with keys, a failing non-delete call and a delete
example : CleanHist {} (exHist ++ [(.delete 1, [.ok, .ok]), (.create (b "262010000000001") true true, [])]) := by
  simp only [exHist, List.cons_append, List.nil_append, CleanHist]
  refine ⟨trivial, trivial, trivial, ⟨_, .head _, rfl⟩, ⟨_, .head _, rfl⟩, trivial, trivial,
    trivial, by decide +kernel, trivial, trivial⟩

/-! ## C07 -/

/-- C07: every stored key record is well-formed, in every history. -/
theorem c07_keys_wellformed (hist : List (Op × Script)) : KeysOk (runHist {} hist) :=
  runHist_keeps (fun op => keysOk_op op) hist {} (by constructor <;> simp)

/-- C07: a malformed key request is refused with -EINVAL and changes nothing;
a well-formed one is not refused this way. -/
theorem c07_malformed_refused (hist : List (Op × Script)) (id : Int) (a : AudStr) (s : Script) :
    let d := runHist {} hist
    (¬ KeyReqOk a → exec (updateAud id a) d s = (some (-EINVAL), d))
    ∧ (KeyReqOk a → (exec (updateAud id a) d s).1 ≠ some (-EINVAL)) := by
  intro d
  have hins2 : ∀ x : Auc2, ∀ t d1, (exec (do pure (audAfterInsert (← stmt (sqlInsAuc2 x) .error)) : DbM Int)
      d1 t).1 ≠ some (-EINVAL) := by
    intro x t d1
    rw [exec_bind_stmt]
    rcases t with _ | ⟨_ | _ | _, t⟩ <;> simp only [exec_pure]
    · rcases (sqlInsAuc2 x d1).1 with _ | _ | _ <;> simp [audAfterInsert]
    · rcases (sqlInsAuc2 x d1).1 with _ | _ | _ <;> simp [audAfterInsert]
    · simp [audAfterInsert]
    · simp
  have hins3 : ∀ x : Auc3, ∀ t d1, (exec (do pure (audAfterInsert (← stmt (sqlInsAuc3 x) .error)) : DbM Int)
      d1 t).1 ≠ some (-EINVAL) := by
    intro x t d1
    rw [exec_bind_stmt]
    rcases t with _ | ⟨_ | _ | _, t⟩ <;> simp only [exec_pure]
    · rcases (sqlInsAuc3 x d1).1 with _ | _ | _ <;> simp [audAfterInsert]
    · rcases (sqlInsAuc3 x d1).1 with _ | _ | _ <;> simp [audAfterInsert]
    · simp [audAfterInsert]
    · simp
  have hdel : ∀ (isn : Bool) (w : WRes) rc, audAfterDelete isn w = .inl rc → rc ≠ -EINVAL := by
    intro isn w rc h
    rcases w with n | _ | _
    · rcases n with _ | _ | n <;> cases isn <;> simp [audAfterDelete] at h <;> simp [← h]
    · simp [audAfterDelete] at h; simp [← h]
    · simp [audAfterDelete] at h; simp [← h]
  cases a with
  | other => exact ⟨fun _ => rfl, fun h => absurd h (by simp [KeyReqOk])⟩
  | gsm al k =>
    rw [← aud2Valid_iff]
    constructor
    · intro hv
      simp only [updateAud, hv]
      rfl
    · intro hv
      have key : ∀ w d1 t, (exec (match audAfterDelete (al == .none) w with
          | .inl rc => (pure rc : DbM Int)
          | .inr () => do
            pure (audAfterInsert (← stmt (sqlInsAuc2 { id := id, algo := al, ki := k }) .error)))
          d1 t).1 ≠ some (-EINVAL) := by
        intro w d1 t
        cases ha : audAfterDelete (al == .none) w with
        | inl rc => intro h; exact hdel _ _ _ ha (by simpa [exec_pure] using h)
        | inr u => exact hins2 _ _ _
      simp only [updateAud, hv, Bool.not_true, Bool.false_eq_true, if_false, exec_bind_stmt]
      rcases s with _ | ⟨_ | _ | _, s⟩
      · exact key _ _ _
      · exact key _ _ _
      · exact key .error d s
      · simp
  | umts al k o p bl =>
    rw [← aud3Valid_iff]
    constructor
    · intro hv
      simp only [updateAud, hv]
      rfl
    · intro hv
      have key : ∀ w d1 t, (exec (match audAfterDelete (al == .none) w with
          | .inl rc => (pure rc : DbM Int)
          | .inr () => do
            pure (audAfterInsert (← stmt (sqlInsAuc3 (mkAuc3 id al k o p bl)) .error)))
          d1 t).1 ≠ some (-EINVAL) := by
        intro w d1 t
        cases ha : audAfterDelete (al == .none) w with
        | inl rc => intro h; exact hdel _ _ _ ha (by simpa [exec_pure] using h)
        | inr u => exact hins3 _ _ _
      simp only [updateAud, hv, Bool.not_true, Bool.false_eq_true, if_false, exec_bind_stmt]
      rcases s with _ | ⟨_ | _ | _, s⟩
      · exact key _ _ _
      · exact key _ _ _
      · exact key .error d s
      · simp

example : KeyReqOk (.gsm .comp128v1 (b "00112233445566778899aabbccddeeff"))
    ∧ ¬ KeyReqOk (.gsm .milenage (b "00112233445566778899aabbccddeeff"))
    ∧ ¬ KeyReqOk (.gsm .comp128v1 (b "0011")) := by
  rw [← aud2Valid_iff, ← aud2Valid_iff, ← aud2Valid_iff]; decide +kernel

/-- C07, TUAK: although the VTY offers it, a request for TUAK keys is always
refused by the database layer. -/
theorem c07_tuak_refused (d : Db) (s : Script) (id : Int) (k o : Bytes) (p : Bool) (bl : Nat) :
    exec (updateAud id (.umts .tuak k o p bl)) d s = (some (-EINVAL), d) := rfl

/-! ## C08 -/

/-- The full C08 statement for 2G keys, which is false. -/
def KeyReplaceAtomic2 : Prop := ∀ hist id al k s,
  let d := runHist {} hist
  let d' := (exec (updateAud id (.gsm al k)) d s).2
  al ≠ .none → KeyReqOk (.gsm al k) →
    key2 d' id = key2 d id ∨ key2 d' id = some { id := id, algo := al, ki := k }

/-- C08 is violated: an I/O error (or crash) after the DELETE leaves the
subscriber without keys. -/
theorem c08_violated : ¬ KeyReplaceAtomic2 := by
  intro h
  have := h exHist 1 .xor2g (b "ffffffffffffffffffffffffffffffff") [.ok, .ioerr]
    (by decide +kernel) ((aud2Valid_iff _ _).mp (by decide +kernel))
  revert this
  decide +kernel

/-- C08 is violated for 3G keys by a crash between the two statements. -/
theorem c08_violated_3g :
    let d := runHist {} exHist
    let d' := (exec (updateAud 1 (.umts .milenage (b "ffffffffffffffffffffffffffffffff")
      (b "ffffffffffffffffffffffffffffffff") false 5)) d [.ok, .crash]).2
    (key3 d 1).isSome = true ∧ key3 d' 1 = none := by decide +kernel

/-- C08, proved part, 2G: success means the new keys are installed; without
database failure the call succeeds; at every failure point the keys are the old
ones, none, or the new ones (missing: excluding "none"). -/
theorem c08_key_replace_2g_partial (hist : List (Op × Script)) (s : Script) (id : Int) (al : Algo)
    (k : Bytes) (hv : KeyReqOk (.gsm al k)) (hn : al ≠ .none) :
    let d := runHist {} hist
    let res := exec (updateAud id (.gsm al k)) d s
    let new : Auc2 := { id := id, algo := al, ki := k }
    (res.1 = some 0 → key2 res.2 id = some new)
    ∧ ((∀ f ∈ s, f = .ok) → res.1 = some 0)
    ∧ (firstFate s ≠ .ok → res.2 = d ∧ res.1 ≠ some 0)
    ∧ (key2 res.2 id = key2 d id ∨ key2 res.2 id = none ∨ key2 res.2 id = some new) := by
  intro d res new
  have hnew := key2_new d new
  have hnone := key2_filter d id
  rcases exec_aud2 d (reachable_unique hist) s id al k ((aud2Valid_iff _ _).mpr hv) hn with
    ⟨hf, h⟩ | ⟨hf, h⟩ | ⟨hf, hf2, h⟩ | ⟨hf, hf2, h⟩ | ⟨hf, hf2, h⟩
  all_goals (have hr : res = _ := h)
  · rw [hr]
    refine ⟨by simp, ?_, fun _ => ⟨rfl, by simp⟩, .inl rfl⟩
    intro hall
    rcases s with _ | ⟨x, s⟩
    · simp [firstFate] at hf
    · simp only [firstFate, List.headD] at hf; have := hall x (by simp); rw [hf] at this; simp at this
  · rw [hr]
    refine ⟨by simp, ?_, fun _ => ⟨rfl, by simp⟩, .inl rfl⟩
    intro hall
    rcases s with _ | ⟨x, s⟩
    · simp [firstFate] at hf
    · simp only [firstFate, List.headD] at hf; have := hall x (by simp); rw [hf] at this; simp at this
  · rw [hr]
    refine ⟨by simp, ?_, fun h => absurd hf h, .inr (.inl hnone)⟩
    intro hall
    rcases s with _ | ⟨x, _ | ⟨y, s⟩⟩
    · simp [firstFate] at hf2
    · simp [firstFate] at hf2
    · simp only [firstFate, List.tail, List.headD] at hf2; have := hall y (by simp); rw [hf2] at this; simp at this
  · rw [hr]
    refine ⟨by simp, ?_, fun h => absurd hf h, .inr (.inl hnone)⟩
    intro hall
    rcases s with _ | ⟨x, _ | ⟨y, s⟩⟩
    · simp [firstFate] at hf2
    · simp [firstFate] at hf2
    · simp only [firstFate, List.tail, List.headD] at hf2; have := hall y (by simp); rw [hf2] at this; simp at this
  · rw [hr]
    exact ⟨fun _ => hnew, fun _ => rfl, fun h => absurd hf h, .inr (.inr hnew)⟩

/-- C08, proved part, 3G; the new record starts at SQN 0. -/
theorem c08_key_replace_3g_partial (hist : List (Op × Script)) (s : Script) (id : Int) (al : Algo)
    (k o : Bytes) (isOp : Bool) (bl : Nat) (hv : KeyReqOk (.umts al k o isOp bl)) (hn : al ≠ .none) :
    let d := runHist {} hist
    let res := exec (updateAud id (.umts al k o isOp bl)) d s
    let new : Auc3 := { id := id, algo := al, k := k, op := if isOp then some o else none
                        opc := if isOp then none else some o, sqn := 0, indBitlen := bl }
    (res.1 = some 0 → key3 res.2 id = some new)
    ∧ ((∀ f ∈ s, f = .ok) → res.1 = some 0)
    ∧ (firstFate s ≠ .ok → res.2 = d ∧ res.1 ≠ some 0)
    ∧ (key3 res.2 id = key3 d id ∨ key3 res.2 id = none ∨ key3 res.2 id = some new) := by
  intro d res new
  have hnew := key3_new d new
  have hnone := key3_filter d id
  rcases exec_aud3 d (reachable_unique hist) s id al k o isOp bl ((aud3Valid_iff ..).mpr hv) hn with
    ⟨hf, h⟩ | ⟨hf, h⟩ | ⟨hf, hf2, h⟩ | ⟨hf, hf2, h⟩ | ⟨hf, hf2, h⟩
  all_goals (have hr : res = _ := h)
  · rw [hr]
    refine ⟨by simp, ?_, fun _ => ⟨rfl, by simp⟩, .inl rfl⟩
    intro hall
    rcases s with _ | ⟨x, s⟩
    · simp [firstFate] at hf
    · simp only [firstFate, List.headD] at hf; have := hall x (by simp); rw [hf] at this; simp at this
  · rw [hr]
    refine ⟨by simp, ?_, fun _ => ⟨rfl, by simp⟩, .inl rfl⟩
    intro hall
    rcases s with _ | ⟨x, s⟩
    · simp [firstFate] at hf
    · simp only [firstFate, List.headD] at hf; have := hall x (by simp); rw [hf] at this; simp at this
  · rw [hr]
    refine ⟨by simp, ?_, fun h => absurd hf h, .inr (.inl hnone)⟩
    intro hall
    rcases s with _ | ⟨x, _ | ⟨y, s⟩⟩
    · simp [firstFate] at hf2
    · simp [firstFate] at hf2
    · simp only [firstFate, List.tail, List.headD] at hf2; have := hall y (by simp); rw [hf2] at this; simp at this
  · rw [hr]
    refine ⟨by simp, ?_, fun h => absurd hf h, .inr (.inl hnone)⟩
    intro hall
    rcases s with _ | ⟨x, _ | ⟨y, s⟩⟩
    · simp [firstFate] at hf2
    · simp [firstFate] at hf2
    · simp only [firstFate, List.tail, List.headD] at hf2; have := hall y (by simp); rw [hf2] at this; simp at this
  · rw [hr]
    exact ⟨fun _ => hnew, fun _ => rfl, fun h => absurd hf h, .inr (.inr hnew)⟩

/-! ## C09 -/

/-- C09: every stored identity is well-formed, in every history. -/
theorem c09_identities_valid (hist : List (Op × Script)) : IdentitiesOk (runHist {} hist) :=
  runHist_keeps (fun op => identitiesOk_op op) hist {} (by intro r hr; simp at hr)

example : (exec (updateImei (b "001010000000001") (some (b "1234567890123"))) exDb []).1
    = some (-EINVAL) := by decide +kernel

/-! ## C10 -/

/-- C10: once a name got index `i`, every later successful request for the same
name gets `i`, as long as the entry is not removed in between. -/
theorem c10_ind_stable (hist hist' : List (Op × Script)) (raw raw' : Bytes) (s s' : Script)
    (i i' : Nat) (d' d'' : Db)
    (h1 : exec (dbInd raw) (runHist {} hist) s = (some (0, i), d'))
    (hno : ∀ r t, (Op.indDel r, t) ∈ hist' → cstr r ≠ cstr raw)
    (hname : cstr raw' = cstr raw)
    (h2 : exec (dbInd raw') (runHist d' hist') s' = (some (0, i'), d'')) : i' = i := by
  have hi := (dbInd_success h1).2.1
  have keep : ∀ (h : List (Op × Script)) (d : Db), (∀ r t, (Op.indDel r, t) ∈ h → cstr r ≠ cstr raw) →
      indOf d (cstr raw) = some i → indOf (runHist d h) (cstr raw) = some i := by
    intro h
    induction h with
    | nil => exact fun _ _ h => h
    | cons x rest ih =>
      intro d hn hd
      obtain ⟨op, s⟩ := x
      refine ih _ (fun r t ht => hn r t (by simp [ht])) ?_
      exact (keepsInd_op op (cstr raw) i (fun r hr => hn r s (by simp [hr]))).exec d s hd
  have hk := keep hist' d' hno hi
  have h2' := dbInd_success h2
  rw [hname] at h2'
  rcases h2'.2.2 with ⟨h, _⟩ | h
  · rw [hk] at h; exact (Option.some.inj h).symm
  · rw [hk] at h; simp at h

/-- C10: two names that both hold an index hold different ones. -/
theorem c10_ind_distinct (hist : List (Op × Script)) (n n' : Bytes) (i : Nat)
    (h1 : indOf (runHist {} hist) n = some i) (h2 : indOf (runHist {} hist) n' = some i) :
    n = n' := by
  have hU := reachable_unique hist
  unfold indOf at h1 h2
  cases hf : List.find? (fun r => r.vlr == n) (runHist {} hist).inds with
  | none => rw [hf] at h1; simp at h1
  | some x =>
    cases hf' : List.find? (fun r => r.vlr == n') (runHist {} hist).inds with
    | none => rw [hf'] at h2; simp at h2
    | some y =>
      rw [hf] at h1; rw [hf'] at h2
      have hx := List.find?_some hf
      have hy := List.find?_some hf'
      simp only [Option.map_some, Option.some.injEq] at h1 h2
      have hxy : x = y := eq_of_nodup_map hU.inds (List.mem_of_find?_eq_some hf)
        (List.mem_of_find?_eq_some hf') (h1.trans h2.symm)
      have e1 : x.vlr = n := by simpa using hx
      have e2 : y.vlr = n' := by simpa using hy
      rw [← e1, ← e2, hxy]

/-- C10: a successful request stores exactly the index it returns; other names
keep theirs. -/
theorem c10_ind_stored (hist : List (Op × Script)) (raw : Bytes) (s : Script) (i : Nat) (d' : Db)
    (h : exec (dbInd raw) (runHist {} hist) s = (some (0, i), d')) :
    indOf d' (cstr raw) = some i
    ∧ ∀ n j, n ≠ cstr raw → indOf (runHist {} hist) n = some j → indOf d' n = some j ∧ j ≠ i := by
  have hi := (dbInd_success h).2.1
  refine ⟨hi, ?_⟩
  intro n j hn hj
  have hrun : (exec (Op.ind raw).run (runHist {} hist) s).2 = d' := by
    have : (exec (Op.ind raw).run (runHist {} hist) s).2 = (exec (dbInd raw) (runHist {} hist) s).2 := by
      simp only [Op.run, exec, bind_run]
      rcases dbInd raw { db := runHist {} hist, script := s } with ⟨_ | a, w⟩ <;> rfl
    rw [this, h]
  have hk := (keepsInd_op (.ind raw) n j (by simp)).exec (runHist {} hist) s hj
  rw [hrun] at hk
  refine ⟨hk, ?_⟩
  intro hji
  subst hji
  have : d' = runHist {} (hist ++ [(.ind raw, s)]) := by
    rw [← hrun]
    clear h hi hj hk hrun
    generalize hd0 : ({} : Db) = d0
    clear hd0
    induction hist generalizing d0 with
    | nil => rfl
    | cons x rest ih => obtain ⟨op, t⟩ := x; exact ih _
  rw [this] at hk hi
  exact hn (c10_ind_distinct _ _ _ _ hk hi)

/-- C10: on a working database every acceptable name gets an index; a name that is
too short or not NUL-terminated is refused and nothing changes. -/
theorem c10_ind_total (d : Db) (raw : Bytes) (s : Script) :
    ((2 ≤ raw.length ∧ raw.getLast? = some 0) → (∀ f ∈ s, f = .ok) →
      ∃ i d', exec (dbInd raw) d s = (some (0, i), d'))
    ∧ (¬ (2 ≤ raw.length ∧ raw.getLast? = some 0) →
      exec (dbInd raw) d s = (some (-ENOTSUP, 0), d)
      ∧ exec (dbIndDel raw) d s = (some (-ENOTSUP), d)) := by
  have hok : indNameOk raw = true ↔ (2 ≤ raw.length ∧ raw.getLast? = some 0) := by
    simp [indNameOk]
  rw [← hok]
  refine ⟨fun hv hs => dbInd_ok raw d s hs hv, ?_⟩
  intro hv
  simp [dbInd, dbIndDel, hv, exec_pure]

example : exec (dbInd (b "MSC-1" ++ [0])) exDb [] = (some (0, 1), exDb) := by decide +kernel
example : (exec (dbInd (b "MSC-2" ++ [0])) exDb []).1 = some (0, 2) := by decide +kernel

/-! ## C11 -/

/-- C11: success iff the subscriber exists, the clock works and both statements
work; then exactly the requested domain's serving node, proxy and time are set. -/
theorem c11_lu_success (hist : List (Op × Script)) (s : Script) (id : Int) (n : Bytes) (ps : Bool)
    (via : Option Bytes) (now : Option Int) :
    let d := runHist {} hist
    let res := exec (subscrLu id n ps via now) d s
    (res.1 = some 0 ↔ (∃ r ∈ d.subs, r.id = id) ∧ now ≠ none ∧ firstFate s = .ok
        ∧ firstFate s.tail = .ok)
    ∧ (res.1 = some 0 → ∃ t, now = some t ∧ res.2 = { d with subs := d.subs.map (fun r =>
        if r.id = id then
          (if ps then { r with sgsn := some n, sgsnViaProxy := via, lastLuPs := some t }
           else { r with vlr := some n, vlrViaProxy := via, lastLu := some t })
        else r) }) := by
  intro d res
  have hU := reachable_unique hist
  rcases exec_lu d s id n ps via now with ⟨hf, h⟩ | ⟨hf, h⟩ | ⟨hf, hc, h⟩ | ⟨hf, hc, h⟩
  · have hr : res = _ := h
    rw [hr]; simp [hf]
  · have hr : res = _ := h
    rw [hr]; simp [hf]
  · have hr : res = _ := h
    rw [hr]
    have h0 := updRc_ne_zero hc
    have hno : ¬ ∃ r ∈ d.subs, r.id = id := by
      rcases countP_id_cases d hU id with ⟨h1, _⟩ | ⟨_, h1⟩
      · exact absurd h1 hc
      · exact h1
    refine ⟨⟨fun h => absurd (Option.some.inj h) h0, fun h => absurd h.1 hno⟩,
      fun h => absurd (Option.some.inj h) h0⟩
  · have hex : ∃ r ∈ d.subs, r.id = id := by
      rcases countP_id_cases d hU id with ⟨_, h1⟩ | ⟨h1, _⟩
      · exact h1
      · omega
    rcases h with ⟨hn, h⟩ | ⟨t, ht, hf2, h⟩ | ⟨t, ht, hf2, h⟩ | ⟨t, ht, hf2, h⟩
    · have hr : res = _ := h
      rw [hr]; simp [hn]
    · have hr : res = _ := h
      rw [hr]; simp [hf2]
    · have hr : res = _ := h
      rw [hr]; simp [hf2]
    · have hr : res = _ := h
      rw [hr]
      refine ⟨⟨fun _ => ⟨hex, by simp [ht], hf, hf2⟩, fun _ => rfl⟩, fun _ => ⟨t, ht, ?_⟩⟩
      simp only [sqlUpdSub, List.map_map]
      congr 1
      apply List.map_congr_left
      intro r _
      by_cases hid : r.id = id
      · cases ps <;> simp [hid, luPlace, luStamp]
      · simp [hid]

/-- C11: whatever fails, the other domain's columns and all other columns of every
subscriber stay as they are. -/
theorem c11_lu_one_domain (hist : List (Op × Script)) (s : Script) (id : Int) (n : Bytes) (ps : Bool)
    (via : Option Bytes) (now : Option Int) :
    let d := runHist {} hist
    let d' := (exec (subscrLu id n ps via now) d s).2
    let blank : SubRow → SubRow := fun r =>
      if ps then { r with sgsn := none, sgsnViaProxy := none, lastLuPs := none }
      else { r with vlr := none, vlrViaProxy := none, lastLu := none }
    d'.subs.map blank = d.subs.map blank
    ∧ d'.auc2 = d.auc2 ∧ d'.auc3 = d.auc3 ∧ d'.inds = d.inds := by
  intro d d' blank
  have hplace : ∀ r, blank (luPlace ps n via r) = blank r := by
    intro r; cases ps <;> rfl
  have hstamp : ∀ t r, blank (luStamp ps t r) = blank r := by
    intro t r; cases ps <;> rfl
  have hupd : ∀ (d : Db) (f : SubRow → SubRow), (∀ r, blank (f r) = blank r) →
      (sqlUpdSub (·.id == id) f d).2.subs.map blank = d.subs.map blank := by
    intro d f hf
    simp only [sqlUpdSub, List.map_map]
    apply List.map_congr_left
    intro r _
    simp only [Function.comp]
    split
    · exact hf r
    · rfl
  have h1 := hupd d _ hplace
  have hd : d' = (exec (subscrLu id n ps via now) d s).2 := rfl
  rcases exec_lu d s id n ps via now with ⟨_, h⟩ | ⟨_, h⟩ | ⟨_, _, h⟩ | ⟨_, _, h⟩
  · rw [hd, h]; exact ⟨rfl, rfl, rfl, rfl⟩
  · rw [hd, h]; exact ⟨rfl, rfl, rfl, rfl⟩
  · rw [hd, h]; exact ⟨h1, rfl, rfl, rfl⟩
  · rcases h with ⟨_, h⟩ | ⟨t, _, _, h⟩ | ⟨t, _, _, h⟩ | ⟨t, _, _, h⟩
    · rw [hd, h]; exact ⟨h1, rfl, rfl, rfl⟩
    · rw [hd, h]; exact ⟨h1, rfl, rfl, rfl⟩
    · rw [hd, h]; exact ⟨h1, rfl, rfl, rfl⟩
    · rw [hd, h]
      exact ⟨(hupd _ _ (hstamp t)).trans h1, rfl, rfl, rfl⟩

example : (exec (subscrLu 1 (b "SGSN-9") true none (some 5)) exDb []).1 = some 0 := by decide +kernel

end Verif.Db.Props
