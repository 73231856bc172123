import Verif.Hlr.Lemmas
/-!
# Property theorems C30 (purge, IMEI check) and C31 (creation on demand)
-/
namespace Verif.Hlr.Props
open Verif Verif.Db Verif.Hlr

/-! ## C31 -/

/-- C31: a known subscriber is never modified by creation on demand, whatever the
configuration and whatever fails. -/
theorem c31_existing_untouched (cfg : Cfg) (rnd : Nat → Option (Nat → UInt8)) (imsi : Bytes)
    (hist : List (Op × Script)) (s : Script) (hk : Known (runHist {} hist) imsi) :
    (exec (createOnDemand cfg rnd imsi) (runHist {} hist) s).2 = runHist {} hist := by
  have h := (createOnDemand_post cfg rnd imsi _ (Db.Props.reachable_unique hist)).exec
    (runHist {} hist) s rfl
  rcases h.or with ⟨h, _⟩ | ⟨_, m, _, hA, _⟩ | ⟨_, m, _, hA, _⟩
  · exact h
  · exact absurd hk hA.1
  · exact absurd hk hA.1

/-- C31: without the configuration nothing is created. -/
theorem c31_only_if_configured (cfg : Cfg) (rnd : Nat → Option (Nat → UInt8)) (imsi : Bytes)
    (hist : List (Op × Script)) (s : Script) (hc : cfg.cod = .disabled) :
    (exec (createOnDemand cfg rnd imsi) (runHist {} hist) s).2 = runHist {} hist := by
  have h := (createOnDemand_post cfg rnd imsi _ (Db.Props.reachable_unique hist)).exec
    (runHist {} hist) s rfl
  rcases h.or with ⟨h, _⟩ | ⟨hd, _⟩ | ⟨hd, _⟩
  · exact h
  · exact absurd hc hd
  · exact absurd hc hd

/-- C31: whatever happens, either the database is untouched, or exactly one new
subscriber with the configured access flags was added; reported success means it
also has the number the policy prescribes.  (Missing from the full property: when
giving it the number fails, the subscriber remains without; see
`c31_violated_no_number`.) -/
theorem c31_created_as_configured_partial (cfg : Cfg) (rnd : Nat → Option (Nat → UInt8))
    (imsi : Bytes) (hist : List (Op × Script)) (s : Script) :
    let d := runHist {} hist
    let res := exec (createOnDemand cfg rnd imsi) d s
    (res.2 = d ∨ (cfg.cod ≠ .disabled
        ∧ ∃ m, PolicyMsisdn cfg d imsi m ∧ (Added cfg imsi m d res.2 ∨ Added cfg imsi none d res.2)))
    ∧ (res.1 = some 0 → cfg.cod ≠ .disabled ∧ ∃ m, PolicyMsisdn cfg d imsi m ∧ Added cfg imsi m d res.2)
    := by
  intro d res
  have h : CodPost cfg imsi d res.1 res.2 :=
    (createOnDemand_post cfg rnd imsi d (Db.Props.reachable_unique hist)).exec d s rfl
  rcases h.or with ⟨h, ho⟩ | ⟨hd, m, hp, hA, ho⟩ | ⟨hd, m, hp, hA, ho⟩
  · exact ⟨.inl h, fun h => absurd h ho⟩
  · exact ⟨.inr ⟨hd, _, hp, .inr hA⟩, fun h => absurd h ho⟩
  · exact ⟨.inr ⟨hd, _, hp, .inl hA⟩, fun _ => ⟨hd, _, hp, hA⟩⟩

theorem known_exists (d : Db) (imsi : Bytes) (hk : ¬ Known d imsi) :
    d.subs.find? (fun r => r.imsi == imsi) = none := by
  rw [List.find?_eq_none]
  intro r hr h
  exact hk ⟨r, hr, by simpa using h⟩

/-- C31: when nothing fails, an unknown subscriber with a valid IMSI is created
with the number prescribed, in the modes without a random number (the number must
be free). -/
theorem c31_creates (cfg : Cfg) (rnd : Nat → Option (Nat → UInt8)) (imsi : Bytes)
    (hist : List (Op × Script)) (s : Script) (hs : AllOk s)
    (hk : ¬ Known (runHist {} hist) imsi) (hi : Digits 6 15 imsi)
    (hm : cfg.cod = .noMsisdn
      ∨ cfg.cod = .msisdnFromImsi ∧ ∀ r ∈ (runHist {} hist).subs, r.msisdn ≠ some imsi) :
    (exec (createOnDemand cfg rnd imsi) (runHist {} hist) s).1 = some 0 := by
  rw [(createOnDemand_uniform cfg rnd imsi).exec _ hs]
  generalize hd : runHist {} hist = d at *
  have hU : Unique d := hd ▸ Db.Props.reachable_unique hist
  have h1 : existsByImsi imsi { db := d, script := [] } = (some (-ENOENT), { db := d, script := [] }) := by
    unfold existsByImsi
    rw [bind_run, stmt_ok]
    simp only [sqlSel, known_exists d imsi hk]
    rfl
  have h2 : ∃ id, (∀ r ∈ d.subs, r.id ≠ id) ∧ subscrCreate imsi cfg.codCs cfg.codPs { db := d, script := [] }
      = (some 0, { db := { d with subs := d.subs ++
          [{ id := id, imsi := imsi, namCs := cfg.codCs, namPs := cfg.codPs }] }, script := [] }) := by
    refine ⟨newId (d.subs.map (·.id)), ?_, ?_⟩
    · intro r hr h
      exact newId_fresh (d.subs.map (·.id)) (h ▸ List.mem_map_of_mem hr)
    · have ha : d.subs.any (fun r => r.imsi == imsi) = false := by
        rw [← Bool.not_eq_true, any_iff_known]; exact hk
      unfold subscrCreate
      have hv : imsiValid imsi = true := isNDigits_spec.mpr hi
      simp only [hv, Bool.not_true, Bool.false_eq_true, if_false]
      rw [bind_run, stmt_ok]
      simp only [sqlCreate, ha, Bool.false_eq_true, if_false]
      rfl
  obtain ⟨id, hid, h2⟩ := h2
  unfold exec createOnDemand
  simp only [bind_run, h1]
  rw [if_neg (by decide)]
  rcases hm with hm | ⟨hm, hfree⟩
  · simp only [codMsisdn, hm]
    show ((DbM.bind (DbM.pure (some [])) _ _).1 : Option Int) = _
    simp only [DbM.bind, DbM.pure, bind_run, h2]
    rfl
  · simp only [codMsisdn, hm]
    have e : strlcpy 16 imsi = imsi := by
      unfold strlcpy; exact List.take_of_length_le (by have := hi.2.1; omega)
    have ne : imsi.isEmpty = false := by
      cases imsi with
      | nil => have := hi.1; simp at this
      | cons => rfl
    rw [e]
    show ((DbM.bind (DbM.pure (some imsi)) _ _).1 : Option Int) = _
    simp only [DbM.bind, DbM.pure, bind_run, h2, ne]
    simp only [ne_eq, not_true_eq_false, if_false, Bool.false_eq_true]
    have hU2 := hU.create imsi cfg.codCs cfg.codPs
    have hA : Unique { d with subs := d.subs ++
          [{ id := id, imsi := imsi, namCs := cfg.codCs, namPs := cfg.codPs }] } := by
      refine ⟨?_, ?_, ?_, hU.keys2, hU.keys3, hU.inds, hU.vlrs⟩
      · simp only [List.map_append, List.map_cons, List.map_nil]
        rw [nodup_snoc]
        exact ⟨hU.ids, by simpa using fun r hr => hid r hr⟩
      · simp only [List.map_append, List.map_cons, List.map_nil]
        rw [nodup_snoc]
        refine ⟨hU.imsis, ?_⟩
        intro hmem
        obtain ⟨r, hr, hri⟩ := List.mem_map.mp hmem
        exact hk ⟨r, hr, hri⟩
      · simpa using hU.msisdns
    have hc := contract_msisdn _ hA [] imsi imsi
    refine hc.success.mpr ⟨⟨by have := hi.1; omega, hi.2.1, hi.2.2⟩, ?_, ?_, rfl⟩
    · exact ⟨_, List.mem_append_right _ (List.mem_singleton.mpr rfl), rfl⟩
    · intro r hr hne
      rcases List.mem_append.mp hr with hr | hr
      · exact hfree r hr
      · have := List.mem_singleton.mp hr; subst this; exact absurd rfl hne

/-- A subscriber whose MSISDN equals the IMSI of a subscriber yet to come. -/
def exTaken : List (Op × Script) :=
  [(.create (b "001010000000001") true true, []),
   (.msisdn (b "001010000000001") (some (b "001010000000002")), [])]

/-- C31 is false of the code: without any failure, a subscriber can be created
without the number the policy prescribes (the number is taken); creation reports an
error but the subscriber stays. -/
theorem c31_violated_no_number :
    ∃ (cfg : Cfg) (imsi : Bytes) (hist : List (Op × Script)),
      cfg.cod = .msisdnFromImsi ∧ ¬ Known (runHist {} hist) imsi
      ∧ ((exec (createOnDemand cfg (fun _ => none) imsi) (runHist {} hist) []).1 = some (-EIO))
      ∧ (exec (createOnDemand cfg (fun _ => none) imsi) (runHist {} hist) []).2.subs.any
          (fun r => r.imsi == imsi && r.msisdn == none) = true := by
  refine ⟨{ cod := .msisdnFromImsi }, b "001010000000002", exTaken, rfl, ?_, ?_, ?_⟩
  · rw [← any_iff_known]; decide +kernel
  · decide +kernel
  · decide +kernel

-- non-trivial: creation happens, in each mode
example : (exec (createOnDemand { cod := .noMsisdn, codCs := true } (fun _ => none)
    (b "001010000000009")) Db.Props.exDb []).2.subs.any
    (fun r => r.imsi == b "001010000000009" && r.namCs && !r.namPs && r.msisdn == none) = true := by
  decide +kernel
example : (exec (createOnDemand { cod := .msisdnFromImsi } (fun _ => none)
    (b "001010000000009")) Db.Props.exDb []).2.subs.any
    (fun r => r.imsi == b "001010000000009" && r.msisdn == some (b "001010000000009")) = true := by
  decide +kernel
example : (exec (createOnDemand { cod := .randMsisdn 4 } (fun i => some (fun j => UInt8.ofNat (i + j + 1)))
    (b "001010000000009")) Db.Props.exDb []).2.subs.any
    (fun r => r.imsi == b "001010000000009" && r.msisdn == some (b "2345")) = true := by
  decide +kernel
example : Known Db.Props.exDb (b "001010000000001") ∧ ¬ Known Db.Props.exDb (b "001010000000009") := by
  constructor <;> rw [← any_iff_known] <;> decide +kernel

/-! ## C30 -/

theorem purge_outcome {d : Db} (hU : Unique d) (s : Script) (imsi : Bytes) (cs : Bool) :
    let res := exec (rxPurge imsi cs) d s
    (res.1 = some .result ↔ Known d imsi ∧ firstFate s = .ok)
    ∧ (res.1 = some .result → res.2 = withRow d imsi
        (fun r => if cs then { r with purgedCs := true } else { r with purgedPs := true }))
    ∧ (res.1 ≠ some .result → res.2 = d)
    ∧ (res.1 = some (.error .imsiUnknown) ↔ ¬ Known d imsi ∧ firstFate s = .ok)
    ∧ (res.1 = some (.error .netFail) ↔ firstFate s = .ioerr)
    ∧ (res.1 = none ↔ firstFate s = .crash) := by
  intro res
  have hc := contract_purge d hU s imsi true (!cs)
  have hdb : res.2 = (exec (subscrPurge imsi true (!cs)) d s).2 := by
    show ((subscrPurge imsi true (!cs) >>= _) _).2.db = _
    rw [bind_run]
    simp only [exec]
    rcases subscrPurge imsi true (!cs) { db := d, script := s } with ⟨_ | rc, w⟩
    · rfl
    · dsimp only
      split
      · rfl
      · split <;> rfl
  have hrc : res.1 = (exec (subscrPurge imsi true (!cs)) d s).1.map (fun rc =>
      if rc = 0 then .result else if rc = -ENOENT then .error .imsiUnknown else .error .netFail) := by
    show ((subscrPurge imsi true (!cs) >>= _) _).1 = _
    rw [bind_run]
    simp only [exec]
    rcases subscrPurge imsi true (!cs) { db := d, script := s } with ⟨_ | rc, w⟩
    · rfl
    · dsimp only [Option.map]
      split
      · rfl
      · split <;> rfl
  have hf : (fun r : SubRow => if (!cs) = true then { r with purgedPs := true } else { r with purgedCs := true })
      = fun r => if cs then { r with purgedCs := true } else { r with purgedPs := true } := by
    funext r; cases cs <;> rfl
  rw [hf] at hc
  generalize exec (subscrPurge imsi true (!cs)) d s = x at *
  obtain ⟨o, d'⟩ := x
  obtain ⟨c1, c2, c3, c4, c5, c6, c7⟩ := hc
  dsimp only at hdb hrc c1 c2 c3 c4 c5 c6 c7
  simp only [true_and, and_true, not_true_eq_false, and_false, or_false, iff_false] at c1 c4 c5 c6 c7
  rw [hrc, hdb]
  have cases5 : firstFate s = .ok ∨ firstFate s = .ioerr ∨ firstFate s = .crash := by
    cases firstFate s <;> simp
  by_cases hk : Known d imsi
  · rcases cases5 with hf | hf | hf
    · have ho := c1.mpr ⟨hk, hf⟩
      subst ho
      simp [hk, hf, c2 rfl]
    · have ho := c6.mpr hf
      subst ho
      have := c3 (by decide)
      simp [hf, this]
    · have ho := c7.mpr hf
      subst ho
      have := c3 (by simp)
      simp [hf, this]
  · rcases cases5 with hf | hf | hf
    · have ho := c5.mpr ⟨hf, hk⟩
      subst ho
      have := c3 (by decide)
      simp [hk, hf, this]
    · have ho := c6.mpr hf
      subst ho
      have := c3 (by decide)
      simp [hf, this]
    · have ho := c7.mpr hf
      subst ho
      have := c3 (by simp)
      simp [hf, this]

/-- C30: Purge MS.  It is answered with success exactly if the subscriber exists
(and the database works); then exactly the purged flag of that subscriber, in the
CS domain if requested and else in the PS domain, is set.  Otherwise nothing
changes; an unknown subscriber is reported as such, anything else as network
failure. -/
theorem c30_purge (hist : List (Op × Script)) (s : Script) (imsi : Bytes) (cs : Bool) :
    let d := runHist {} hist
    let res := exec (rxPurge imsi cs) d s
    (res.1 = some .result ↔ Known d imsi ∧ firstFate s = .ok)
    ∧ (res.1 = some .result → res.2 = withRow d imsi
        (fun r => if cs then { r with purgedCs := true } else { r with purgedPs := true }))
    ∧ (res.1 ≠ some .result → res.2 = d)
    ∧ (res.1 = some (.error .imsiUnknown) ↔ ¬ Known d imsi ∧ firstFate s = .ok)
    ∧ (res.1 = some (.error .netFail) ↔ firstFate s = .ioerr)
    ∧ (res.1 = none ↔ firstFate s = .crash) :=
  purge_outcome (Db.Props.reachable_unique hist) s imsi cs

-- non-trivial
example : (exec (rxPurge (b "001010000000001") true) Db.Props.exDb []).1 = some .result := by decide +kernel
example : (exec (rxPurge (b "001010000000009") true) Db.Props.exDb []).1 = some (.error .imsiUnknown) := by
  decide +kernel

/-- Outcome of the part of Check IMEI after creation on demand. -/
theorem imeiTail_post (cfg : Cfg) (imsi i : Bytes) (hi : Digits 14 14 i) (d0 : Db) (hU : Unique d0) :
    Post (fun d => d = d0)
      (if cfg.storeImei then do
        let rc ← updateImei imsi (some i)
        if rc < 0 then pure (ImeiOut.error .invMandInfo) else pure .ack
      else do
        let r ← getByImsi imsi
        if r.1 < 0 then pure (.error .invMandInfo) else pure .ack)
      (fun o d => (o = some .ack ∧ Known d0 imsi
          ∧ d = if cfg.storeImei then withRow d0 imsi (fun r => { r with imei := some i }) else d0)
        ∨ ((o = none ∨ o = some (.error .invMandInfo)) ∧ d = d0)) := by
  split
  · rename_i hs
    refine Post.bind (fun o d => (o = some 0 ∧ Known d0 imsi
        ∧ d = withRow d0 imsi (fun r => { r with imei := some i }))
      ∨ ((o = none ∨ o = some (-2) ∨ o = some (-5)) ∧ d = d0)) (Post.ofExec ?_) ?_ (fun rc => ?_)
    · rintro d s rfl
      have hc := contract_imei d hU s imsi (some i)
      have hv : ∀ x, some i = some x → Digits 14 14 x := by rintro x h; cases h; exact hi
      by_cases h0 : (exec (updateImei imsi (some i)) d s).1 = some 0
      · left
        exact ⟨h0, (hc.success.mp h0).2.1, hc.effect h0⟩
      · right
        refine ⟨?_, hc.noEffect h0⟩
        by_cases hk : Known d imsi
        · cases hf : firstFate s with
          | ok => exact absurd (hc.success.mpr ⟨hv, hk, trivial, hf⟩) h0
          | ioerr => exact .inr (.inr (hc.eio.mpr ⟨hv, .inl hf⟩))
          | crash => exact .inl (hc.died.mpr ⟨hv, hf⟩)
        · cases hf : firstFate s with
          | ok => exact .inr (.inl (hc.enoent.mpr ⟨hv, hf, hk⟩))
          | ioerr => exact .inr (.inr (hc.eio.mpr ⟨hv, .inl hf⟩))
          | crash => exact .inl (hc.died.mpr ⟨hv, hf⟩)
    · rintro d (⟨h, _⟩ | ⟨_, h⟩)
      · simp at h
      · right; exact ⟨.inl rfl, h⟩
    · split
      · rename_i hrc
        refine Post.pure ?_
        rintro d (⟨h, _⟩ | ⟨_, h⟩)
        · cases h; omega
        · right; exact ⟨.inr rfl, h⟩
      · rename_i hrc
        refine Post.pure ?_
        rintro d (⟨h, h2, h3⟩ | ⟨h, _⟩)
        · left; exact ⟨rfl, h2, h3⟩
        · rcases h with h | h | h
          · simp at h
          · cases h; omega
          · cases h; omega
  · rename_i hs
    refine Post.bind (fun o d => d = d0 ∧ (∀ r, o = some r → ¬ r.1 < 0 → Known d0 imsi)) ?_ ?_ (fun r => ?_)
    · refine Post.bind (fun o d => d = d0 ∧ (o = none ∨ o = some .error
        ∨ o = some (sqlSel (·.imsi == imsi) d0).1)) (Post.stmt ?_ ?_ ?_) ?_ ?_
      · rintro d rfl; exact ⟨rfl, .inr (.inr rfl)⟩
      · rintro d rfl; exact ⟨rfl, .inr (.inl rfl)⟩
      · rintro d rfl; exact ⟨rfl, .inl rfl⟩
      · rintro d ⟨h, _⟩; exact ⟨h, by simp⟩
      · intro a w hw
        obtain ⟨h1, h2⟩ := hw
        rcases h2 with h2 | h2 | h2
        · simp at h2
        · cases h2
          refine ⟨h1, ?_⟩
          intro r hr hlt
          have hr' : some ((-EIO : Int), (none : Option SubRow)) = some r := hr
          cases hr'; exact absurd (by decide) hlt
        · simp only [Option.some.injEq] at h2
          subst h2
          refine ⟨?_, ?_⟩
          · simp only [sqlSel]
            cases List.find? (fun r => r.imsi == imsi) d0.subs <;> exact h1
          · intro r hr hlt
            simp only [sqlSel] at hr
            cases hf : List.find? (fun r => r.imsi == imsi) d0.subs with
            | none =>
              rw [hf] at hr
              have hr' : some ((-ENOENT : Int), (none : Option SubRow)) = some r := hr
              cases hr'; exact absurd (by decide) hlt
            | some x =>
              refine ⟨x, List.mem_of_find?_eq_some hf, ?_⟩
              have := List.find?_some hf
              simpa using this
    · rintro d ⟨h, _⟩; right; exact ⟨.inl rfl, h⟩
    · split
      · refine Post.pure ?_
        rintro d ⟨h, _⟩; right; exact ⟨.inr rfl, h⟩
      · rename_i hlt
        refine Post.pure ?_
        rintro d ⟨h, h2⟩; left
        exact ⟨rfl, h2 r rfl hlt, h⟩

theorem check_imei_outcome (cfg : Cfg) (rnd : Nat → Option (Nat → UInt8)) (imsi : Bytes)
    (imei : Option Bytes) {d : Db} (hU : Unique d) (s : Script) :
    let res := exec (rxCheckImei cfg rnd imsi imei) d s
    ∃ d1, (d1 = d ∨ (cfg.cod ≠ .disabled ∧ ∃ m, Added cfg imsi m d d1))
    ∧ ((res.1 = some .ack ∧ Known d1 imsi ∧ ∃ i, imei = some i ∧ Digits 14 14 i
          ∧ res.2 = if cfg.storeImei then withRow d1 imsi (fun r => { r with imei := some i }) else d1)
      ∨ ((res.1 = none ∨ res.1 = some (.error .invMandInfo)) ∧ res.2 = d1)) := by
  intro res
  cases imei with
  | none => exact ⟨d, .inl rfl, .inr ⟨.inr rfl, rfl⟩⟩
  | some i =>
    by_cases hv : imeiValid i = true
    · have hi : Digits 14 14 i := isNDigits_spec.mp hv
      have hcod := createOnDemand_post cfg rnd imsi d hU
      have hpost : Post (fun x => x = d) (rxCheckImei cfg rnd imsi (some i)) (fun o d' =>
          ∃ d1, (d1 = d ∨ (cfg.cod ≠ .disabled ∧ ∃ m, Added cfg imsi m d d1))
          ∧ ((o = some .ack ∧ Known d1 imsi ∧ d' =
                if cfg.storeImei then withRow d1 imsi (fun r => { r with imei := some i }) else d1)
            ∨ ((o = none ∨ o = some (.error .invMandInfo)) ∧ d' = d1))) := by
        unfold rxCheckImei
        simp only [hv, Bool.not_true, Bool.false_eq_true, if_false]
        have hUK : Sat (Keeps Unique) (createOnDemand cfg rnd imsi) := by
          have := fun op => unique_op op
          refine Sat.bind (Keeps.pre _) (existsByImsi_sat (Keeps.pre _) _) (fun e => ?_)
          split
          · exact Sat.pure (Keeps.pre _) _
          · refine Sat.bind (Keeps.pre _) ?_ (fun m => ?_)
            · intro w hw
              have := codMsisdn_post cfg rnd imsi w.db w rfl
              rw [this.1]; exact hw
            · cases m with
              | none => exact Sat.pure (Keeps.pre _) _
              | some m =>
                refine Sat.bind (Keeps.pre _) (unique_op (.create imsi cfg.codCs cfg.codPs)) (fun rc => ?_)
                split
                · exact Sat.pure (Keeps.pre _) _
                · split
                  · exact Sat.pure (Keeps.pre _) _
                  · exact unique_op (.msisdn imsi (some m))
        have codd : ∀ {o d1}, CodPost cfg imsi d o d1 →
            d1 = d ∨ (cfg.cod ≠ .disabled ∧ ∃ m, Added cfg imsi m d d1) := by
          intro o d1 h
          cases h with
          | same _ => exact .inl rfl
          | half hd _ hA _ => exact .inr ⟨hd, _, hA⟩
          | full hd _ hA _ => exact .inr ⟨hd, _, hA⟩
        have hU' : Post (fun x => x = d) (createOnDemand cfg rnd imsi) (fun _ d1 => Unique d1) := by
          intro w hw; exact hUK w (hw ▸ hU)
        refine Post.bind _ (hcod.and hU') ?_ (fun _ => ?_)
        · rintro d1 ⟨h, _⟩; exact ⟨d1, codd h, .inr ⟨.inl rfl, rfl⟩⟩
        · intro w hw
          obtain ⟨h1, h2⟩ := hw
          have := imeiTail_post cfg imsi i hi w.db h2 w rfl
          exact ⟨w.db, codd h1, this⟩
      obtain ⟨d1, h1, h2⟩ := hpost.exec d s rfl
      refine ⟨d1, h1, ?_⟩
      rcases h2 with ⟨ha, hb, hc⟩ | h2
      · left; exact ⟨ha, hb, i, rfl, hi, hc⟩
      · right; exact h2
    · refine ⟨d, .inl rfl, .inr ?_⟩
      have e : rxCheckImei cfg rnd imsi (some i) = pure (.error .invMandInfo) := by
        unfold rxCheckImei; simp [hv]
      have hr : res = exec (rxCheckImei cfg rnd imsi (some i)) d s := rfl
      rw [e, exec_pure] at hr
      rw [hr]
      exact ⟨.inr rfl, rfl⟩

/-- C30: Check IMEI.  Let `d1` be the database after creation on demand, if any
(C31).  An ACK is only sent for a well-formed IMEI of an existing subscriber, and
then the IMEI is stored if so configured, and nothing else changes; otherwise an
error is sent and nothing changes. -/
theorem c30_check_imei (cfg : Cfg) (rnd : Nat → Option (Nat → UInt8)) (imsi : Bytes)
    (imei : Option Bytes) (hist : List (Op × Script)) (s : Script) :
    let d := runHist {} hist
    let res := exec (rxCheckImei cfg rnd imsi imei) d s
    ∃ d1, (d1 = d ∨ (cfg.cod ≠ .disabled ∧ ∃ m, Added cfg imsi m d d1))
    ∧ ((res.1 = some .ack ∧ Known d1 imsi ∧ ∃ i, imei = some i ∧ Digits 14 14 i
          ∧ res.2 = if cfg.storeImei then withRow d1 imsi (fun r => { r with imei := some i }) else d1)
      ∨ ((res.1 = none ∨ res.1 = some (.error .invMandInfo)) ∧ res.2 = d1)) :=
  check_imei_outcome cfg rnd imsi imei (Db.Props.reachable_unique hist) s

theorem getByImsi_known {d : Db} {imsi : Bytes} (h : Known d imsi) :
    ∃ r, getByImsi imsi { db := d, script := [] } = (some (0, some r), { db := d, script := [] }) := by
  unfold getByImsi dbSel
  rw [bind_run, stmt_ok]
  simp only [sqlSel]
  cases hf : d.subs.find? (fun r => r.imsi == imsi) with
  | none =>
    obtain ⟨r, hr, hri⟩ := h
    have := List.find?_eq_none.mp hf r hr
    simp [hri] at this
  | some r => exact ⟨r, rfl⟩

/-- C30: when nothing fails, a well-formed IMEI of an existing subscriber is
acknowledged. -/
theorem c30_check_imei_acks (cfg : Cfg) (rnd : Nat → Option (Nat → UInt8)) (imsi i : Bytes)
    (hist : List (Op × Script)) (s : Script) (hs : AllOk s)
    (hk : Known (runHist {} hist) imsi) (hi : Digits 14 14 i) :
    (exec (rxCheckImei cfg rnd imsi (some i)) (runHist {} hist) s).1 = some .ack := by
  have hv : imeiValid i = true := isNDigits_spec.mpr hi
  have hu : Uniform (rxCheckImei cfg rnd imsi (some i)) := by
    unfold rxCheckImei
    simp only [hv, Bool.not_true, Bool.false_eq_true, if_false]
    refine .bind (createOnDemand_uniform _ _ _) (fun _ => .ite ?_ ?_)
    · exact .bind (updateImei_uniform _ _) (fun _ => .ite (.pure _) (.pure _))
    · exact .bind (dbSel_uniform _) (fun _ => .ite (.pure _) (.pure _))
  rw [hu.exec _ hs]
  have hU := Db.Props.reachable_unique hist
  have hc := c31_existing_untouched cfg rnd imsi hist [] hk
  generalize runHist {} hist = d at *
  obtain ⟨rc, d', h1, _⟩ := createOnDemand_uniform cfg rnd imsi d
  simp only [exec, h1] at hc
  subst hc
  unfold exec rxCheckImei
  simp only [hv, Bool.not_true, Bool.false_eq_true, if_false, bind_run, h1]
  split
  · have hct := contract_imei d' hU [] imsi (some i)
    have h0 := hct.success.mpr ⟨by rintro x h; cases h; exact hi, hk, trivial, rfl⟩
    obtain ⟨rc, d2, h2, _⟩ := updateImei_uniform imsi (some i) d'
    simp only [exec, h2, Option.some.injEq] at h0
    subst h0
    simp only [bind_run, h2]
    rfl
  · obtain ⟨r, h2⟩ := getByImsi_known hk
    simp only [bind_run, h2]
    rfl

-- non-trivial: acknowledged and stored, acknowledged and not stored, refused
example : (exec (rxCheckImei { storeImei := true } (fun _ => none) (b "001010000000001")
    (some (b "12345678901234"))) Db.Props.exDb []).2.subs.any
    (fun r => r.imsi == b "001010000000001" && r.imei == some (b "12345678901234")) = true := by
  decide +kernel
example : exec (rxCheckImei {} (fun _ => none) (b "001010000000001")
    (some (b "12345678901234"))) Db.Props.exDb [] = (some .ack, Db.Props.exDb) := by decide +kernel
example : (exec (rxCheckImei {} (fun _ => none) (b "001010000000009")
    (some (b "12345678901234"))) Db.Props.exDb []).1 = some (.error .invMandInfo) := by decide +kernel

end Verif.Hlr.Props
