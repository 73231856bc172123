import Verif.Import.Lemmas3
/-! # On a working database every subscriber is imported -/
namespace Verif.Import
open Verif Verif.Db Verif.Prov

/-- From every database satisfying `P`, without faults, `m` ends with a result and a database
satisfying `Q`. -/
def Works (P : Db → Prop) (m : DbM α) (Q : α → Db → Prop) : Prop :=
  ∀ d, P d → ∃ a d', m { db := d, script := [] } = (some a, { db := d', script := [] }) ∧ Q a d'

theorem Works.bind {P : Db → Prop} {m : DbM α} {f : α → DbM β} (Q : α → Db → Prop) {R : β → Db → Prop}
    (hm : Works P m Q) (hf : ∀ a, Works (Q a) (f a) R) : Works P (m >>= f) R := by
  intro d hd
  obtain ⟨a, d1, e1, q1⟩ := hm d hd
  obtain ⟨b, d2, e2, q2⟩ := hf a d1 q1
  exact ⟨b, d2, by rw [bind_run, e1]; exact e2, q2⟩

theorem Works.pure {P : Db → Prop} {a : α} {Q : α → Db → Prop} (h : ∀ d, P d → Q a d) :
    Works P (Pure.pure a : DbM α) Q := fun d hd => ⟨a, d, rfl, h d hd⟩

theorem Works.stmt {P : Db → Prop} {f : Db → α × Db} {err : α} {Q : α → Db → Prop}
    (h : ∀ d, P d → Q (f d).1 (f d).2) : Works P (Db.stmt f err) Q := fun d hd => ⟨_, _, rfl, h d hd⟩

/-- What holds under every script may be assumed without faults. -/
theorem Works.andPost {I P : Db → Prop} {m : DbM α} {Q : α → Db → Prop} (hp : Post I m (fun _ d => I d))
    (hw : Works (fun d => I d ∧ P d) m Q) : Works (fun d => I d ∧ P d) m (fun a d => I d ∧ Q a d) := by
  intro d hd
  obtain ⟨a, d', e, q⟩ := hw d hd
  refine ⟨a, d', e, ?_, q⟩
  have := hp { db := d, script := [] } hd.1
  rw [e] at this
  exact this

/-- There is a record with this IMSI and this property. -/
def HasRow (i : Bytes) (X : SubRow → Prop) (d : Db) : Prop := ∃ r ∈ d.subs, r.imsi = i ∧ X r

theorem hasRow_upd {i : Bytes} {X Y : SubRow → Prop} {f : SubRow → SubRow} {d : Db} (h : HasRow i X d)
    (him : ∀ r, (f r).imsi = r.imsi) (hxy : ∀ r, X r → Y (f r)) : HasRow i Y (sqlUpdSub (·.imsi == i) f d).2 := by
  obtain ⟨r, hr, e, hx⟩ := h
  refine ⟨f r, List.mem_map.2 ⟨r, hr, ?_⟩, by rw [him]; exact e, hxy r hx⟩
  have : (r.imsi == i) = true := by simp [e]
  rw [if_pos this]

variable {N : Nitb} {d0 : Db} {done : List NSub} {n : NSub}

theorem works_create (c : Ctx N d0 done n) (x y : Bool) :
    Works (Inv N d0 done) (subscrCreate n.imsi x y) (fun _ d => Inv N d0 done d ∧ HasRow n.imsi (fun _ => True) d) := by
  have hw : Works (fun d => Inv N d0 done d ∧ True) (subscrCreate n.imsi x y)
      (fun _ d => HasRow n.imsi (fun _ => True) d) := by
    unfold subscrCreate
    have hv : imsiValid n.imsi = true := valid_digits (c.plain.imsi n c.mem).1
    rw [hv, if_neg (by decide)]
    refine Works.bind (fun _ d => HasRow n.imsi (fun _ => True) d) (Works.stmt ?_) ?_
    · intro d _
      unfold sqlCreate
      split
      · rename_i hc
        obtain ⟨r, hr, e⟩ := List.any_eq_true.1 hc
        exact ⟨r, hr, by simpa using e, trivial⟩
      · exact ⟨_, List.mem_append_right _ (List.mem_singleton.2 rfl), rfl, trivial⟩
    · intro a
      cases a <;> exact Works.pure (fun _ h => h)
  have := hw.andPost (I := Inv N d0 done) (post_create c x y)
  exact fun d hd => this d ⟨hd, trivial⟩

theorem works_upd {P : Db → Prop} {i : Bytes} {X Y : SubRow → Prop} {f : SubRow → SubRow}
    (him : ∀ r, (f r).imsi = r.imsi) (hxy : ∀ r, X r → Y (f r)) :
    Works (fun d => P d ∧ HasRow i X d) (do pure (updRc (← stmt (sqlUpdSub (·.imsi == i) f) .error)) : DbM Int)
      (fun _ d => HasRow i Y d) :=
  Works.bind (fun _ d => HasRow i Y d) (Works.stmt (fun _ h => hasRow_upd h.2 him hxy)) (fun _ => Works.pure (fun _ h => h))

/-- Nobody else has the number. -/
theorem no_clash (c : Ctx N d0 done n) {d : Db} (h : Inv N d0 done d) {m : Bytes} (he : n.ext = some m) :
    ∀ r ∈ d.subs, r.imsi ≠ n.imsi → r.msisdn ≠ some m := by
  intro r hr hne e
  by_cases hnew : isNew N r.imsi = true
  · obtain ⟨x, hx, hxi⟩ := isNew_iff.1 hnew
    rcases (h.prog.new x hx r hr hxi.symm).1.msisdn with h1 | h1
    · rw [h1] at e; cases e
    · have : x = n := eq_of_nodup_filterMap c.plain.exts hx c.mem (h1.symm.trans e) he
      subst this
      exact hne hxi.symm
  · have : r ∈ d0.subs := by
      rw [← h.prog.old]
      exact List.mem_filter.2 ⟨hr, by simpa using hnew⟩
    exact c.fresh.msisdn n c.mem r this m he e

theorem works_msisdn (c : Ctx N d0 done n) :
    Works (fun d => Inv N d0 done d ∧ HasRow n.imsi (fun _ => True) d) (updateMsisdn n.imsi (some (textCol n.ext)))
      (fun _ d => Inv N d0 done d ∧ HasRow n.imsi (fun r => r.msisdn = n.ext) d) := by
  refine Works.andPost (post_msisdn c) ?_
  rw [c.text]
  unfold updateMsisdn
  dsimp only
  rcases he : n.ext with _ | m
  · refine Works.pure ?_
    rintro d ⟨h, r, hr, e, -⟩
    refine ⟨r, hr, e, ?_⟩
    rcases (h.prog.new n c.mem r hr e).1.msisdn with h1 | h1
    · exact h1
    · rw [h1, he]
  · have hv : msisdnValid m = true := valid_digits (c.plain.ext n c.mem m he)
    show Works _ (if (!msisdnValid m) = true then _ else _) _
    rw [hv, if_neg (by decide)]
    refine Works.bind (fun _ d => HasRow n.imsi (fun r => r.msisdn = some m) d) (Works.stmt ?_) (fun _ => Works.pure (fun _ h => h))
    rintro d ⟨h, hr⟩
    unfold sqlSetMsisdn
    rw [if_neg ?_]
    · exact hasRow_upd hr (fun _ => rfl) (fun _ _ => rfl)
    · intro hc
      rw [Bool.and_eq_true] at hc
      obtain ⟨r, hr', e⟩ := List.any_eq_true.1 hc.2
      simp only [Bool.and_eq_true, bne_iff_ne, beq_iff_eq] at e
      exact no_clash c h he r hr' e.1 e.2

theorem works_imei (c : Ctx N d0 done n) :
    Works (fun d => Inv N d0 done d ∧ HasRow n.imsi (fun r => r.msisdn = n.ext) d) (setImei n.imsi (imeiCol N n))
      (fun _ d => Inv N d0 done d ∧ HasRow n.imsi (fun r => r.msisdn = n.ext ∧ r.imei = wantImei N n) d) := by
  refine Works.andPost (post_imei c) ?_
  unfold setImei
  rcases c.imei with ⟨hw, h⟩ | ⟨i, h1, h2, h3⟩
  · rw [h, if_neg (by decide), hw]
    refine Works.pure ?_
    rintro d ⟨hI, r, hr, e, hm⟩
    refine ⟨r, hr, e, hm, ?_⟩
    rcases (hI.prog.new n c.mem r hr e).1.imei with h1 | h1
    · exact h1
    · rw [h1, hw]
  · rw [h2, if_pos (by have := h3.1; have := h3.2.1; omega), h1]
    unfold updateImei
    have hv : imeiValid i = true := valid_digits h3
    show Works _ (if (!imeiValid i) = true then _ else _) _
    rw [hv, if_neg (by decide)]
    exact works_upd (fun _ => rfl) (fun r h => ⟨h, rfl⟩)

theorem Ctx.expire (c : Ctx N d0 done n) : ∃ t, n.expire = some t ∧ expireCol n = t ∧ 3660 < t := by
  obtain ⟨t, h1, h2, h3⟩ := c.plain.expire n c.mem
  refine ⟨t, h1, ?_, h2⟩
  unfold expireCol
  rw [h1]
  exact int32_id (by show -2 ^ 31 ≤ t; omega) h3

theorem Ctx.auth (c : Ctx N d0 done n) : (int32 n.authorized != 0) = decide (n.authorized ≠ 0) := by
  rcases c.plain.authorized n c.mem with h | h <;> rw [h] <;> decide

/-- Everything but the key is there. -/
def Row (N : Nitb) (n : NSub) (r : SubRow) : Prop :=
  ((r.msisdn = n.ext ∧ r.imei = wantImei N n) ∧ r.lastLu = n.expire.map (· - 61 * 60))
  ∧ r.namPs = decide (n.authorized ≠ 0) ∧ r.namCs = decide (n.authorized ≠ 0)

theorem row_same (hi : r.imsi = n.imsi) (h : Row N n r) (p : Part N n r) : Same N n r := by
  refine ⟨hi, h.1.1.1, ?_, ⟨h.2.2, h.2.1⟩, h.1.2, p.rest⟩
  rw [h.1.1.2]
  unfold wantImei
  rcases latest_spec (seenWith N n.id) with ⟨h, hl⟩ | ⟨e, h, hm, ht⟩
  · right
    refine ⟨?_, by rw [h]; rfl⟩
    rintro ⟨e, he⟩
    have := (mem_seenWith ..).2 he
    rw [hl] at this
    cases this
  · left
    refine ⟨e, ⟨(mem_seenWith ..).1 hm, fun e' he' => ht e' ((mem_seenWith ..).2 he')⟩, by rw [h]; rfl⟩

theorem works_tail (c : Ctx N d0 done n) (F : Reads) (hF : F.keyErr n.id = false) (row : SubRow) (hi : row.imsi = n.imsi)
    (hR : Row N n row) :
    Works (fun d => Inv N d0 done d ∧ row ∈ d.subs) (importTail N F n (0, some row))
      (fun e d => e = .ok ∧ Full N n d) := by
  unfold importTail
  dsimp only
  have hlen := (c.plain.imsi n c.mem).1.2.1
  rw [c.imsi, if_neg (by rw [hi]; exact fun h => h (List.take_of_length_le hlen))]
  rcases c.key F hF row.id with ⟨h, hk⟩ | ⟨k, hk, hs, e, ki, hb, hl, ha, h⟩
  · rw [h]
    refine Works.pure ?_
    rintro d ⟨hI, hr⟩
    obtain ⟨p1, p2⟩ := hI.prog.new n c.mem row hr hi
    refine ⟨rfl, row, hr, row_same hi hR p1, ?_⟩
    rcases p2 with p2 | p2
    · exact .inl ⟨hk, p2⟩
    · exact p2
  · rw [h]
    refine Works.bind (fun _ d => Full N n d) ?_ (fun _ => Works.pure (fun _ h => ⟨rfl, h⟩))
    obtain ⟨hv, hnn⟩ := key_valid ha hl
    have sk := same_key (n := n) (id := row.id) hk hs hb
    have hn : algoOf k.algo ≠ .none := by simpa using hnn
    intro d hd
    have h1 := inv_del2 c hi hd
    have h2 := inv_ins2 c hi h1 sk
    have hrun : updateAud row.id (.gsm (algoOf k.algo) (hexText ki)) { db := d, script := [] }
        = (some (audAfterInsert (sqlInsAuc2 { id := row.id, algo := algoOf k.algo, ki := hexText ki } (sqlDelAuc2 row.id d).2).1),
           { db := (sqlInsAuc2 { id := row.id, algo := algoOf k.algo, ki := hexText ki } (sqlDelAuc2 row.id d).2).2, script := [] }) := by
      unfold updateAud
      dsimp only
      rw [hv, hnn, if_neg (by decide), bind_run]
      have e1 : (stmt (sqlDelAuc2 row.id) WRes.error { db := d, script := [] })
          = (some (sqlDelAuc2 row.id d).1, { db := (sqlDelAuc2 row.id d).2, script := [] }) := rfl
      rw [e1]
      dsimp only
      have : audAfterDelete false (sqlDelAuc2 row.id d).1 = .inr () := by
        rcases delAuc2_count d hd.1.prog.uniq row.id with h | h <;> rw [h] <;> rfl
      rw [this]
      rfl
    refine ⟨_, _, hrun, row, h2.1.2, ?_, h2.2⟩
    exact row_same hi hR (h2.1.1.prog.new n c.mem row h2.1.2 hi).1

/-- On a working database importing a subscriber ends properly and the subscriber is there. -/
theorem works_sub (c : Ctx N d0 done n) (F : Reads) (hF : F.keyErr n.id = false) :
    Works (Inv N d0 done) (importSub N F n) (fun e d => Inv N d0 done d ∧ (e = .ok ∧ Full N n d)) := by
  have hw : Works (fun d => Inv N d0 done d ∧ True) (importSub N F n) (fun e d => e = .ok ∧ Full N n d) := by
    obtain ⟨t, ht, hte, htp⟩ := c.expire
    unfold importSub
    rw [c.imsi, hte, c.auth]
    refine Works.bind _ (fun d hd => works_create c true true d hd.1) (fun _ => ?_)
    rw [if_neg (by omega)]
    refine Works.bind _ (works_msisdn c) (fun _ => ?_)
    refine Works.bind _ (works_imei c) (fun _ => ?_)
    refine Works.bind (fun _ d => Inv N d0 done d ∧ HasRow n.imsi (fun r => (r.msisdn = n.ext ∧ r.imei = wantImei N n)
        ∧ r.lastLu = n.expire.map (· - 61 * 60)) d)
      (Works.andPost (post_updRc (fun d h => inv_lu c h _)) (works_upd (f := fun r => { r with lastLu := if t - 3660 = 0 then none else some (t - 3660) }) (fun _ => rfl) ?_)) (fun _ => ?_)
    · intro r h
      refine ⟨h, ?_⟩
      rw [ht]
      show (if t - 3660 = 0 then none else some (t - 3660)) = some (t - 61 * 60)
      rw [if_neg (by omega), show (61 * 60 : Int) = 3660 by decide]
    refine Works.bind (fun _ d => Inv N d0 done d ∧ HasRow n.imsi (fun r => ((r.msisdn = n.ext ∧ r.imei = wantImei N n)
        ∧ r.lastLu = n.expire.map (· - 61 * 60)) ∧ r.namPs = decide (n.authorized ≠ 0)) d)
      (Works.andPost (post_updRc (fun d h => inv_nam c h _ true)) (works_upd (f := fun r => if true then { r with namPs := decide (n.authorized ≠ 0) } else { r with namCs := decide (n.authorized ≠ 0) }) (fun _ => rfl) (fun r h => ⟨h, rfl⟩))) (fun _ => ?_)
    refine Works.bind (fun _ d => Inv N d0 done d ∧ HasRow n.imsi (Row N n) d)
      (Works.andPost (post_updRc (fun d h => inv_nam c h _ false)) (works_upd (f := fun r => if false then { r with namPs := decide (n.authorized ≠ 0) } else { r with namCs := decide (n.authorized ≠ 0) }) (fun _ => rfl) (fun r h => ⟨h.1, h.2, rfl⟩))) (fun _ => ?_)
    refine Works.bind (fun r d => Inv N d0 done d ∧ ∃ row ∈ d.subs, row.imsi = n.imsi ∧ Row N n row ∧ r = (0, some row)) ?_ ?_
    · rintro d ⟨hI, r, hr, hi, hR⟩
      have hf : d.subs.find? (fun x => x.imsi == n.imsi) = some r := by
        rcases hf : d.subs.find? (fun x => x.imsi == n.imsi) with _ | x
        · exact absurd (by simpa using hi) (List.find?_eq_none.1 hf r hr)
        · have hx := List.mem_of_find?_eq_some hf
          have hxi : x.imsi = n.imsi := by simpa using List.find?_some hf
          rw [hf, eq_of_nodup_map hI.prog.uniq.imsis hx hr (hxi.trans hi.symm)]
      refine ⟨(0, some r), d, ?_, hI, r, hr, hi, hR, rfl⟩
      unfold getByImsi dbSel
      rw [bind_run]
      have : (stmt (sqlSel fun x => x.imsi == n.imsi) RRes.error { db := d, script := [] })
          = (some (.row r), { db := d, script := [] }) := by
        show (some (sqlSel _ d).1, _) = _
        unfold sqlSel
        rw [hf]
      rw [this]
      rfl
    · rintro r d ⟨hI, row, hr, hi, hR, rfl⟩
      exact works_tail c F hF row hi hR d ⟨hI, hr⟩
  have := Works.andPost (post_sub c F) hw
  exact fun d hd => this d ⟨hd, trivial⟩

end Verif.Import
