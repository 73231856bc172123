import Verif.Import.Lemmas2
/-! # The invariant is kept by every statement of an import, whatever fails -/
namespace Verif.Import
open Verif Verif.Db Verif.Prov

/-- The setting of the lemmas: subscriber `n` of `N` is being imported after `done`. -/
structure Ctx (N : Nitb) (d0 : Db) (done : List NSub) (n : NSub) : Prop where
  plain : Plain N
  fresh : Fresh N d0
  mem : n ∈ N.subs
  other : ∀ m ∈ done, m.imsi ≠ n.imsi

theorem valid_digits {lo hi : Nat} {t : Bytes} (h : Digits lo hi t) : isNDigits lo hi t = true := by
  unfold isNDigits
  simp only [Bool.and_eq_true, decide_eq_true_eq, List.all_eq_true]
  exact ⟨⟨h.1, h.2.1⟩, fun c hc => (digit_bounds (h.2.2 c hc)).1⟩

variable {N : Nitb} {d0 : Db} {done : List NSub} {n : NSub}

theorem Ctx.imsi (c : Ctx N d0 done n) : imsiStr n.imsi = n.imsi := imsiStr_eq (c.plain.imsi n c.mem).1 (c.plain.imsi n c.mem).2

theorem Ctx.text (c : Ctx N d0 done n) : textCol n.ext = n.ext.getD [] := by
  unfold textCol strlcpy
  refine List.take_of_length_le ?_
  rcases he : n.ext with _ | m
  · exact Nat.zero_le _
  · exact (c.plain.ext n c.mem m he).2.1

theorem Ctx.imei (c : Ctx N d0 done n) :
    (wantImei N n = none ∧ imeiCol N n = []) ∨ ∃ i, wantImei N n = some i ∧ imeiCol N n = i ∧ Digits 14 14 i := by
  unfold wantImei imeiCol
  rcases latest_spec (seenWith N n.id) with ⟨h, -⟩ | ⟨e, h, hm, -⟩
  · left; rw [h]; exact ⟨rfl, rfl⟩
  · right
    rw [h]
    obtain ⟨h1, h2⟩ := c.plain.imei e ((mem_seenWith ..).1 hm).1
    have hl : (e.imei.take 14).length = 14 := by rw [List.length_take]; omega
    refine ⟨_, rfl, ?_, by rw [hl]; exact Nat.le_refl _, by rw [hl]; exact Nat.le_refl _, fun c hc => h2 c (List.mem_of_mem_take hc)⟩
    show List.take 15 (e.imei.take 14) = _
    exact List.take_of_length_le (by rw [hl]; decide)

theorem post_updRc {P : Db → Prop} {f : Db → WRes × Db} (h : ∀ d, P d → P (f d).2) :
    Post P (do pure (updRc (← stmt f .error)) : DbM Int) (fun _ d => P d) :=
  Post.bind (fun _ d => P d) (Post.stmt (fun d hd => h d hd) (fun _ h => h) (fun _ h => h)) (fun _ h => h)
    (fun _ => Post.pure (fun _ h => h))

theorem post_create (c : Ctx N d0 done n) (x y : Bool) :
    Post (Inv N d0 done) (subscrCreate n.imsi x y) (fun _ d => Inv N d0 done d) := by
  unfold subscrCreate
  split
  · exact Post.pure (fun _ h => h)
  · refine Post.bind (fun _ d => Inv N d0 done d) (Post.stmt (fun d h => inv_create h c.mem c.plain.imsis x y) (fun _ h => h) (fun _ h => h))
      (fun _ h => h) (fun a => ?_)
    cases a <;> exact Post.pure (fun _ h => h)

theorem inv_msisdn (c : Ctx N d0 done n) {d : Db} (h : Inv N d0 done d) {m : Bytes} (he : n.ext = some m) :
    Inv N d0 done (sqlSetMsisdn n.imsi m d).2 := by
  have hU := h.prog.uniq.setMsisdn n.imsi m
  unfold sqlSetMsisdn at hU ⊢
  split
  · exact h
  · rename_i hc
    rw [if_neg hc] at hU
    exact inv_upd h c.mem c.other c.plain.imsis _ (fun _ => rfl) (fun _ => rfl)
      (fun r p => ⟨.inr he.symm, p.imei, p.rest⟩) hU

theorem post_msisdn (c : Ctx N d0 done n) :
    Post (Inv N d0 done) (updateMsisdn n.imsi (some (textCol n.ext))) (fun _ d => Inv N d0 done d) := by
  rw [c.text]
  unfold updateMsisdn
  dsimp only
  rcases he : n.ext with _ | m
  · exact Post.pure (fun _ h => h)
  · show Post _ (if (!msisdnValid m) = true then _ else _) _
    split
    · exact Post.pure (fun _ h => h)
    · exact post_updRc (fun d h => inv_msisdn c h he)

theorem inv_upd' (c : Ctx N d0 done n) {d : Db} (h : Inv N d0 done d) (f : SubRow → SubRow)
    (hid : ∀ r, (f r).id = r.id) (him : ∀ r, (f r).imsi = r.imsi) (hms : ∀ r, (f r).msisdn = r.msisdn)
    (hp : ∀ r, Part N n r → Part N n (f r)) : Inv N d0 done (sqlUpdSub (·.imsi == n.imsi) f d).2 :=
  inv_upd h c.mem c.other c.plain.imsis f hid him hp (h.prog.uniq.updSub _ _ hid him hms)

theorem inv_imei (c : Ctx N d0 done n) {d : Db} (h : Inv N d0 done d) {i : Bytes} (he : wantImei N n = some i) :
    Inv N d0 done (sqlUpdSub (·.imsi == n.imsi) (fun r => { r with imei := some i }) d).2 :=
  inv_upd' c h _ (fun _ => rfl) (fun _ => rfl) (fun _ => rfl) (fun r p => ⟨p.msisdn, .inr he.symm, p.rest⟩)

theorem inv_lu (c : Ctx N d0 done n) {d : Db} (h : Inv N d0 done d) (t : Option Int) :
    Inv N d0 done (sqlUpdSub (·.imsi == n.imsi) (fun r => { r with lastLu := t }) d).2 :=
  inv_upd' c h _ (fun _ => rfl) (fun _ => rfl) (fun _ => rfl) (fun r p => ⟨p.msisdn, p.imei, p.rest⟩)

theorem inv_nam (c : Ctx N d0 done n) {d : Db} (h : Inv N d0 done d) (v ps : Bool) :
    Inv N d0 done (sqlUpdSub (·.imsi == n.imsi)
      (fun r => if ps then { r with namPs := v } else { r with namCs := v }) d).2 := by
  cases ps <;>
  exact inv_upd' c h _ (fun _ => rfl) (fun _ => rfl) (fun _ => rfl) (fun r p => ⟨p.msisdn, p.imei, p.rest⟩)

theorem post_imei (c : Ctx N d0 done n) :
    Post (Inv N d0 done) (setImei n.imsi (imeiCol N n)) (fun _ d => Inv N d0 done d) := by
  unfold setImei
  rcases c.imei with ⟨-, h⟩ | ⟨i, h1, h2, h3⟩
  · rw [h]; exact Post.pure (fun _ h => h)
  · rw [h2]
    split
    · unfold updateImei
      dsimp only
      split
      · exact Post.pure (fun _ h => h)
      · exact post_updRc (fun d h => inv_imei c h h1)
    · exact Post.pure (fun _ h => h)

/-- The key the import finds for `n`. -/
theorem Ctx.key (c : Ctx N d0 done n) (F : Reads) (hF : F.keyErr n.id = false) (hid : Int) :
    (importKeys N F n.id hid = pure .ok ∧ ∀ k ∈ N.keys, k.sub ≠ n.id)
    ∨ ∃ k ∈ N.keys, k.sub = n.id ∧ ∃ e ki, k.blob = some (encodeBinary e ki) ∧ ki.length = 16
      ∧ algoOf k.algo ∈ [Algo.comp128v1, .comp128v2, .comp128v3, .xor2g]
      ∧ importKeys N F n.id hid = (do let _ ← updateAud hid (.gsm (algoOf k.algo) (hexText ki)); pure .ok) := by
  unfold importKeys
  rw [hF]
  have e32 : int32 n.id = n.id := int32_id (by have := (c.plain.ids n c.mem).1; omega) (c.plain.ids n c.mem).2
  rw [e32, if_neg (by decide)]
  rcases hk : N.keys.filter (fun k => k.sub == n.id) with _ | ⟨k, ks⟩
  · left
    refine ⟨by rw [hk], fun k hk' e => ?_⟩
    have : k ∈ N.keys.filter (fun k => k.sub == n.id) := List.mem_filter.2 ⟨hk', by simp [e]⟩
    rw [hk] at this
    cases this
  · right
    have hm : k ∈ N.keys.filter (fun k => k.sub == n.id) := by rw [hk]; exact List.mem_cons_self
    obtain ⟨hm1, hm2⟩ := List.mem_filter.1 hm
    obtain ⟨ha, e, ki, hb, hl⟩ := c.plain.keys k hm1
    refine ⟨k, hm1, by simpa using hm2, e, ki, hb, hl, ?_, ?_⟩
    · simp only [List.mem_cons, List.not_mem_nil, or_false] at ha
      rcases ha with h | h | h | h <;> rw [h] <;> decide
    · rw [hk]
      dsimp only
      rw [hb]
      dsimp only
      have := encode_length e ki
      rw [if_neg (by omega)]
      have hd : decodeBinary (encodeBinary e ki) = some ki := decodeLoop_encode e ki
      rw [hd]
      dsimp only
      have : int32 k.algo = k.algo := by
        simp only [List.mem_cons, List.not_mem_nil, or_false] at ha
        rcases ha with h | h | h | h <;> rw [h] <;> decide
      rw [this, hexdump_text]
      have : strlcpy 128 (hexText ki) = hexText ki := List.take_of_length_le (by rw [hexText_length, hl]; decide)
      rw [this]

theorem key_valid {al : Algo} {ki : Bytes} (h : al ∈ [Algo.comp128v1, .comp128v2, .comp128v3, .xor2g])
    (hl : ki.length = 16) : aud2Valid al (hexText ki) = true ∧ (al == Algo.none) = false := by
  have hh : isHexStr 32 32 (hexText ki) = true := by
    unfold isHexStr
    have := hexText_length ki
    rw [hl] at this
    rw [this]
    simp only [Bool.and_eq_true, List.all_eq_true, decide_eq_true_eq]
    exact ⟨⟨⟨by decide, by decide⟩, hexText_hex ki⟩, by decide⟩
  simp only [List.mem_cons, List.not_mem_nil, or_false] at h
  rcases h with rfl | rfl | rfl | rfl <;> exact ⟨hh, rfl⟩

theorem key2_append {d : Db} {a : Auc2} (h : key2 d a.id = none) :
    key2 { d with auc2 := d.auc2 ++ [a] } a.id = some a := by
  unfold key2 at h ⊢
  rw [List.find?_append, h]
  simp

theorem key2_append_ne {d : Db} {a : Auc2} {i : Int} (h : i ≠ a.id) :
    key2 { d with auc2 := d.auc2 ++ [a] } i = key2 d i := by
  unfold key2
  rw [List.find?_append]
  have : (a.id == i) = false := by simpa using fun e => h e.symm
  simp [this]

theorem inv_del2 (c : Ctx N d0 done n) {row : SubRow} (hi : row.imsi = n.imsi) {d : Db}
    (h : Inv N d0 done d ∧ row ∈ d.subs) :
    (Inv N d0 done (sqlDelAuc2 row.id d).2 ∧ row ∈ (sqlDelAuc2 row.id d).2.subs) ∧ key2 (sqlDelAuc2 row.id d).2 row.id = none := by
  refine ⟨⟨inv_key h.1 c.mem c.other c.plain.imsis h.2 hi _ rfl rfl rfl (h.1.prog.uniq.delAuc2 _) ?_ ?_ (.inl (key2_filter ..)), h.2⟩, key2_filter ..⟩
  · exact keySubs_mono h.1.prog.orphan (fun r hr => ⟨r, hr, rfl⟩)
      (fun a ha => .inl (List.mem_filter.1 ha).1) (fun a ha => .inl ⟨a, ha, rfl⟩)
  · intro i hne
    exact find_filter_ne hne

theorem inv_ins2 (c : Ctx N d0 done n) {row : SubRow} (hi : row.imsi = n.imsi) {d : Db}
    (h : (Inv N d0 done d ∧ row ∈ d.subs) ∧ key2 d row.id = none) {al : Algo} {t : Bytes}
    (hk : SameKey N n (some { id := row.id, algo := al, ki := t })) :
    (Inv N d0 done (sqlInsAuc2 { id := row.id, algo := al, ki := t } d).2
      ∧ row ∈ (sqlInsAuc2 { id := row.id, algo := al, ki := t } d).2.subs)
    ∧ SameKey N n (key2 (sqlInsAuc2 { id := row.id, algo := al, ki := t } d).2 row.id) := by
  have hno : d.auc2.any (fun a => a.id == row.id) = false := by
    rw [List.any_eq_false]
    have := h.2
    unfold key2 at this
    rw [List.find?_eq_none] at this
    exact this
  have hU := h.1.1.prog.uniq.insAuc2 { id := row.id, algo := al, ki := t }
  unfold sqlInsAuc2 at hU ⊢
  dsimp only at hU ⊢
  rw [hno] at hU ⊢
  rw [if_neg (by decide)] at hU ⊢
  have hk' := key2_append (d := d) (a := { id := row.id, algo := al, ki := t }) h.2
  dsimp only at hk'
  refine ⟨⟨inv_key h.1.1 c.mem c.other c.plain.imsis h.1.2 hi _ rfl rfl rfl hU ?_ ?_ ?_, h.1.2⟩, ?_⟩
  · refine keySubs_mono h.1.1.prog.orphan (fun r hr => ⟨r, hr, rfl⟩) ?_ (fun a ha => .inl ⟨a, ha, rfl⟩)
    intro a ha
    rcases List.mem_append.1 ha with ha | ha
    · exact .inl ha
    · rw [List.mem_singleton.1 ha]
      exact .inr ⟨row, h.1.2, rfl⟩
  · intro i hne
    exact key2_append_ne hne
  · right
    rw [hk']
    exact hk
  · dsimp only
    rw [hk']
    exact hk

theorem post_aud (c : Ctx N d0 done n) {row : SubRow} (hi : row.imsi = n.imsi) {al : Algo} {ki : Bytes}
    (hal : al ∈ [Algo.comp128v1, .comp128v2, .comp128v3, .xor2g]) (hl : ki.length = 16)
    (hk : SameKey N n (some { id := row.id, algo := al, ki := hexText ki })) :
    Post (fun d => Inv N d0 done d ∧ row ∈ d.subs) (updateAud row.id (.gsm al (hexText ki)))
      (fun _ d => Inv N d0 done d) := by
  obtain ⟨hv, hnn⟩ := key_valid hal hl
  unfold updateAud
  dsimp only
  rw [hv, hnn]
  rw [if_neg (by decide)]
  refine Post.bind (fun o d => (Inv N d0 done d ∧ row ∈ d.subs) ∧ (∀ k, o = some (.done k) → key2 d row.id = none))
    (Post.stmt ?_ ?_ ?_) (fun _ h => h.1.1) (fun a => ?_)
  · intro d h
    have := inv_del2 c hi h
    exact ⟨this.1, fun _ _ => this.2⟩
  · intro d h
    exact ⟨h, fun _ e => by cases e⟩
  · intro d h
    exact ⟨h, fun _ e => by cases e⟩
  · have ins : Post (fun d => (Inv N d0 done d ∧ row ∈ d.subs) ∧ key2 d row.id = none)
        (do pure (audAfterInsert (← stmt (sqlInsAuc2 { id := row.id, algo := al, ki := hexText ki }) .error)) : DbM Int)
        (fun _ d => Inv N d0 done d) :=
      Post.bind (fun _ d => Inv N d0 done d) (Post.stmt (fun d h => (inv_ins2 c hi h hk).1.1) (fun _ h => h.1.1) (fun _ h => h.1.1))
        (fun _ h => h) (fun _ => Post.pure (fun _ h => h))
    cases a with
    | unique => exact Post.pure (fun _ h => h.1.1)
    | error => exact Post.pure (fun _ h => h.1.1)
    | done k =>
      have ins' : Post (fun d => (Inv N d0 done d ∧ row ∈ d.subs)
          ∧ (∀ j, some (WRes.done k) = some (WRes.done j) → key2 d row.id = none)) _ (fun _ d => Inv N d0 done d) :=
        ins.mono (fun d h => ⟨h.1, h.2 k rfl⟩) (fun _ _ h => h)
      rcases k with _ | _ | k
      · exact ins'
      · exact ins'
      · exact Post.pure (fun _ h => h.1.1)

theorem same_key {k : NKey} {e : UInt8} {ki : Bytes} {id : Int} (hk : k ∈ N.keys) (hs : k.sub = n.id)
    (hb : k.blob = some (encodeBinary e ki)) :
    SameKey N n (some { id := id, algo := algoOf k.algo, ki := hexText ki }) :=
  .inr ⟨k, hk, hs, e, ki, hb, rfl⟩

theorem post_tail (c : Ctx N d0 done n) (F : Reads) (r : Int × Option SubRow) :
    Post (fun d => Inv N d0 done d ∧ ∀ row, r.2 = some row → row ∈ d.subs ∧ row.imsi = n.imsi) (importTail N F n r)
      (fun _ d => Inv N d0 done d) := by
  unfold importTail
  rcases hr : r.2 with _ | row
  · exact Post.pure (fun _ h => h.1)
  · dsimp only
    split
    · exact Post.pure (fun _ h => h.1)
    · by_cases hE : F.keyErr n.id = true
      · unfold importKeys
        rw [if_pos hE]
        exact Post.pure (fun _ h => h.1)
      · by_cases hi : row.imsi = n.imsi
        case neg => exact fun w hw => absurd (hw.2 row rfl).2 hi
        rcases c.key F (by simpa using hE) row.id with ⟨h, -⟩ | ⟨k, hk, hs, e, ki, hb, hl, ha, h⟩
        · rw [h]; exact Post.pure (fun _ h => h.1)
        · rw [h]
          refine Post.bind (fun _ d => Inv N d0 done d) ((post_aud c hi ha hl (same_key hk hs hb)).mono ?_ (fun _ _ h => h))
            (fun _ h => h) (fun _ => Post.pure (fun _ h => h))
          exact fun d h => ⟨h.1, (h.2 row rfl).1⟩

theorem post_sel (N : Nitb) (d0 : Db) (done : List NSub) (n : NSub) :
    Post (Inv N d0 done) (getByImsi n.imsi)
      (fun o d => Inv N d0 done d ∧ ∀ r, o = some r → ∀ row, r.2 = some row → row ∈ d.subs ∧ row.imsi = n.imsi) := by
  unfold getByImsi dbSel
  refine Post.bind (fun o d => Inv N d0 done d ∧ ∀ row, o = some (.row row) → row ∈ d.subs ∧ row.imsi = n.imsi)
    (Post.stmt ?_ ?_ ?_) ?_ ?_
  · intro d h
    refine ⟨h, fun row e => ?_⟩
    simp only [sqlSel, Option.some.injEq] at e
    rcases hf : d.subs.find? (fun r => r.imsi == n.imsi) with _ | x
    · rw [hf] at e; cases e
    · rw [hf] at e
      injection e with e
      subst e
      exact ⟨List.mem_of_find?_eq_some hf, by simpa using List.find?_some hf⟩
  · exact fun d h => ⟨h, fun _ e => by cases e⟩
  · exact fun d h => ⟨h, fun _ e => by cases e⟩
  · exact fun d h => ⟨h.1, fun _ e => by cases e⟩
  · intro a
    cases a with
    | row x =>
      refine Post.pure (fun d h => ⟨h.1, fun r e row e' => ?_⟩)
      injection e with e
      subst e
      injection e' with e'
      subst e'
      exact h.2 _ rfl
    | done =>
      refine Post.pure (fun d h => ⟨h.1, fun r e row e' => ?_⟩)
      injection e with e
      subst e
      cases e'
    | error =>
      refine Post.pure (fun d h => ⟨h.1, fun r e row e' => ?_⟩)
      injection e with e
      subst e
      cases e'

theorem post_seq {α β : Type} {P : Db → Prop} {Q : Option β → Db → Prop} {m : DbM α} {f : α → DbM β}
    (h : Post P m (fun _ d => P d)) (hn : ∀ d, P d → Q none d) (hf : ∀ a, Post P (f a) Q) : Post P (m >>= f) Q :=
  Post.bind (fun _ d => P d) h hn hf

/-- Importing one subscriber keeps the invariant, whatever fails. -/
theorem post_sub (c : Ctx N d0 done n) (F : Reads) :
    Post (Inv N d0 done) (importSub N F n) (fun _ d => Inv N d0 done d) := by
  unfold importSub
  rw [c.imsi]
  refine post_seq (post_create c true true) (fun _ h => h) (fun _ => ?_)
  split
  · exact Post.pure (fun _ h => h)
  refine post_seq (post_msisdn c) (fun _ h => h) (fun _ => ?_)
  refine post_seq (post_imei c) (fun _ h => h) (fun _ => ?_)
  refine post_seq (post_updRc (fun d h => inv_lu c h _)) (fun _ h => h) (fun _ => ?_)
  refine post_seq (post_updRc (fun d h => inv_nam c h _ true)) (fun _ h => h) (fun _ => ?_)
  refine post_seq (post_updRc (fun d h => inv_nam c h _ false)) (fun _ h => h) (fun _ => ?_)
  refine Post.bind _ (post_sel N d0 done n) (fun _ h => h.1) (fun r => ?_)
  exact (post_tail c F r).mono (fun d h => ⟨h.1, fun row e => h.2 r rfl row e⟩) (fun _ _ h => h)

end Verif.Import
