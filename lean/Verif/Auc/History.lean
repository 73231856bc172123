import Verif.Auc.Lemmas2
/-! # Sequence numbers over histories -/
namespace Verif.Auc
open Verif Verif.Db Verif.Hlr

/-- Subscriber `id` is `imsi` and has exactly the 3G key record `a`. -/
structure Own (id : Int) (imsi : Bytes) (a : Auc3) (d : Db) : Prop where
  uniq : Unique d
  row : ∃ r ∈ d.subs, r.id = id ∧ r.imsi = imsi
  key : key3 d id = some a

theorem Own.updSub {id : Int} {imsi : Bytes} {a : Auc3} {d : Db} (h : Own id imsi a d)
    (c : SubRow → Bool) (f : SubRow → SubRow) (hU : Unique (sqlUpdSub c f d).2)
    (h1 : ∀ r, (f r).id = r.id) (h2 : ∀ r, (f r).imsi = r.imsi) :
    Own id imsi a (sqlUpdSub c f d).2 := by
  refine ⟨hU, ?_, h.key⟩
  obtain ⟨r, hr, hi, hm⟩ := h.row
  refine ⟨if c r then f r else r, List.mem_map.mpr ⟨r, hr, rfl⟩, ?_, ?_⟩
  · split <;> simp [h1, hi]
  · split <;> simp [h2, hm]

theorem unique_issue {op : Op} {g : Db → Db} (hg : Issues op g) {d : Db} (h : Unique d) :
    Unique (g d) := by
  cases hg with
  | create _ => exact h.create _ _ _
  | del => exact h.delById _
  | del2 => exact h.delAuc2 _
  | del3 => exact h.delAuc3 _
  | aud2d => exact h.delAuc2 _
  | aud3d => exact h.delAuc3 _
  | aud2i _ _ => exact h.insAuc2 _
  | aud3i _ _ => exact h.insAuc3 _
  | msisdn _ => exact h.setMsisdn _ _
  | noMsisdn => exact h.delMsisdn _
  | imei _ => exact h.updSub _ _ (fun _ => rfl) (fun _ => rfl) (fun _ => rfl)
  | @nam i v p | @purge i v p =>
    cases p <;> exact h.updSub _ _ (fun _ => rfl) (fun _ => rfl) (fun _ => rfl)
  | @lu1 i n p v t | @lu2 i n p v t =>
    cases p <;> exact h.updSub _ _ (fun _ => rfl) (fun _ => rfl) (fun _ => rfl)
  | ind _ => exact h.indAdd _
  | indDel _ => exact h.indDel _
  | sqn => exact h.updSqn _ _

theorem find_filter_ne {α : Type} (l : List α) (f : α → Int) {i id : Int} (h : i ≠ id) :
    (l.filter (fun a => f a != i)).find? (fun a => f a == id) = l.find? (fun a => f a == id) := by
  rw [List.find?_filter]
  congr 1
  funext a
  by_cases ha : f a = id
  · simp [ha, h.symm]
  · simp [ha]

theorem find_map_ne {α : Type} (l : List α) (f : α → Int) (g : α → α) (hf : ∀ a, f (g a) = f a)
    {i id : Int} (h : i ≠ id) :
    (l.map (fun a => if f a == i then g a else a)).find? (fun a => f a == id)
      = l.find? (fun a => f a == id) := by
  induction l with
  | nil => rfl
  | cons a l ih =>
    simp only [List.map_cons, List.find?_cons]
    by_cases ha : f a = id
    · have : (f a == i) = false := by simp [ha]; exact fun e => h e.symm
      rw [this]
      simp only [Bool.false_eq_true, if_false, ha, beq_self_eq_true]
    · have h2 : (f (if (f a == i) = true then g a else a) == id) = false := by
        split <;> simp [hf, ha]
      have h3 : (f a == id) = false := by simp [ha]
      simp only [h2, h3, ih]

theorem own_issue {op : Op} {g : Db → Db} (hg : Issues op g) {id : Int} {imsi : Bytes} {a : Auc3}
    {s : Script} (hp : (Ev.db op s).Plain id imsi) {d : Db} (h : Own id imsi a d) :
    Own id imsi a (g d) := by
  have hU := unique_issue hg h.uniq
  obtain ⟨r, hr, hri, hrm⟩ := h.row
  have hk := h.key
  cases hg with
  | create _ =>
    refine ⟨hU, ?_, ?_⟩
    · dsimp only [sqlCreate]; split
      · exact ⟨r, hr, hri, hrm⟩
      · exact ⟨r, List.mem_append_left _ hr, hri, hrm⟩
    · dsimp only [sqlCreate]; split <;> exact hk
  | del =>
    simp only [Ev.Plain] at hp
    refine ⟨hU, ⟨r, List.mem_filter.mpr ⟨hr, ?_⟩, hri, hrm⟩, hk⟩
    simp [hri]; exact fun e => hp e.symm
  | del2 => exact ⟨hU, h.row, hk⟩
  | del3 =>
    simp only [Ev.Plain] at hp
    exact ⟨hU, h.row, (find_filter_ne d.auc3 (·.id) hp).trans hk⟩
  | aud2d => exact ⟨hU, h.row, hk⟩
  | aud3d =>
    simp only [Ev.Plain] at hp
    exact ⟨hU, h.row, (find_filter_ne d.auc3 (·.id) hp).trans hk⟩
  | aud2i _ _ =>
    refine ⟨hU, ?_, ?_⟩ <;> dsimp only [sqlInsAuc2] <;> split
    · exact h.row
    · exact h.row
    · exact hk
    · exact hk
  | aud3i _ _ =>
    refine ⟨hU, ?_, ?_⟩
    · dsimp only [sqlInsAuc3]; split
      · exact h.row
      · exact h.row
    · dsimp only [sqlInsAuc3]; split
      · exact hk
      · unfold key3 at hk ⊢
        simp only [List.find?_append, hk, Option.some_or]
  | msisdn _ =>
    revert hU
    dsimp only [sqlSetMsisdn]; split
    · exact fun _ => h
    · exact fun hU => h.updSub _ _ hU (fun _ => rfl) (fun _ => rfl)
  | noMsisdn => exact h.updSub _ _ hU (fun _ => rfl) (fun _ => rfl)
  | imei _ => exact h.updSub _ _ hU (fun _ => rfl) (fun _ => rfl)
  | @nam i v p | @purge i v p => cases p <;> exact h.updSub _ _ hU (fun _ => rfl) (fun _ => rfl)
  | @lu1 i n p v t | @lu2 i n p v t =>
    cases p <;> exact h.updSub _ _ hU (fun _ => rfl) (fun _ => rfl)
  | ind _ =>
    refine ⟨hU, ?_, ?_⟩ <;> dsimp only [sqlIndAdd] <;> split
    · exact h.row
    · exact h.row
    · exact hk
    · exact hk
  | indDel _ => exact ⟨hU, h.row, hk⟩
  | @sqn i q =>
    simp only [Ev.Plain] at hp
    exact ⟨hU, h.row, (find_map_ne d.auc3 (·.id) (fun r => { r with sqn := q }) (fun _ => rfl) hp).trans hk⟩

theorem own_op {op : Op} {id : Int} {imsi : Bytes} {a : Auc3} {s : Script}
    (hp : (Ev.db op s).Plain id imsi) : Sat (Keeps (Own id imsi a)) op.run :=
  Sat.op (Keeps.pre _) op (fun _ hg _ h => own_issue hg hp h)

/-! ## Creation on demand -/

theorem genMsisdn_sat {R : Db → Db → Prop} (hR : Pre R) (rnd : Nat → Option (Nat → UInt8))
    (len : Nat) : ∀ n i, Sat R (genMsisdn rnd len n i)
  | 0, i => Sat.pure hR _
  | n + 1, i => by
    unfold genMsisdn
    split
    · exact Sat.pure hR _
    · refine Sat.bind hR (existsByMsisdn_sat hR _) (fun rc => ?_)
      split
      · exact Sat.pure hR _
      · exact genMsisdn_sat hR rnd len n (i + 1)

theorem codMsisdn_sat {R : Db → Db → Prop} (hR : Pre R) (cfg : Cfg)
    (rnd : Nat → Option (Nat → UInt8)) (imsi : Bytes) : Sat R (codMsisdn cfg rnd imsi) := by
  unfold codMsisdn
  split
  · exact Sat.pure hR _
  · exact genMsisdn_sat hR _ _ _ _
  · exact Sat.pure hR _
  · exact Sat.pure hR _

theorem createOnDemand_sat {R : Db → Db → Prop} (hR : Pre R) (cfg : Cfg)
    (rnd : Nat → Option (Nat → UInt8)) (imsi : Bytes)
    (h1 : Sat R (Op.create imsi cfg.codCs cfg.codPs).run)
    (h2 : ∀ m, Sat R (Op.msisdn imsi (some m)).run) :
    Sat R (createOnDemand cfg rnd imsi) := by
  refine Sat.bind hR (existsByImsi_sat hR _) (fun e => ?_)
  split
  · exact Sat.pure hR _
  · refine Sat.bind hR (codMsisdn_sat hR _ _ _) (fun m => ?_)
    cases m with
    | none => exact Sat.pure hR _
    | some m =>
      refine Sat.bind hR h1 (fun rc => ?_)
      split
      · exact Sat.pure hR _
      · split
        · exact Sat.pure hR _
        · exact h2 m

theorem own_cod {id : Int} {imsi : Bytes} {a : Auc3} (cfg : Cfg)
    (rnd : Nat → Option (Nat → UInt8)) (i : Bytes) :
    Sat (Keeps (Own id imsi a)) (createOnDemand cfg rnd i) :=
  createOnDemand_sat (Keeps.pre _) _ _ _ (own_op (s := []) trivial)
    (fun _ => own_op (s := []) trivial)

theorem own_ind {id : Int} {imsi : Bytes} {a : Auc3} (raw : Bytes) :
    Sat (Keeps (Own id imsi a)) (dbInd raw) :=
  dbInd_sat (Keeps.pre _) raw (own_op (s := []) trivial)

/-! ## One request -/

theorem setSqn_own_other {id id' : Int} {imsi : Bytes} {a : Auc3} {d : Db} {q : Nat}
    (h : Own id imsi a d) (hne : id' ≠ id) : Own id imsi a (setSqn d id' q) :=
  own_issue (op := .sqn id' q) (s := []) .sqn hne h

theorem find_map_eq {l : List Auc3} {id : Int} {a : Auc3} {q : Nat}
    (h : l.find? (fun a => a.id == id) = some a) :
    (l.map (fun r => if r.id == id then { r with sqn := q } else r)).find? (fun a => a.id == id)
      = some { a with sqn := q } := by
  induction l with
  | nil => simp at h
  | cons x l ih =>
    simp only [List.find?_cons] at h
    simp only [List.map_cons, List.find?_cons]
    by_cases hx : x.id = id
    · simp only [hx, beq_self_eq_true, Option.some.injEq] at h
      subst h
      simp [hx]
    · have h2 : (x.id == id) = false := by simp [hx]
      simp only [h2, Bool.false_eq_true, if_false] at h ⊢
      exact ih h

theorem setSqn_own {id : Int} {imsi : Bytes} {a : Auc3} {d : Db} {q : Nat}
    (h : Own id imsi a d) : Own id imsi { a with sqn := q } (setSqn d id q) :=
  ⟨unique_issue (op := .sqn id q) .sqn h.uniq, h.row, find_map_eq h.key⟩

theorem vecLoop_2g_sqns (c : Crypto) (rands : Nat → Option Bytes) (g : Option Aud2)
    (rs : Option (Bytes × Bytes)) (n i : Nat) : sqnsOf (vecLoop c rands g rs n i none).1 = [] := by
  have hf := vecLoop_from c rands g rs n i none
  dsimp only at hf
  unfold sqnsOf
  rw [List.filterMap_eq_nil_iff]
  intro v hv
  obtain ⟨k, hk', rfl⟩ := List.getElem_of_mem hv
  have := (hf.2.1 k hk').1
  generalize (vecLoop c rands g rs n i none).1[k] = v at this
  cases g with
  | none => simp [VecFrom] at this
  | some g => simp only [VecFrom] at this; rw [this.1]; rfl

theorem load3_fields {a : Auc3} {u : Aud3} (h : load3 a = some u) :
    u.sqn = a.sqn ∧ u.bl = a.indBitlen ∧ u.algo = a.algo := by
  unfold load3 at h
  split at h
  · simp at h
  · split at h
    · simp at h
    · cases h; exact ⟨rfl, rfl, rfl⟩

/-- Number of multiples of `2^bl` the sequence number has passed. -/
def slot (a : Auc3) : Nat := a.sqn / 2 ^ a.indBitlen

theorem sqnsOf_of_map {l : List Vec} {f : Nat → Nat}
    (h : l.map Vec.sqn? = (List.range l.length).map (fun k => some (f k))) :
    sqnsOf l = (List.range l.length).map f := by
  have : sqnsOf l = (l.map Vec.sqn?).filterMap (fun x => x) := by
    unfold sqnsOf
    rw [List.filterMap_map]; rfl
  rw [this, h, List.filterMap_map]
  simp [Function.comp_def]

/-- Result of a request for `imsi` without AUTS, seen from subscriber `id`/`imsi`:
the sequence numbers handed out are the multiples following the stored one, plus
`ind`, and the stored one is at least as far. -/
def SqnStep (id : Int) (imsi : Bytes) (a : Auc3) (n : Nat) (o : Option AucRes) (d' : Db) : Prop :=
  ∃ ind m len, ∃ a', Own id imsi a' d' ∧ len ≤ m ∧ m ≤ n ∧ (0 < m → ind < 2 ^ a.indBitlen)
    ∧ a' = (if m = 0 then a else { a with sqn := (slot a + m) * 2 ^ a.indBitlen + ind })
    ∧ ∀ vs, o = some (.vecs vs) →
        sqnsOf vs = (List.range len).map (fun k => (slot a + (1 + k)) * 2 ^ a.indBitlen + ind)

theorem SqnStep.same {id : Int} {imsi : Bytes} {a : Auc3} {n : Nat} {o : Option AucRes} {d : Db}
    (h : Own id imsi a d) (ho : ∀ vs, o = some (.vecs vs) → sqnsOf vs = []) :
    SqnStep id imsi a n o d :=
  ⟨0, 0, 0, a, h, by omega, by omega, by omega, by simp, by simpa using ho⟩

theorem filter_algo {u : Aud3} (h : u.algo ≠ .none) :
    Option.filter (fun a : Aud3 => a.algo != Algo.none) (some u) = some u := by
  simp [Option.filter, h]

theorem auc_step {c : Crypto} {rands : Nat → Option Bytes} {imsi : Bytes} {ind n : Nat}
    {ra : Option Bytes} {sep : Bool} {id : Int} {a : Auc3} {d : Db} {o : Option AucRes} {d' : Db}
    (h : Own id imsi a d) (hxor : a.algo ≠ .xor3g)
    (hb : (slot a + n + 1) * 2 ^ a.indBitlen ≤ 2 ^ 48)
    (hp : AucPost c rands imsi ind n ra none sep d o d') : SqnStep id imsi a n o d' := by
  have key : ∀ {id' g u}, authKeys d imsi = .keys id' g u → id' = id ∧ u = load3 a := by
    intro id' g u hk
    obtain ⟨⟨r, hr, hri, hrid⟩, _, h3⟩ := authKeys_keys hk
    obtain ⟨r0, hr0, hr0id, hr0i⟩ := h.row
    have : r = r0 := eq_of_nodup_map h.uniq.imsis hr hr0 (hri.trans hr0i.symm)
    subst this
    refine ⟨hrid.symm.trans hr0id, ?_⟩
    have e : id' = id := hrid.symm.trans hr0id
    subst e
    rw [h3, h.key]; rfl
  cases hp with
  | died => exact .same h (by simp)
  | eio => exact .same h (by simp)
  | nokeys _ => exact .same h (by simp)
  | ub _ _ => exact .same h (by simp)
  | @only2g id' g r hk hr =>
    refine .same h ?_
    intro vs hvs
    subst hr
    simp only [Option.some.injEq] at hvs
    unfold aucRet at hvs
    split at hvs
    · simp at hvs
    · rename_i l hl
      cases hvs
      unfold computeVectors at hl
      dsimp only at hl
      split at hl
      · simp at hl
      · rename_i hnn
        cases ra with
        | some x => simp at hl
        | none =>
          simp only [Option.some.injEq] at hl
          subst hl
          exact vecLoop_2g_sqns c rands _ none n 0
  | @noalgo id' g u r hk ha hr =>
    refine .same h ?_
    intro vs hvs
    subst hr
    simp only [Option.some.injEq] at hvs
    unfold aucRet at hvs
    split at hvs
    · simp at hvs
    · rename_i l hl
      cases hvs
      unfold computeVectors at hl
      have hfn : Option.filter (fun a : Aud3 => a.algo != Algo.none)
          (some { u with ind := ind % 2 ^ u.bl, sep := sep }) = none := by
        simp [Option.filter, ha]
      dsimp only at hl
      rw [hfn] at hl
      split at hl
      · simp at hl
      · cases ra with
        | some x => simp at hl
        | none =>
          simp only [Option.some.injEq] at hl
          subst hl
          exact vecLoop_2g_sqns c rands _ none n 0
  | unstored _ => exact .same h (by simp)
  | @stored id' g u r a' hk hbl ha hr =>
    obtain ⟨rfl, hu⟩ := key hk
    obtain ⟨e1, e2, e3⟩ := load3_fields hu.symm
    unfold computeVectors at hr
    dsimp only at hr
    rw [filter_algo (u := { u with ind := ind % 2 ^ u.bl, sep := sep }) ha] at hr
    simp only [Option.isNone_some, Bool.and_false, Bool.false_eq_true, if_false] at hr
    have noch : some { u with ind := ind % 2 ^ u.bl, sep := sep } = some a' →
        SqnStep id' imsi a n (some (aucRet (Option.none (α := List Vec)))) (setSqn d id' a'.sqn) := by
      intro hh
      cases hh
      have : Own id' imsi a (setSqn d id' u.sqn) := by
        have := setSqn_own (q := a.sqn) h
        rw [e1]; exact this
      exact .same this (by intro vs hvs; simp [aucRet] at hvs)
    cases ra with
    | some x =>
      simp only [Prod.mk.injEq] at hr
      obtain ⟨rfl, h2⟩ := hr
      exact noch h2
    | none =>
      simp only [Prod.mk.injEq] at hr
      obtain ⟨rfl, h2⟩ := hr
      have hv := vecLoop_3g c rands (Option.filter (fun a => a.algo != Algo.none) g) none n 0
        { u with ind := ind % 2 ^ u.bl, sep := sep } (Or.inl rfl)
        (by rw [← e3] at hxor; exact hxor)
        (by show (u.sqn / 2 ^ u.bl + n + 1) * 2 ^ u.bl ≤ _; rw [e1, e2]; exact hb)
      dsimp only at hv
      obtain ⟨hm, hpos, m, hlm, hmn, _, _, hmi, hr2⟩ := hv
      rw [hr2] at h2
      refine ⟨ind % 2 ^ u.bl, m, _, _, setSqn_own (q := a'.sqn) h, hlm, hmn,
        fun h0 => ?_, ?_, ?_⟩
      · have := hmi h0; rw [← e2]; exact this
      · simp only [Option.some.injEq] at h2
        subst h2
        unfold slot
        split
        · simp only [e1]
        · simp only [e1, e2]
      · intro vs hvs
        simp only [aucRet, Option.some.injEq, AucRes.vecs.injEq] at hvs
        subst hvs
        rw [sqnsOf_of_map (f := fun k => (u.sqn / 2 ^ u.bl + (1 + k)) * 2 ^ u.bl + ind % 2 ^ u.bl) hm]
        unfold slot
        rw [e1, e2]

/-- A request for another subscriber. -/
theorem auc_other {c : Crypto} {rands : Nat → Option Bytes} {imsi i : Bytes} {ind n : Nat}
    {ra au : Option Bytes} {sep : Bool} {id : Int} {a : Auc3} {d : Db} {o : Option AucRes} {d' : Db}
    (h : Own id imsi a d) (hi : i ≠ imsi) (hp : AucPost c rands i ind n ra au sep d o d') :
    Own id imsi a d' := by
  cases hp with
  | died => exact h
  | eio => exact h
  | nokeys _ => exact h
  | ub _ _ => exact h
  | only2g _ _ => exact h
  | noalgo _ _ _ => exact h
  | unstored _ => exact h
  | stored hk _ _ _ =>
    refine setSqn_own_other h ?_
    obtain ⟨⟨r, hr, hri, hrid⟩, _⟩ := authKeys_keys hk
    obtain ⟨r0, hr0, hr0id, hr0i⟩ := h.row
    intro e
    have : r = r0 := eq_of_nodup_map h.uniq.ids hr hr0 (by rw [hrid, hr0id, e])
    subst this
    exact hi (hri.symm.trans hr0i)

theorem saiNum_le (n : Nat) : saiNum n ≤ 5 := by unfold saiNum; split <;> omega

/-- What a Send Auth Info Request does, in terms of the database on which the
vectors are generated. -/
theorem rxSai_post (cfg : Cfg) (c : Crypto) (rands : Nat → Option Bytes)
    (rnd : Nat → Option (Nat → UInt8)) (q : SaiReq) {I : Db → Prop} {Q : Option SaiOut → Db → Prop}
    (hU : ∀ d, I d → Unique d)
    (hcod : Sat (Keeps I) (createOnDemand cfg rnd q.imsi)) (hind : Sat (Keeps I) (dbInd q.source))
    (hn : ∀ d, I d → Q none d)
    (hq : ∀ d ind o d', I d → AucPost c rands q.imsi ind (saiNum q.num) q.rand q.auts q.sgs d o d' →
      Q (o.map (saiAnswer cfg)) d') :
    Post I (rxSai cfg c rands rnd q) Q := by
  refine Post.bind _ hcod.keepsPost hn (fun _ => ?_)
  refine Post.bind _ hind.keepsPost hn (fun r => ?_)
  intro w hw
  have h := dbGetAuc_post c rands q.imsi (if r.1 = 0 then r.2 else 0) (saiNum q.num) q.rand q.auts
    q.sgs w.db (hU _ hw) w rfl
  have h2 := hq _ _ _ _ hw h
  rw [bind_run]
  rcases hm : dbGetAuc c rands q.imsi (if r.1 = 0 then r.2 else 0) (saiNum q.num) q.rand q.auts
    q.sgs w with ⟨o, w'⟩
  rw [hm] at h2
  cases o with
  | none => exact h2
  | some a => exact h2

theorem saiAnswer_result {cfg : Cfg} {x : AucRes} {vs : List Vec}
    (h : saiAnswer cfg x = .result vs) : x = .vecs vs := by
  unfold saiAnswer at h
  split at h
  · simp at h
  · cases h; rfl
  · split at h
    · simp at h
    · split at h <;> simp at h
  · simp at h

theorem pairwise_slots (q ind bl len : Nat) :
    ((List.range len).map (fun k => (q + (1 + k)) * 2 ^ bl + ind)).Pairwise (· < ·) := by
  rw [List.pairwise_map]
  refine List.pairwise_lt_range.imp ?_
  intro x y hxy
  have : (q + (1 + x)) * 2 ^ bl < (q + (1 + y)) * 2 ^ bl :=
    Nat.mul_lt_mul_of_pos_right (by omega) (Nat.pow_pos (by omega))
  omega

/-- The heart of C12. -/
theorem issued_increasing (id : Int) (imsi : Bytes) :
    ∀ (evs : List Ev) (a : Auc3) (d : Db), Own id imsi a d → a.algo ≠ .xor3g → (∀ e ∈ evs, e.Plain id imsi) →
    (slot a + 5 * numSai evs + 1) * 2 ^ a.indBitlen ≤ 2 ^ 48 →
    (issued imsi d evs).Pairwise (· < ·)
    ∧ ∀ x ∈ issued imsi d evs, (slot a + 1) * 2 ^ a.indBitlen ≤ x ∧ x < 2 ^ 48
  | [], _, _, _, _, _, _ => ⟨List.Pairwise.nil, by simp [issued]⟩
  | .db op s :: evs, a, d, h, hxor, hp, hb => by
    have h' : Own id imsi a (Db.exec op.run d s).2 :=
      (own_op (s := s) (hp _ (List.mem_cons_self ..))).exec d s h
    have := issued_increasing id imsi evs a _ h' hxor (fun e he => hp e (by simp [he])) hb
    simpa [issued, Ev.exec] using this
  | .sai cfg c rands rnd q s :: evs, a, d, h, hxor, hp, hb => by
    have hb2 : (slot a + 5 * numSai evs + 5 + 1) * 2 ^ a.indBitlen ≤ 2 ^ 48 := by
      simp only [numSai] at hb
      have : slot a + 5 * numSai evs + 5 + 1 = slot a + 5 * (numSai evs + 1) + 1 := by omega
      rw [this]; exact hb
    have hP := hp _ (by simp : Ev.sai cfg c rands rnd q s ∈ _)
    have hp' : ∀ e ∈ evs, e.Plain id imsi := fun e he => hp e (by simp [he])
    by_cases hi : q.imsi = imsi
    · have hau := hP hi
      have hpost := rxSai_post cfg c rands rnd q (I := Own id imsi a)
        (Q := fun o d' => ∃ x, SqnStep id imsi a (saiNum q.num) x d' ∧ o = x.map (saiAnswer cfg))
        (fun d h => h.uniq) (own_cod _ _ _) (own_ind _)
        (fun d h => ⟨none, .same h (by simp), rfl⟩)
        (fun d ind o d' h hpp => ⟨o, by
          rw [hi, hau] at hpp
          refine auc_step h hxor ?_ hpp
          refine Nat.le_trans (Nat.mul_le_mul_right _ ?_) hb2
          have := saiNum_le q.num; omega, rfl⟩)
      obtain ⟨x, ⟨ind, m, len, a', hOwn, hlm, hmn, hmi, ha', hx⟩, ho⟩ := hpost.exec d s h
      have hm5 : m ≤ 5 := Nat.le_trans hmn (saiNum_le _)
      have hbl : a'.indBitlen = a.indBitlen := by rw [ha']; split <;> rfl
      have hslot : slot a' = slot a + m := by
        rw [ha']
        by_cases h0 : m = 0
        · simp [h0]
        · have := hmi (by omega)
          simp only [h0, if_false, slot]
          rw [Nat.mul_comm, Nat.mul_add_div (Nat.pow_pos (by omega)), Nat.div_eq_of_lt this]
          rfl
      have ih := issued_increasing id imsi evs a' _ hOwn
        (by rw [ha']; split <;> exact hxor) hp' (by
        rw [hslot, hbl]
        refine Nat.le_trans (Nat.mul_le_mul_right _ ?_) hb2
        omega)
      rw [hslot, hbl] at ih
      -- the part handed out by this request
      have hout : ((Ev.sai cfg c rands rnd q s).exec imsi d).2 = []
          ∨ ((Ev.sai cfg c rands rnd q s).exec imsi d).2
            = (List.range len).map (fun k => (slot a + (1 + k)) * 2 ^ a.indBitlen + ind) := by
        simp only [Ev.exec]
        split
        · rename_i vs hvs
          right
          rw [if_pos hi]
          apply hx
          rw [hvs] at ho
          cases x with
          | none => simp at ho
          | some y =>
            simp only [Option.map_some, Option.some.injEq] at ho
            rw [saiAnswer_result ho.symm]
        · left; rfl
      have hmem : ∀ y ∈ ((Ev.sai cfg c rands rnd q s).exec imsi d).2,
          (slot a + 1) * 2 ^ a.indBitlen ≤ y ∧ y < (slot a + m + 1) * 2 ^ a.indBitlen := by
        intro y hy
        rcases hout with h0 | h0
        · rw [h0] at hy; simp at hy
        · rw [h0] at hy
          obtain ⟨k, hk, rfl⟩ := List.mem_map.mp hy
          rw [List.mem_range] at hk
          have hlt := hmi (by omega)
          have h1 : (slot a + 1) * 2 ^ a.indBitlen ≤ (slot a + (1 + k)) * 2 ^ a.indBitlen :=
            Nat.mul_le_mul_right _ (by omega)
          have h2 : (slot a + (1 + k) + 1) * 2 ^ a.indBitlen ≤ (slot a + m + 1) * 2 ^ a.indBitlen :=
            Nat.mul_le_mul_right _ (by omega)
          rw [Nat.add_mul (slot a + (1 + k))] at h2
          omega
      have hpw : ((Ev.sai cfg c rands rnd q s).exec imsi d).2.Pairwise (· < ·) := by
        rcases hout with h0 | h0
        · rw [h0]; exact List.Pairwise.nil
        · rw [h0]; exact pairwise_slots _ _ _ _
      have hdb : ((Ev.sai cfg c rands rnd q s).exec imsi d).1
          = (Db.exec (rxSai cfg c rands rnd q) d s).2 := rfl
      have hle : (slot a + m + 1) * 2 ^ a.indBitlen ≤ 2 ^ 48 :=
        Nat.le_trans (Nat.mul_le_mul_right _ (by omega)) hb2
      refine ⟨?_, ?_⟩
      · simp only [issued]
        rw [List.pairwise_append]
        refine ⟨hpw, by rw [hdb]; exact ih.1, ?_⟩
        intro y hy z hz
        rw [hdb] at hz
        have := (hmem y hy).2
        have := (ih.2 z hz).1
        omega
      · intro y hy
        simp only [issued, List.mem_append] at hy
        rcases hy with hy | hy
        · have := hmem y hy; omega
        · rw [hdb] at hy
          have h1 := ih.2 y hy
          have h2 : (slot a + 1) * 2 ^ a.indBitlen ≤ (slot a + m + 1) * 2 ^ a.indBitlen :=
            Nat.mul_le_mul_right _ (by omega)
          omega
    · have hpost := rxSai_post cfg c rands rnd q (I := Own id imsi a)
        (Q := fun _ d' => Own id imsi a d')
        (fun d h => h.uniq) (own_cod _ _ _) (own_ind _) (fun d h => h)
        (fun d ind o d' h hpp => auc_other h hi hpp)
      have h' := hpost.exec d s h
      have ih := issued_increasing id imsi evs a _ h' hxor hp' (by
        refine Nat.le_trans (Nat.mul_le_mul_right _ ?_) hb2
        omega)
      have hout : ((Ev.sai cfg c rands rnd q s).exec imsi d).2 = [] := by
        simp only [Ev.exec]; split
        · rw [if_neg hi]
        · rfl
      have hdb : ((Ev.sai cfg c rands rnd q s).exec imsi d).1
          = (Db.exec (rxSai cfg c rands rnd q) d s).2 := rfl
      simp only [issued, hout, hdb, List.nil_append]
      exact ih

end Verif.Auc
