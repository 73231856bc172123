import Verif.Auc.Lemmas5
/-! # Whole requests -/
namespace Verif.Auc
open Verif Verif.Db Verif.Hlr

theorem dbInd_post (raw : Bytes) : Post Good (dbInd raw)
    (fun o d => Good d ∧ ∀ r, o = some r → r.1 = 0 → indOf d (cstr raw) = some r.2) := by
  refine Post.and (dbInd_sat (Keeps.pre _) raw (good_op _)).keepsPost (Post.ofExec ?_)
  intro d s _ r hr h0
  obtain ⟨r1, r2⟩ := r
  simp only at h0
  subst h0
  exact (dbInd_success (i := r2) (Prod.ext hr rfl)).2.1

/-- No VLR has index 0. -/
def IndPos (d : Db) : Prop := ∀ r ∈ d.inds, r.ind ≠ 0

theorem indPos_op (op : Op) : Sat (Keeps IndPos) op.run := by
  refine Sat.op (Keeps.pre _) op ?_
  intro g hg d h
  cases hg with
  | create hv => dsimp only [sqlCreate]; split <;> exact h
  | aud2i _ _ => dsimp only [sqlInsAuc2]; split <;> exact h
  | aud3i _ _ => dsimp only [sqlInsAuc3]; split <;> exact h
  | msisdn _ => dsimp only [sqlSetMsisdn]; split <;> exact h
  | ind _ =>
    dsimp only [sqlIndAdd]
    split
    · exact h
    · intro r hr
      rcases List.mem_append.mp hr with hr | hr
      · exact h r hr
      · rw [List.mem_singleton] at hr
        subst hr
        exact Nat.succ_ne_zero _
  | indDel _ => exact fun r hr => h r (List.mem_filter.mp hr).1
  | _ => exact h

theorem indPos_ev (imsi : Bytes) (d : Db) (e : Ev) (h : IndPos d) : IndPos (e.exec imsi d).1 := by
  cases e with
  | db op s => exact (indPos_op op).exec d s h
  | sai cfg c rands rnd q s => exact (rxSai_sat (Keeps.pre _) cfg c rands rnd q indPos_op).exec d s h

theorem runEvs_indPos : ∀ (evs : List Ev) (d : Db), IndPos d → IndPos (runEvs d evs)
  | [], _, h => h
  | e :: es, d, h => runEvs_indPos es _ (indPos_ev [] d e h)

/-- The databases have the same keys. -/
def SameKeys (d d' : Db) : Prop := d'.auc2 = d.auc2 ∧ d'.auc3 = d.auc3

theorem SameKeys.pre : Pre SameKeys :=
  ⟨fun _ => ⟨rfl, rfl⟩, fun _ _ _ h1 h2 => ⟨h2.1.trans h1.1, h2.2.trans h1.2⟩⟩

theorem create_sameKeys (i : Bytes) (c p : Bool) : Sat SameKeys (Op.create i c p).run :=
  Sat.op SameKeys.pre _ (fun g hg d => by
    cases hg with
    | create _ => dsimp only [sqlCreate]; split <;> exact ⟨rfl, rfl⟩)

theorem msisdn_sameKeys (i : Bytes) (m : Option Bytes) : Sat SameKeys (Op.msisdn i m).run :=
  Sat.op SameKeys.pre _ (fun g hg d => by
    cases hg <;> dsimp only [sqlSetMsisdn, sqlUpdSub] <;> (try split) <;> exact ⟨rfl, rfl⟩)

theorem ind_sameKeys (r : Bytes) : Sat SameKeys (Op.ind r).run :=
  Sat.op SameKeys.pre _ (fun g hg d => by
    cases hg; dsimp only [sqlIndAdd]; split <;> exact ⟨rfl, rfl⟩)

theorem cod_sameKeys (cfg : Cfg) (rnd : Nat → Option (Nat → UInt8)) (imsi : Bytes) :
    Sat SameKeys (createOnDemand cfg rnd imsi) :=
  createOnDemand_sat SameKeys.pre cfg rnd imsi (create_sameKeys _ _ _) (fun _ => msisdn_sameKeys _ _)

theorem dbInd_sameKeys (r : Bytes) : Sat SameKeys (dbInd r) :=
  dbInd_sat SameKeys.pre r (ind_sameKeys r)

/-- Everything db_get_auc is called with in rx_send_auth_info. -/
def SaiPost (cfg : Cfg) (c : Crypto) (rands : Nat → Option Bytes) (q : SaiReq)
    (o : Option SaiOut) (d' : Db) : Prop :=
  o = none ∨ ∃ d1 ind x, Good d1 ∧ (ind = 0 ∨ indOf d1 (cstr q.source) = some ind)
    ∧ AucPost c rands q.imsi ind (saiNum q.num) q.rand q.auts q.sgs d1 x d'
    ∧ o = x.map (saiAnswer cfg)

theorem rxSai_saiPost (cfg : Cfg) (c : Crypto) (rands : Nat → Option Bytes)
    (rnd : Nat → Option (Nat → UInt8)) (q : SaiReq) :
    Post Good (rxSai cfg c rands rnd q) (SaiPost cfg c rands q) := by
  refine Post.bind _ (createOnDemand_sat (Keeps.pre _) cfg rnd q.imsi (good_op _)
    (fun _ => good_op _)).keepsPost (fun _ _ => .inl rfl) (fun _ => ?_)
  refine Post.bind _ (dbInd_post q.source) (fun _ _ => .inl rfl) (fun r => ?_)
  rintro w ⟨hG, hi⟩
  have h := dbGetAuc_post c rands q.imsi (if r.1 = 0 then r.2 else 0) (saiNum q.num) q.rand q.auts
    q.sgs w.db hG.1 w rfl
  rw [bind_run]
  rcases hm : dbGetAuc c rands q.imsi (if r.1 = 0 then r.2 else 0) (saiNum q.num) q.rand q.auts
    q.sgs w with ⟨o, w'⟩
  rw [hm] at h
  cases o with
  | none => exact .inl rfl
  | some a =>
    refine .inr ⟨w.db, _, _, hG, ?_, h, rfl⟩
    split
    · rename_i h0; exact .inr (hi r rfl h0)
    · exact .inl rfl

theorem aucPost_subs {c : Crypto} {rands : Nat → Option Bytes} {imsi : Bytes} {ind n : Nat}
    {ra au : Option Bytes} {sep : Bool} {o : Option AucRes} {d d' : Db}
    (h : AucPost c rands imsi ind n ra au sep d o d') : d' = d ∨ ∃ id q, d' = setSqn d id q := by
  cases h with
  | stored => exact .inr ⟨_, _, rfl⟩
  | _ => exact .inl rfl

/-- The databases agree but for the sequence number of the 3G keys of `id`. -/
def OnlySqn (id : Int) (d d' : Db) : Prop :=
  d'.auc2 = d.auc2 ∧ ∃ q, d'.auc3 = d.auc3.map (fun a => if a.id == id then { a with sqn := q } else a)

theorem map_self {l : List Auc3} {id : Int} {q : Nat} (hn : (l.map (·.id)).Nodup)
    (h : ∀ a ∈ l, a.id = id → a.sqn = q) :
    l.map (fun a => if a.id == id then { a with sqn := q } else a) = l := by
  conv => rhs; rw [← List.map_id l]
  apply List.map_congr_left
  intro y hy
  split
  · rename_i hyid
    have := h y hy (by simpa using hyid)
    subst this
    rfl
  · rfl

/-- A request changes no key material. -/
theorem rxSai_keys (cfg : Cfg) (c : Crypto) (rands : Nat → Option Bytes)
    (rnd : Nat → Option (Nat → UInt8)) (q : SaiReq) (d : Db) (s : Script) (hG : Good d) :
    ∀ r ∈ (exec (rxSai cfg c rands rnd q) d s).2.subs, r.imsi = q.imsi →
      OnlySqn r.id d (exec (rxSai cfg c rands rnd q) d s).2 := by
  have same : ∀ (x : Db), Good x → ∀ id, SameKeys d x → OnlySqn id d x := by
    intro x hx id hs
    refine ⟨hs.1, ?_⟩
    rw [hs.2]
    have hn : (d.auc3.map (·.id)).Nodup := by have := hx.1.keys3; rw [hs.2] at this; exact this
    cases hf : d.auc3.find? (fun a => a.id == id) with
    | none =>
      refine ⟨0, (map_self hn ?_).symm⟩
      intro a ha hid
      rw [List.find?_eq_none] at hf
      exact absurd hid (by simpa using hf a ha)
    | some a =>
      refine ⟨a.sqn, (map_self hn ?_).symm⟩
      intro y hy hid
      have ha := List.mem_of_find?_eq_some hf
      have haid : a.id = id := by have := List.find?_some hf; simpa using this
      rw [eq_of_nodup_map hn hy ha (hid.trans haid.symm)]
  refine (rxSai_post cfg c rands rnd q (I := fun x => Good x ∧ SameKeys d x)
    (Q := fun _ x => ∀ r ∈ x.subs, r.imsi = q.imsi → OnlySqn r.id d x) (fun _ h => h.1.1)
    (fun w hw => ⟨createOnDemand_sat (Keeps.pre _) cfg rnd q.imsi (good_op _) (fun _ => good_op _) w
        hw.1, SameKeys.pre.trans _ _ _ hw.2 (cod_sameKeys cfg rnd q.imsi w)⟩)
    (fun w hw => ⟨dbInd_sat (Keeps.pre _) q.source (good_op _) w hw.1,
        SameKeys.pre.trans _ _ _ hw.2 (dbInd_sameKeys q.source w)⟩)
    (fun x h r _ _ => same x h.1 _ h.2)
    (fun d1 i o d' h ha => ?_)).exec d s ⟨hG, SameKeys.pre.refl d⟩
  cases ha with
  | @stored id g u r' a hk hbl ha hc =>
    intro r hr hri
    obtain ⟨⟨r0, hr0, hri0, hid⟩, -⟩ := authKeys_keys hk
    have : r = r0 := eq_of_nodup_map h.1.1.imsis hr hr0 (hri.trans hri0.symm)
    subst this
    subst hid
    exact ⟨h.2.1, a.sqn, by rw [← h.2.2]; rfl⟩
  | _ => intro r _ _; exact same _ h.1 _ h.2

/-- A request that is answered with vectors. -/
theorem rxSai_vecs {cfg : Cfg} {c : Crypto} {rands : Nat → Option Bytes}
    {rnd : Nat → Option (Nat → UInt8)} {q : SaiReq} {d d' : Db} {s : Script} {vs : List Vec}
    (hG : Good d) (h : exec (rxSai cfg c rands rnd q) d s = (some (.result vs), d')) :
    ∃ id g u ind, authKeys d' q.imsi = .keys id g u ∧ Good d'
      ∧ (ind = 0 ∨ indOf d' (cstr q.source) = some ind) ∧ vs ≠ []
      ∧ VecsOk c rands q.imsi ind (saiNum q.num) q.rand q.auts q.sgs vs d' g u := by
  have hp := (rxSai_saiPost cfg c rands rnd q).exec d s hG
  have hG' := (rxSai_sat (Keeps.pre _) cfg c rands rnd q good_op).exec d s hG
  rw [h] at hp hG'
  rcases hp with hp | ⟨d1, ind, x, hG1, hi, ha, ho⟩
  · simp at hp
  · cases x with
    | none => simp at ho
    | some x =>
      simp only [Option.map_some, Option.some.injEq] at ho
      have hx := saiAnswer_result ho.symm
      subst hx
      have hne : vs ≠ [] := by
        intro h; subst h; simp [saiAnswer] at ho
      obtain ⟨id, g, u, hk, hv⟩ := aucPost_vecs hG1 ha
      refine ⟨id, g, u, ind, hk, hG', ?_, hne, hv⟩
      rcases aucPost_subs ha with e | ⟨i, q', e⟩
      · simp only at e; rw [e]; exact hi
      · simp only at e; rw [e]; exact hi

/-! ## A fault-free request -/

theorem known_setSqn {d : Db} {id : Int} {q : Nat} {imsi : Bytes} :
    Known (setSqn d id q) imsi ↔ Known d imsi := Iff.rfl

/-- What a fault-free request amounts to. -/
theorem rxSai_ok (cfg : Cfg) (c : Crypto) (rands : Nat → Option Bytes)
    (rnd : Nat → Option (Nat → UInt8)) (q : SaiReq) (d : Db) (hG : Good d) :
    ∃ d1 ind, Good d1
      ∧ exec (rxSai cfg c rands rnd q) d []
        = ((exec (dbGetAuc c rands q.imsi ind (saiNum q.num) q.rand q.auts q.sgs) d1 []).1.map
            (saiAnswer cfg),
           (exec (dbGetAuc c rands q.imsi ind (saiNum q.num) q.rand q.auts q.sgs) d1 []).2) := by
  obtain ⟨a, d1, h1, _⟩ := createOnDemand_uniform cfg rnd q.imsi d
  obtain ⟨r, d2, h2, _⟩ := dbInd_uniform q.source d1
  have g1 : Good d1 := by
    have := createOnDemand_sat (Keeps.pre _) cfg rnd q.imsi (good_op _)
      (fun _ => good_op _) { db := d, script := [] } hG
    rw [h1] at this; exact this
  have g2 : Good d2 := by
    have := dbInd_sat (Keeps.pre _) q.source (good_op _) { db := d1, script := [] } g1
    rw [h2] at this; exact this
  refine ⟨d2, if r.1 = 0 then r.2 else 0, g2, ?_⟩
  unfold exec rxSai
  simp only [bind_run, h1, h2]
  rcases hm : dbGetAuc c rands q.imsi (if r.1 = 0 then r.2 else 0) (saiNum q.num) q.rand q.auts
    q.sgs { db := d2, script := [] } with ⟨o, w'⟩
  cases o <;> rfl

theorem computeVectors_some (c : Crypto) (rands : Nat → Option Bytes) (n : Nat) (g : Option Aud2)
    (u : Option Aud3) (hg : ∀ x, g = some x → x.algo ≠ .none) (hu : ∀ a, u = some a → a.algo ≠ .none)
    (h : g ≠ none ∨ u ≠ none) : ∃ vs, (computeVectors c rands n g u none none).1 = some vs := by
  unfold computeVectors
  have hfu : Option.filter (fun a : Aud3 => a.algo != Algo.none) u = u := by
    cases u with
    | none => rfl
    | some a => exact filter_algo (hu a rfl)
  dsimp only
  rw [filter_algo2 hg, hfu]
  rw [if_neg]
  · exact ⟨_, rfl⟩
  · cases g <;> cases u <;> simp_all

end Verif.Auc
