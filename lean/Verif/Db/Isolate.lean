import Verif.Auc.History
import Verif.Auc.Lemmas4
import Verif.Db.Hoare
/-!
# What the database holds about one subscriber, and programs that leave it alone
-/
namespace Verif.Db
open Verif Verif.Auc Verif.Hlr

/-- Everything the database holds about a subscriber: the row and the key records that belong to it. -/
structure SubData where
  rows : List SubRow
  keys2 : List Auc2
  keys3 : List Auc3
deriving DecidableEq

/-- What database `d` holds about the subscriber. -/
def dataOf (imsi : Bytes) (d : Db) : SubData where
  rows := d.subs.filter (·.imsi == imsi)
  keys2 := d.auc2.filter fun k => d.subs.any fun r => r.imsi == imsi && r.id == k.id
  keys3 := d.auc3.filter fun k => d.subs.any fun r => r.imsi == imsi && r.id == k.id

/-- The call is addressed to one of the rows. -/
def Op.hits (imsi : Bytes) (rows : List SubRow) : Op → Prop
  | .create i _ _ | .msisdn i _ | .imei i _ | .nam i _ _ | .purge i _ _ => i = imsi
  | .delete id | .aud id _ | .lu id _ _ _ _ | .sqn id _ => ∃ r ∈ rows, r.id = id
  | .ind _ | .indDel _ => False

/-- The subscriber's data are `v`; identities are unique and well-formed. -/
def Held (imsi : Bytes) (v : SubData) (d : Db) : Prop := dataOf imsi d = v ∧ Unique d ∧ IdentitiesOk d

theorem any_rows (imsi : Bytes) (d : Db) (p : SubRow → Bool) :
    (d.subs.any fun r => r.imsi == imsi && p r) = (d.subs.filter (·.imsi == imsi)).any p := by
  rw [List.any_filter]

theorem dataOf_eq (imsi : Bytes) (d : Db) : dataOf imsi d =
    { rows := d.subs.filter (·.imsi == imsi)
      keys2 := d.auc2.filter fun k => (d.subs.filter (·.imsi == imsi)).any (·.id == k.id)
      keys3 := d.auc3.filter fun k => (d.subs.filter (·.imsi == imsi)).any (·.id == k.id) } := by
  unfold dataOf
  simp only [List.any_filter]

/-- Updates of rows that are not among those looked at. -/
theorem filter_upd {α : Type} (l : List α) (c p : α → Bool) (f : α → α) (h : ∀ a ∈ l, c a = true → p a = false ∧ p (f a) = false) :
    (l.map (fun r => if c r then f r else r)).filter p = l.filter p := by
  induction l with
  | nil => rfl
  | cons a l ih =>
    have ih := ih (fun x hx => h x (List.mem_cons_of_mem _ hx))
    simp only [List.map_cons]
    by_cases hc : c a = true
    · obtain ⟨h1, h2⟩ := h a List.mem_cons_self hc
      simp [hc, h1, h2, ih]
    · simp [hc, List.filter_cons, ih]

theorem filter_sub {α : Type} (l : List α) (c p : α → Bool) (h : ∀ a ∈ l, p a = true → c a = true) :
    (l.filter c).filter p = l.filter p := by
  rw [List.filter_filter]
  refine List.filter_congr fun a ha => ?_
  cases hp : p a with
  | true => rw [h a ha hp]; rfl
  | false => rfl

section
variable {imsi : Bytes} {v : SubData}

theorem dataOf_subs {d d' : Db} (h : dataOf imsi d = v) (h1 : d'.subs.filter (·.imsi == imsi) = d.subs.filter (·.imsi == imsi))
    (h2 : d'.auc2 = d.auc2) (h3 : d'.auc3 = d.auc3) : dataOf imsi d' = v := by
  rw [dataOf_eq] at h ⊢
  rw [h1, h2, h3]; exact h

theorem dataOf_auc2 {d d' : Db} (h : dataOf imsi d = v) (h1 : d'.subs = d.subs) (h3 : d'.auc3 = d.auc3)
    (h2 : d'.auc2.filter (fun k => v.rows.any (·.id == k.id)) = d.auc2.filter (fun k => v.rows.any (·.id == k.id))) : dataOf imsi d' = v := by
  rw [dataOf_eq] at h ⊢
  subst h
  rw [h1, h3]; simp only at h2 ⊢; rw [h2]

theorem dataOf_auc3 {d d' : Db} (h : dataOf imsi d = v) (h1 : d'.subs = d.subs) (h3 : d'.auc2 = d.auc2)
    (h2 : d'.auc3.filter (fun k => v.rows.any (·.id == k.id)) = d.auc3.filter (fun k => v.rows.any (·.id == k.id))) : dataOf imsi d' = v := by
  rw [dataOf_eq] at h ⊢
  subst h
  rw [h1, h3]; simp only at h2 ⊢; rw [h2]

theorem rows_eq {d : Db} (h : dataOf imsi d = v) : v.rows = d.subs.filter (·.imsi == imsi) := by
  subst h; rfl

theorem upd_imsi {d : Db} (h : dataOf imsi d = v) {i : Bytes} (hi : i ≠ imsi) (f : SubRow → SubRow) (hf : ∀ r, (f r).imsi = r.imsi) :
    dataOf imsi { d with subs := d.subs.map (fun r => if r.imsi == i then f r else r) } = v := by
  refine dataOf_subs h (filter_upd _ _ _ _ ?_) rfl rfl
  intro a _ ha
  rw [hf]
  have : a.imsi = i := by simpa using ha
  rw [this]
  simp [hi]

theorem upd_id {d : Db} (h : dataOf imsi d = v) {i : Int} (hi : ¬ ∃ r ∈ v.rows, r.id = i) (f : SubRow → SubRow) (hf : ∀ r, (f r).imsi = r.imsi) :
    dataOf imsi { d with subs := d.subs.map (fun r => if r.id == i then f r else r) } = v := by
  refine dataOf_subs h (filter_upd _ _ _ _ ?_) rfl rfl
  intro a ha hai
  rw [hf]
  have : (a.imsi == imsi) = false := by
    rw [rows_eq h] at hi
    cases hc : a.imsi == imsi with
    | false => rfl
    | true => exact absurd ⟨a, List.mem_filter.2 ⟨ha, hc⟩, by simpa using hai⟩ hi
  exact ⟨this, this⟩

theorem any_id {i : Int} (hi : ¬ ∃ r ∈ v.rows, r.id = i) {j : Int} (hj : j = i) : (v.rows.any (·.id == j)) = false := by
  rw [List.any_eq_false]
  intro r hr hc
  exact hi ⟨r, hr, by rw [← hj]; simpa using hc⟩

/-- A call that is not addressed to the subscriber leaves the subscriber's data alone, whatever happens to its
statements. -/
theorem held_op (op : Op) (h : ¬ op.hits imsi v.rows) : Sat (Keeps (Held imsi v)) op.run := by
  intro w hw
  refine ⟨?_, unique_op op w hw.2.1, identitiesOk_op op w hw.2.2⟩
  refine (show Sat (Keeps fun d => dataOf imsi d = v) op.run from ?_) w hw.1
  refine Sat.op (Keeps.pre _) op ?_
  intro g hg d hd
  cases hg with
  | create hv =>
    dsimp only [sqlCreate]
    split
    · exact hd
    · refine dataOf_subs hd ?_ rfl rfl
      rw [List.filter_append]
      have : ((fun r : SubRow => r.imsi == imsi) { id := newId (d.subs.map (·.id)), imsi := ‹_› }) = false := by
        simpa [Op.hits] using h
      simp at this
      simp [this]
  | del =>
    refine dataOf_subs hd (filter_sub _ _ _ ?_) rfl rfl
    intro a ha hp
    rw [bne_iff_ne]
    intro hc
    exact h ⟨a, by rw [rows_eq hd]; exact List.mem_filter.2 ⟨ha, hp⟩, hc⟩
  | del2 | aud2d =>
    refine dataOf_auc2 hd rfl rfl (filter_sub _ _ _ ?_)
    intro a _ hp
    rw [bne_iff_ne]
    intro hc
    rw [any_id h hc] at hp
    cases hp
  | del3 | aud3d =>
    refine dataOf_auc3 hd rfl rfl (filter_sub _ _ _ ?_)
    intro a _ hp
    rw [bne_iff_ne]
    intro hc
    rw [any_id h hc] at hp
    cases hp
  | aud2i _ _ =>
    dsimp only [sqlInsAuc2]
    split
    · exact hd
    · refine dataOf_auc2 hd rfl rfl ?_
      rw [List.filter_append, List.filter_cons, if_neg (by rw [any_id h rfl]; decide)]
      simp
  | aud3i _ _ =>
    dsimp only [sqlInsAuc3]
    split
    · exact hd
    · refine dataOf_auc3 hd rfl rfl ?_
      rw [List.filter_append, List.filter_cons, if_neg (by show ¬ (v.rows.any (·.id == ‹Int›)) = true; rw [any_id h rfl]; decide)]
      simp
  | msisdn hv =>
    dsimp only [sqlSetMsisdn]
    split
    · exact hd
    · exact upd_imsi hd h _ (fun _ => rfl)
  | noMsisdn => exact upd_imsi hd h _ (fun _ => rfl)
  | imei hv => exact upd_imsi hd h _ (fun _ => rfl)
  | @nam i v p | @purge i v p => cases p <;> exact upd_imsi hd h _ (fun _ => rfl)
  | @lu1 i n p v t | @lu2 i n p v t => cases p <;> exact upd_id hd h _ (fun _ => rfl)
  | ind _ =>
    dsimp only [sqlIndAdd]
    split <;> exact dataOf_subs hd rfl rfl rfl
  | indDel _ => exact dataOf_subs hd rfl rfl rfl
  | @sqn i q =>
    refine dataOf_auc3 hd rfl rfl (filter_upd _ (fun a : Auc3 => a.id == i) _ _ ?_)
    intro a _ ha
    have := any_id h (show a.id = i by simpa using ha)
    exact ⟨this, this⟩

/-! ## Programs -/

/-- The row found for another IMSI is not one of the subscriber's. -/
theorem other_row {d : Db} (h : Held imsi v d) {row : SubRow} (hr : row ∈ d.subs) (hi : row.imsi ≠ imsi) : ¬ ∃ r ∈ v.rows, r.id = row.id := by
  rintro ⟨r, hm, he⟩
  rw [rows_eq h.1] at hm
  obtain ⟨h1, h2⟩ := List.mem_filter.1 hm
  have : r = row := eq_of_nodup_map h.2.1.ids h1 hr he
  subst this
  exact hi (by simpa using h2)

/-- After a lookup by IMSI. -/
theorem held_sel {α : Type} {cond : SubRow → Bool} {f : Int × Option SubRow → DbM α}
    (h : ∀ r, (∀ row, r.2 = some row → cond row = true ∧ ∃ d, Held imsi v d ∧ row ∈ d.subs) → Sat (Keeps (Held imsi v)) (f r)) :
    Sat (Keeps (Held imsi v)) (dbSel cond >>= f) := by
  intro w hw
  have hp : Post (Held imsi v) (dbSel cond) (fun o d => Held imsi v d ∧ ∀ r, o = some r → ∀ row, r.2 = some row →
      cond row = true ∧ ∃ d, Held imsi v d ∧ row ∈ d.subs) := by
    unfold dbSel
    refine Post.bind (fun o d => Held imsi v d ∧ ∀ row, o = some (.row row) → cond row = true ∧ ∃ d, Held imsi v d ∧ row ∈ d.subs) ?_ ?_ ?_
    · refine Post.stmt (fun d hd => ⟨hd, fun row hr => ?_⟩) (fun d hd => ⟨hd, fun row hr => ?_⟩) (fun d hd => ⟨hd, fun row hr => ?_⟩)
      · have hr := Option.some.inj hr
        unfold sqlSel at hr
        dsimp only at hr
        split at hr
        · rename_i r hf
          cases hr
          exact ⟨List.find?_some hf, d, hd, List.mem_of_find?_eq_some hf⟩
        · cases hr
      · cases hr
      · cases hr
    · exact fun d hd => ⟨hd.1, fun r hr => nomatch hr⟩
    · intro a
      cases a with
      | row r =>
        refine Post.pure fun d hd => ⟨hd.1, fun x hx row hrow => ?_⟩
        cases hx; cases hrow
        exact hd.2 _ rfl
      | done => exact Post.pure fun d hd => ⟨hd.1, fun x hx row hrow => by cases hx; cases hrow⟩
      | error => exact Post.pure fun d hd => ⟨hd.1, fun x hx row hrow => by cases hx; cases hrow⟩
  have h1 := hp w hw
  rw [bind_run]
  rcases hmw : dbSel cond w with ⟨o, w'⟩
  rw [hmw] at h1
  cases o with
  | none => exact h1.1
  | some a => exact h a (fun row hr => h1.2 a rfl row hr) w' h1.1

theorem held_cod {i : Bytes} (hi : i ≠ imsi) (cfg : Hlr.Cfg) (rnd : Nat → Option (Nat → UInt8)) :
    Sat (Keeps (Held imsi v)) (createOnDemand cfg rnd i) :=
  createOnDemand_sat (Keeps.pre _) cfg rnd i (held_op _ hi) (fun _ => held_op _ hi)

theorem held_auc {i : Bytes} (hi : i ≠ imsi) (c : Crypto) (rands : Nat → Option Bytes) (ind n : Nat) (ra au : Option Bytes) (sep : Bool) :
    Sat (Keeps (Held imsi v)) (dbGetAuc c rands i ind n ra au sep) := by
  intro w hw
  have hp : Post (Held imsi v) (getAuthData i) (fun o d => Held imsi v d ∧ ∀ id a2 a3, o = some (.keys id a2 a3) → ¬ ∃ r ∈ v.rows, r.id = id) := by
    unfold getAuthData
    refine Post.bind (fun o d => Held imsi v d ∧ ∀ id a2 a3, o = some (.row (id, a2, a3)) → ¬ ∃ r ∈ v.rows, r.id = id) ?_ ?_ ?_
    · refine Post.stmt (fun d hd => ⟨hd, fun id a2 a3 hr => ?_⟩) (fun d hd => ⟨hd, fun _ _ _ hr => ?_⟩) (fun d hd => ⟨hd, fun _ _ _ hr => ?_⟩)
      · have hr := Option.some.inj hr
        unfold sqlAuc at hr
        dsimp only at hr
        split at hr
        · rename_i r hf
          cases hr
          have : r.imsi = i := by simpa using List.find?_some hf
          exact other_row hd (List.mem_of_find?_eq_some hf) (by rw [this]; exact hi)
        · cases hr
      · cases hr
      · cases hr
    · exact fun d hd => ⟨hd.1, fun _ _ _ hr => nomatch hr⟩
    · intro a
      cases a with
      | row r =>
        obtain ⟨id, a2, a3⟩ := r
        refine Post.pure fun d hd => ⟨hd.1, fun id' b2 b3 hx => ?_⟩
        have hx := Option.some.inj hx
        have e : id' = id := by
          unfold loadKeys at hx
          dsimp only at hx
          split at hx
          · split at hx
            · cases hx
            · cases hx; rfl
          · split at hx
            · cases hx
            · cases hx; rfl
        rw [e]; exact hd.2 id a2 a3 rfl
      | done => exact Post.pure fun d hd => ⟨hd.1, fun _ _ _ hx => by cases hx⟩
      | error => exact Post.pure fun d hd => ⟨hd.1, fun _ _ _ hx => by cases hx⟩
  have h1 := hp w hw
  unfold dbGetAuc
  rw [bind_run]
  rcases hmw : getAuthData i w with ⟨o, w'⟩
  rw [hmw] at h1
  cases o with
  | none => exact h1.1
  | some k =>
    cases k with
    | err rc => exact h1.1
    | keys id g u =>
      have hid := h1.2 id g u rfl
      have fin : ∀ r : Option (List Vec) × Option Aud3, Sat (Keeps (Held imsi v)) (aucFinish id r) := by
        intro r
        unfold aucFinish
        cases r.2 with
        | none => exact Sat.pure (Keeps.pre _) _
        | some a =>
          dsimp only
          split
          · exact Sat.pure (Keeps.pre _) _
          · refine Sat.bind (Keeps.pre _) (held_op (.sqn id a.sqn) hid) (fun rc => ?_)
            split <;> exact Sat.pure (Keeps.pre _) _
      dsimp only
      by_cases hb : (match u with | some a => decide (32 ≤ a.bl) | none => false) = true
      · cases u with
        | none => simp at hb
        | some a => dsimp only at hb ⊢; rw [if_pos hb]; exact h1.1
      · cases u with
        | none => exact fin _ w' h1.1
        | some a => dsimp only at hb ⊢; rw [if_neg hb]; exact fin _ w' h1.1

theorem held_sai {q : SaiReq} (hi : q.imsi ≠ imsi) (cfg : Hlr.Cfg) (c : Crypto) (rands : Nat → Option Bytes) (rnd : Nat → Option (Nat → UInt8)) :
    Sat (Keeps (Held imsi v)) (rxSai cfg c rands rnd q) :=
  Sat.bind (Keeps.pre _) (held_cod hi _ _) fun _ => Sat.bind (Keeps.pre _) (dbInd_sat (Keeps.pre _) _ (held_op _ (fun h => h))) fun _ =>
    Sat.bind (Keeps.pre _) (held_auc hi _ _ _ _ _ _ _) fun _ => Sat.pure (Keeps.pre _) _

theorem held_purge {i : Bytes} (hi : i ≠ imsi) (cs : Bool) : Sat (Keeps (Held imsi v)) (rxPurge i cs) := by
  refine Sat.bind (Keeps.pre _) (held_op (.purge i true (!cs)) hi) fun rc => ?_
  split
  · exact Sat.pure (Keeps.pre _) _
  · split <;> exact Sat.pure (Keeps.pre _) _

theorem held_imei {i : Bytes} (hi : i ≠ imsi) (cfg : Hlr.Cfg) (rnd : Nat → Option (Nat → UInt8)) (m : Option Bytes) :
    Sat (Keeps (Held imsi v)) (rxCheckImei cfg rnd i m) := by
  unfold rxCheckImei
  cases m with
  | none => exact Sat.pure (Keeps.pre _) _
  | some m =>
    dsimp only
    split
    · exact Sat.pure (Keeps.pre _) _
    · refine Sat.bind (Keeps.pre _) (held_cod hi _ _) fun _ => ?_
      split
      · refine Sat.bind (Keeps.pre _) (held_op (.imei i (some m)) hi) fun rc => ?_
        split <;> exact Sat.pure (Keeps.pre _) _
      · refine Sat.bind (Keeps.pre _) (dbSel_sat (Keeps.pre _) _) fun rc => ?_
        split <;> exact Sat.pure (Keeps.pre _) _

end

end Verif.Db
