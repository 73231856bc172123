import Verif.Db.Invariants2
/-! # Lemmas for the contract and refinement theorems -/
namespace Verif.Db
open Verif

theorem any_iff_known (d : Db) (imsi : Bytes) :
    d.subs.any (fun r => r.imsi == imsi) = true ↔ Known d imsi := by
  simp [Known]

theorem countP_cases (d : Db) (hU : Unique d) (imsi : Bytes) :
    (d.subs.countP (fun r => r.imsi == imsi) = 1 ∧ Known d imsi)
    ∨ (d.subs.countP (fun r => r.imsi == imsi) = 0 ∧ ¬ Known d imsi) := by
  have h1 := countP_le_one_of_nodup d.subs (fun r => r.imsi) imsi hU.imsis
  have h2 := countP_pos_iff_any d.subs (fun r => r.imsi == imsi)
  rw [any_iff_known] at h2
  by_cases hk : Known d imsi
  · left; exact ⟨by have := h2.mpr hk; omega, hk⟩
  · right
    refine ⟨?_, hk⟩
    have : ¬ 0 < d.subs.countP (fun r => r.imsi == imsi) := fun h => hk (h2.mp h)
    omega

theorem countP_id_cases (d : Db) (hU : Unique d) (id : Int) :
    (d.subs.countP (fun r => r.id == id) = 1 ∧ ∃ r ∈ d.subs, r.id = id)
    ∨ (d.subs.countP (fun r => r.id == id) = 0 ∧ ¬ ∃ r ∈ d.subs, r.id = id) := by
  have h1 := countP_le_one_of_nodup d.subs (fun r => r.id) id hU.ids
  have h2 := countP_pos_iff_any d.subs (fun r => r.id == id)
  have h3 : d.subs.any (fun r => r.id == id) = true ↔ ∃ r ∈ d.subs, r.id = id := by simp
  rw [h3] at h2
  by_cases hk : ∃ r ∈ d.subs, r.id = id
  · left; exact ⟨by have := h2.mpr hk; omega, hk⟩
  · right
    refine ⟨?_, hk⟩
    have : ¬ 0 < d.subs.countP (fun r => r.id == id) := fun h => hk (h2.mp h)
    omega

theorem sqlUpdSub_withRow (d : Db) (imsi : Bytes) (f : SubRow → SubRow) :
    (sqlUpdSub (·.imsi == imsi) f d).2 = withRow d imsi f := by
  simp [sqlUpdSub, withRow]

theorem contract_upd (d : Db) (hU : Unique d) (s : Script) (imsi : Bytes) (f : SubRow → SubRow)
    (bad : Bool) (valid : Prop) (hv : valid ↔ bad = false) :
    Contract valid (Known d imsi) True (firstFate s) d (withRow d imsi f)
      (exec (if bad then (pure (-EINVAL) : DbM Int)
        else do pure (updRc (← stmt (sqlUpdSub (·.imsi == imsi) f) .error))) d s) := by
  cases bad with
  | true =>
    have hv : ¬ valid := by simp [hv]
    simp only [↓reduceIte, exec_pure]
    constructor <;> simp [hv]
  | false =>
    have hv : valid := by simp [hv]
    simp only [Bool.false_eq_true, ↓reduceIte, exec_bind_stmt]
    rcases s with _ | ⟨_ | _ | _, s⟩
    · simp only [exec_pure, sqlUpdSub_withRow, firstFate, List.headD]
      rcases countP_cases d hU imsi with ⟨hc, hk⟩ | ⟨hc, hk⟩
      · constructor <;> simp [sqlUpdSub, hc, updRc, hv, hk]
      · have : withRow d imsi f = d := by
          have hn : ∀ r ∈ d.subs, (if r.imsi = imsi then f r else r) = r := by
            intro r hr
            rw [if_neg]; intro h; exact hk ⟨r, hr, h⟩
          simp [withRow, List.map_congr_left hn]
        constructor <;> simp [sqlUpdSub, hc, updRc, hv, hk, this]
    · simp only [exec_pure, sqlUpdSub_withRow, firstFate, List.headD]
      rcases countP_cases d hU imsi with ⟨hc, hk⟩ | ⟨hc, hk⟩
      · constructor <;> simp [sqlUpdSub, hc, updRc, hv, hk]
      · have : withRow d imsi f = d := by
          have hn : ∀ r ∈ d.subs, (if r.imsi = imsi then f r else r) = r := by
            intro r hr
            rw [if_neg]; intro h; exact hk ⟨r, hr, h⟩
          simp [withRow, List.map_congr_left hn]
        constructor <;> simp [sqlUpdSub, hc, updRc, hv, hk, this]
    · simp only [exec_pure, firstFate, List.headD]
      constructor <;> simp [updRc, hv]
    · simp only [firstFate, List.headD]
      constructor <;> simp [hv]

theorem contract_msisdn (d : Db) (hU : Unique d) (s : Script) (imsi m : Bytes) :
    Contract (Digits 1 15 m) (Known d imsi)
      (∀ r ∈ d.subs, r.imsi ≠ imsi → r.msisdn ≠ some m) (firstFate s) d
      (withRow d imsi (fun r => { r with msisdn := some m }))
      (exec (updateMsisdn imsi (some m)) d s) := by
  unfold updateMsisdn
  by_cases hv : msisdnValid m = true
  · have hv' : Digits 1 15 m := isNDigits_spec.mp hv
    simp only [hv, Bool.not_true, Bool.false_eq_true, ↓reduceIte, exec_bind_stmt]
    by_cases hbusy : d.subs.any (fun r => r.imsi != imsi && r.msisdn == some m) = true
    · have hfree : ¬ (∀ r ∈ d.subs, r.imsi ≠ imsi → r.msisdn ≠ some m) := by
        intro h
        obtain ⟨r, hr, hrr⟩ := List.any_eq_true.mp hbusy
        simp at hrr
        exact h r hr hrr.1 hrr.2
      rcases countP_cases d hU imsi with ⟨hc, hk⟩ | ⟨hc, hk⟩
      · have ha := (any_iff_known d imsi).mpr hk
        have hs : sqlSetMsisdn imsi m d = (.unique, d) := by simp only [sqlSetMsisdn, ha, hbusy]; rfl
        rcases s with _ | ⟨_ | _ | _, s⟩ <;> simp only [hs, exec_pure, firstFate, List.headD] <;>
          rw [eq_false hfree] <;> constructor <;> simp [updRc, hv', hk]
      · have ha : d.subs.any (fun r => r.imsi == imsi) = false := by
          rw [← Bool.not_eq_true, any_iff_known]; exact hk
        have hs : sqlSetMsisdn imsi m d = (.done 0, d) := by
          simp only [sqlSetMsisdn, ha, Bool.false_and, Bool.false_eq_true, ↓reduceIte, sqlUpdSub, hc]
          have hn : ∀ r ∈ d.subs, (if (r.imsi == imsi) = true then { r with msisdn := some m } else r) = r := by
            intro r hr
            rw [if_neg]; intro h; exact hk ⟨r, hr, by simpa using h⟩
          rw [List.map_congr_left hn]; simp
        rcases s with _ | ⟨_ | _ | _, s⟩ <;> simp only [hs, exec_pure, firstFate, List.headD] <;>
          constructor <;> simp [updRc, hv', hk]
    · have hfree : ∀ r ∈ d.subs, r.imsi ≠ imsi → r.msisdn ≠ some m := by
        intro r hr h1 h2
        apply hbusy
        exact List.any_eq_true.mpr ⟨r, hr, by simp [h1, h2]⟩
      have hs : sqlSetMsisdn imsi m d
          = sqlUpdSub (·.imsi == imsi) (fun r => { r with msisdn := some m }) d := by
        simp [sqlSetMsisdn] at hbusy ⊢
        intro x hx hxi y hy hyi hym
        exact absurd hym (hfree y hy hyi)
      have := contract_upd d hU s imsi (fun r => { r with msisdn := some m }) false
        (Digits 1 15 m) (by simp [hv'])
      simp only [Bool.false_eq_true, ↓reduceIte, exec_bind_stmt] at this
      simp only [hs]
      rw [eq_true hfree]
      exact this
  · have hv' : ¬ Digits 1 15 m := fun h => hv (isNDigits_spec.mpr h)
    simp only [hv, Bool.not_false, ↓reduceIte, exec_pure]
    constructor <;> simp [hv']

/-! ## The abstract store -/

theorem abs_upd (d : Db) (c : SubRow → Bool) (f : SubRow → SubRow)
    (h : ∀ r, (f r).imsi = r.imsi) :
    abs (sqlUpdSub c f d).2 = (abs d).update c (fun r => some (f r)) := by
  funext i
  simp only [abs, sqlUpdSub, Store.update]
  rw [List.find?_map]
  have : ((fun r : SubRow => r.imsi == i) ∘ fun r => if c r = true then f r else r)
      = fun r => r.imsi == i := by
    funext r; simp only [Function.comp]; split <;> simp [h]
  rw [this]
  cases hfd : List.find? (fun r : SubRow => r.imsi == i) d.subs with
  | none => rfl
  | some r => simp only [Option.map_some]; split <;> rfl

theorem abs_mem {d : Db} {i : Bytes} {r : SubRow} (h : abs d i = some r) :
    r ∈ d.subs ∧ r.imsi = i := by
  refine ⟨List.mem_of_find?_eq_some h, ?_⟩
  have := List.find?_some h
  simpa using this

theorem abs_of_mem {d : Db} (hU : Unique d) {r : SubRow} (h : r ∈ d.subs) :
    abs d r.imsi = some r := by
  cases hf : abs d r.imsi with
  | none =>
    have := List.find?_eq_none.mp hf r h
    simp at this
  | some r' =>
    have h' := abs_mem hf
    exact congrArg some (eq_of_nodup_map hU.imsis h'.1 h h'.2)

theorem known_iff_abs (d : Db) (i : Bytes) : Known d i ↔ ∃ r, abs d i = some r := by
  constructor
  · rintro ⟨r, hr, hi⟩
    cases hf : abs d i with
    | none => have := List.find?_eq_none.mp hf r hr; simp [hi] at this
    | some r' => exact ⟨r', rfl⟩
  · rintro ⟨r, hr⟩
    exact ⟨r, abs_mem hr⟩

theorem abs_none_iff (d : Db) (i : Bytes) : abs d i = none ↔ ¬ Known d i := by
  rw [known_iff_abs]
  cases abs d i <;> simp

theorem abs_del (d : Db) (hU : Unique d) (id : Int) :
    abs (sqlDelById id d).2 = (abs d).update (·.id == id) (fun _ => none) := by
  funext i
  have hU' : Unique (sqlDelById id d).2 := hU.delById id
  simp only [Store.update]
  cases hf : abs d i with
  | none =>
    simp only
    rw [abs_none_iff]
    rw [abs_none_iff] at hf
    rintro ⟨r, hr, hi⟩
    exact hf ⟨r, (List.mem_filter.mp hr).1, hi⟩
  | some r =>
    obtain ⟨hr, hi⟩ := abs_mem hf
    simp only
    split
    · rename_i hc
      rw [abs_none_iff]
      rintro ⟨r', hr', hi'⟩
      have hm := List.mem_filter.mp hr'
      have : r' = r := eq_of_nodup_map hU.imsis hm.1 hr (hi'.trans hi.symm)
      subst this
      simp at hc hm
      exact hm.2 hc
    · rename_i hc
      have : r ∈ (sqlDelById id d).2.subs := List.mem_filter.mpr ⟨hr, by simpa using hc⟩
      rw [← hi]
      exact abs_of_mem hU' this

theorem abs_withRow (d : Db) (imsi : Bytes) (f : SubRow → SubRow) (h : ∀ r, (f r).imsi = r.imsi) :
    abs (withRow d imsi f) = (abs d).update (·.imsi == imsi) (fun r => some (f r)) := by
  rw [← sqlUpdSub_withRow]; exact abs_upd d _ f h

end Verif.Db

namespace Verif.Db
open Verif

theorem step_of_contract {valid free : Prop} {fate : Fault} {d : Db} {imsi : Bytes}
    {f : SubRow → SubRow} {res : Option Int × Db} (hf : ∀ r, (f r).imsi = r.imsi)
    (h : Contract valid (Known d imsi) free fate d (withRow d imsi f) res) :
    if acked res.1 then
      (∃ r, abs d imsi = some r) ∧ free
      ∧ abs res.2 = (abs d).update (·.imsi == imsi) (fun r => some (f r))
    else abs res.2 = abs d := by
  split
  · rename_i ha
    refine ⟨(known_iff_abs d imsi).mp (h.success.mp ha).2.1, (h.success.mp ha).2.2.1, ?_⟩
    rw [h.effect ha, abs_withRow d imsi f hf]
  · rename_i ha
    rw [h.noEffect ha]

theorem contract_delMsisdn (d : Db) (hU : Unique d) (s : Script) (imsi : Bytes) :
    Contract True (Known d imsi) True (firstFate s) d
      (withRow d imsi (fun r => { r with msisdn := none })) (exec (updateMsisdn imsi none) d s) := by
  have := contract_upd d hU s imsi (fun r => { r with msisdn := none }) false True (by simp)
  simpa only [Bool.false_eq_true, ↓reduceIte, updateMsisdn, sqlDelMsisdn] using this

theorem contract_imei (d : Db) (hU : Unique d) (s : Script) (imsi : Bytes) (v : Option Bytes) :
    Contract (∀ x, v = some x → Digits 14 14 x) (Known d imsi) True (firstFate s) d
      (withRow d imsi (fun r => { r with imei := v })) (exec (updateImei imsi v) d s) := by
  have := contract_upd d hU s imsi (fun r => { r with imei := v })
    (match v with | some i => !imeiValid i | none => false)
    (∀ x, v = some x → Digits 14 14 x) (by
      cases v with
      | none => simp
      | some x => simp [← isNDigits_spec, imeiValid])
  exact this

theorem contract_nam (d : Db) (hU : Unique d) (s : Script) (imsi : Bytes) (v ps : Bool) :
    Contract True (Known d imsi) True (firstFate s) d
      (withRow d imsi (fun r => if ps then { r with namPs := v } else { r with namCs := v }))
      (exec (subscrNam imsi v ps) d s) := by
  have := contract_upd d hU s imsi
    (fun r => if ps then { r with namPs := v } else { r with namCs := v }) false True (by simp)
  simpa only [Bool.false_eq_true, ↓reduceIte, subscrNam] using this

theorem contract_purge (d : Db) (hU : Unique d) (s : Script) (imsi : Bytes) (v ps : Bool) :
    Contract True (Known d imsi) True (firstFate s) d
      (withRow d imsi (fun r => if ps then { r with purgedPs := v } else { r with purgedCs := v }))
      (exec (subscrPurge imsi v ps) d s) := by
  have := contract_upd d hU s imsi
    (fun r => if ps then { r with purgedPs := v } else { r with purgedCs := v }) false True (by simp)
  simpa only [Bool.false_eq_true, ↓reduceIte, subscrPurge] using this

theorem isub_ite {c : Bool} {f g : SubRow → SubRow} (hf : ∀ r, (f r).imsi = r.imsi)
    (hg : ∀ r, (g r).imsi = r.imsi) (r : SubRow) :
    (if c then f r else g r).imsi = r.imsi := by
  cases c
  · exact hg r
  · exact hf r

/-- No statement but those of `create`, `delete`, … touches the subscriber table. -/
theorem abs_of_subs {d d' : Db} (h : d'.subs = d.subs) : abs d' = abs d := by
  unfold abs; rw [h]

/-- The preorder "same subscriber table". -/
def SameSubs (d d' : Db) : Prop := d'.subs = d.subs
theorem SameSubs.pre : Pre SameSubs := ⟨fun _ => rfl, fun _ _ _ h1 h2 => h2.trans h1⟩

theorem sameSubs_aud (id : Int) (a : AudStr) : Sat SameSubs (Op.aud id a).run := by
  refine Sat.op SameSubs.pre _ ?_
  intro g hg d
  cases hg with
  | aud2d => rfl
  | aud3d => rfl
  | aud2i _ _ => dsimp only [sqlInsAuc2]; split <;> rfl
  | aud3i _ _ => dsimp only [sqlInsAuc3]; split <;> rfl

theorem sameSubs_ind (raw : Bytes) : Sat SameSubs (Op.ind raw).run := by
  refine Sat.op SameSubs.pre _ ?_
  intro g hg d
  cases hg with
  | ind _ => dsimp only [sqlIndAdd]; split <;> rfl

theorem sameSubs_indDel (raw : Bytes) : Sat SameSubs (Op.indDel raw).run := by
  refine Sat.op SameSubs.pre _ ?_
  intro g hg d
  cases hg with
  | indDel _ => rfl

theorem sameSubs_sqn (id : Int) (q : Nat) : Sat SameSubs (Op.sqn id q).run := by
  refine Sat.op SameSubs.pre _ ?_
  intro g hg d
  cases hg with
  | sqn => rfl

theorem step_create (d : Db) (s : Script) (imsi : Bytes) (cs ps : Bool) :
    Step (.create imsi cs ps) (exec (subscrCreate imsi cs ps) d s).1 (abs d)
      (abs (exec (subscrCreate imsi cs ps) d s).2) := by
  have main : Step (.create imsi cs ps)
      (match (sqlCreate imsi cs ps d).1 with
        | .done _ => some 0 | .unique => some (-EEXIST) | .error => some (-EIO)) (abs d)
      (abs (sqlCreate imsi cs ps d).2) := by
    by_cases hn : d.subs.any (·.imsi == imsi) = true
    · simp only [sqlCreate, hn, if_true]
      simp [Step]
    · simp only [sqlCreate, hn]
      have hn' : abs d imsi = none := by
        rw [abs_none_iff, ← any_iff_known]; exact hn
      simp only [Step]
      refine ⟨hn', newId (d.subs.map (·.id)), ?_, ?_⟩
      · intro i r hr hid
        have := (abs_mem hr).1
        exact newId_fresh (d.subs.map (·.id)) (hid ▸ List.mem_map_of_mem (f := (·.id)) this)
      · funext i
        simp only [abs]
        by_cases hi : i = imsi
        · subst hi
          have : List.find? (fun r => r.imsi == i) d.subs = none := hn'
          simp [this]
        · have hi' : ¬ imsi = i := fun h => hi h.symm
          simp [hi, hi']
  unfold subscrCreate
  split
  · simp [exec_pure, Step]
  · simp only [exec_bind_stmt]
    rcases s with _ | ⟨_ | _ | _, s⟩
    · rcases hq : sqlCreate imsi cs ps d with ⟨r, d1⟩
      rw [hq] at main; cases r <;> exact main
    · rcases hq : sqlCreate imsi cs ps d with ⟨r, d1⟩
      rw [hq] at main; cases r <;> exact main
    · simp [exec_pure, Step]
    · simp [Step, acked]

/-- Deleting: the result code and the effect on the subscriber table. -/
theorem exec_delete (d : Db) (s : Script) (id : Int) :
    (exec (subscrDelete id) d s).2.subs = d.subs ∧ (firstFate s ≠ .ok)
      ∧ (exec (subscrDelete id) d s).1 ≠ some 0
    ∨ (exec (subscrDelete id) d s).2.subs = (sqlDelById id d).2.subs ∧ (firstFate s = .ok)
      ∧ ((exec (subscrDelete id) d s).1 = none
        ∨ (d.subs.countP (·.id == id) = 1 ∧ (exec (subscrDelete id) d s).1 = some 0)
        ∨ (d.subs.countP (·.id == id) ≠ 1 ∧ (exec (subscrDelete id) d s).1 ≠ none)) := by
  have haud : ∀ a, Sat SameSubs (updateAud id a) := fun a => sameSubs_aud id a
  have tail : ∀ (n : Nat) (d1 : Db) (s1 : Script),
      let m : DbM Int := (do
        let ret : Int := if n = 0 then -ENOENT else if n = 1 then 0 else -EIO
        let rc2 ← updateAud id (.gsm .none [])
        let ret := if ret == -ENOENT && rc2 == 0 then 0 else ret
        let rc3 ← updateAud id (.umts .none [] [] false 0)
        let ret := if ret == -ENOENT && rc3 == 0 then 0 else ret
        pure ret)
      (exec m d1 s1).2.subs = d1.subs ∧
        ((exec m d1 s1).1 = none ∨ (n = 1 ∧ (exec m d1 s1).1 = some 0)
          ∨ (n ≠ 1 ∧ (exec m d1 s1).1 ≠ none)) := by
    intro n d1 s1 m
    constructor
    · exact Sat.exec (R := SameSubs) (Sat.bind SameSubs.pre (haud _) (fun _ =>
        Sat.bind SameSubs.pre (haud _) (fun _ => Sat.pure SameSubs.pre _))) d1 s1
    · simp only [m]
      show _ ∨ _
      simp only [exec, bind, DbM.bind]
      rcases updateAud id (.gsm .none []) { db := d1, script := s1 } with ⟨_ | rc2, w2⟩
      · left; rfl
      · dsimp only
        rcases updateAud id (.umts .none [] [] false 0) w2 with ⟨_ | rc3, w3⟩
        · left; rfl
        · right
          by_cases hn : n = 1
          · left; subst hn; refine ⟨rfl, ?_⟩
            simp [pure, DbM.pure]
          · right; refine ⟨hn, ?_⟩
            simp [pure, DbM.pure]
  unfold subscrDelete
  rw [exec_bind_stmt]
  rcases s with _ | ⟨_ | _ | _, s⟩
  · right
    have := tail (d.subs.countP (·.id == id)) (sqlDelById id d).2 []
    exact ⟨this.1, rfl, this.2⟩
  · right
    have := tail (d.subs.countP (·.id == id)) (sqlDelById id d).2 s
    exact ⟨this.1, rfl, this.2⟩
  · left; refine ⟨rfl, by simp [firstFate], by simp [exec_pure]⟩
  · left; refine ⟨rfl, by simp [firstFate], by simp⟩

theorem update_none_of_absent {d : Db} {id : Int} {f : SubRow → Option SubRow}
    (h : ¬ ∃ r ∈ d.subs, r.id = id) : (abs d).update (·.id == id) f = abs d := by
  funext i
  unfold Store.update
  cases hf : abs d i with
  | none => rfl
  | some r =>
    simp only
    rw [if_neg]
    intro hc
    exact h ⟨r, (abs_mem hf).1, by simpa using hc⟩

theorem step_delete (d : Db) (hU : Unique d) (s : Script) (id : Int) :
    Step (.delete id) (exec (subscrDelete id) d s).1 (abs d)
      (abs (exec (subscrDelete id) d s).2) := by
  rcases exec_delete d s id with ⟨h1, _, h2⟩ | ⟨h1, _, h2⟩
  · have hs : abs (exec (subscrDelete id) d s).2 = abs d := abs_of_subs h1
    simp only [Step, acked, h2, if_false, hs]
    split
    · left; trivial
    · trivial
  · have hs : abs (exec (subscrDelete id) d s).2
        = (abs d).update (·.id == id) (fun _ => none) := by
      rw [← abs_del d hU id]; exact abs_of_subs h1
    simp only [Step, hs]
    rcases h2 with h2 | ⟨_, h2⟩ | ⟨hc, h2⟩
    · simp [h2]
    · simp [h2]
    · split
      · trivial
      · rcases countP_id_cases d hU id with ⟨h, _⟩ | ⟨_, h⟩
        · exact absurd h hc
        · exact update_none_of_absent h

theorem update_update (st : Store) (c : SubRow → Bool) (f g : SubRow → SubRow)
    (h : ∀ r, c (f r) = c r) :
    (st.update c (fun r => some (f r))).update c (fun r => some (g r))
      = st.update c (fun r => some (g (f r))) := by
  funext i
  simp only [Store.update]
  cases st i with
  | none => rfl
  | some r =>
    by_cases hc : c r = true
    · simp [hc, h]
    · simp [hc]

end Verif.Db

namespace Verif.Db
open Verif

/-- The two row changes of a location update. -/
def luPlace (ps : Bool) (n : Bytes) (via : Option Bytes) (r : SubRow) : SubRow :=
  if ps then { r with sgsn := some n, sgsnViaProxy := via }
  else { r with vlr := some n, vlrViaProxy := via }
def luStamp (ps : Bool) (t : Int) (r : SubRow) : SubRow :=
  if ps then { r with lastLuPs := some t } else { r with lastLu := some t }

theorem luPlace_imsi (ps n via r) : (luPlace ps n via r).imsi = r.imsi := by cases ps <;> rfl
theorem luStamp_imsi (ps t r) : (luStamp ps t r).imsi = r.imsi := by cases ps <;> rfl
theorem luPlace_id (ps n via r) : (luPlace ps n via r).id = r.id := by cases ps <;> rfl

theorem countP_upd_id (d : Db) (id : Int) (f : SubRow → SubRow) (h : ∀ r, (f r).id = r.id) :
    (sqlUpdSub (·.id == id) f d).2.subs.countP (·.id == id) = d.subs.countP (·.id == id) := by
  simp only [sqlUpdSub, List.countP_map]
  congr 1
  funext r
  simp only [Function.comp]
  split <;> simp [h]

/-- The part of db_subscr_lu after the first statement. -/
def luTail (id : Int) (ps : Bool) (now : Option Int) (a : WRes) : DbM Int :=
  if updRc a ≠ 0 then pure (updRc a)
  else match now with
  | none => pure (-EINVAL)
  | some t => do
    pure (updRc (← stmt (sqlUpdSub (·.id == id) (luStamp ps t)) .error))

theorem subscrLu_eq (id : Int) (n : Bytes) (ps : Bool) (via : Option Bytes) (now : Option Int) :
    subscrLu id n ps via now
      = (stmt (sqlUpdSub (·.id == id) (luPlace ps n via)) .error >>= luTail id ps now) := rfl

theorem updRc_ne_zero {n : Nat} (h : n ≠ 1) : updRc (.done n) ≠ 0 := by
  rcases n with _ | _ | k
  · decide
  · exact absurd rfl h
  · simp [updRc]

/-- All possible results of db_subscr_lu. -/
theorem exec_lu (d : Db) (s : Script) (id : Int) (n : Bytes) (ps : Bool) (via : Option Bytes)
    (now : Option Int) :
    let D1 := (sqlUpdSub (·.id == id) (luPlace ps n via) d).2
    let res := exec (subscrLu id n ps via now) d s
    (firstFate s = .crash ∧ res = (none, d))
    ∨ (firstFate s = .ioerr ∧ res = (some (-EIO), d))
    ∨ (firstFate s = .ok ∧ d.subs.countP (·.id == id) ≠ 1
        ∧ res = (some (updRc (.done (d.subs.countP (·.id == id)))), D1))
    ∨ (firstFate s = .ok ∧ d.subs.countP (·.id == id) = 1 ∧
        ((now = none ∧ res = (some (-EINVAL), D1))
        ∨ (∃ t, now = some t ∧ firstFate s.tail = .crash ∧ res = (none, D1))
        ∨ (∃ t, now = some t ∧ firstFate s.tail = .ioerr ∧ res = (some (-EIO), D1))
        ∨ (∃ t, now = some t ∧ firstFate s.tail = .ok
            ∧ res = (some 0, (sqlUpdSub (·.id == id) (luStamp ps t) D1).2)))) := by
  intro D1 res
  have key : ∀ s1, exec (luTail id ps now (sqlUpdSub (·.id == id) (luPlace ps n via) d).1) D1 s1
      = (if d.subs.countP (·.id == id) ≠ 1 then
          (some (updRc (.done (d.subs.countP (·.id == id)))), D1)
        else match (generalizing := false) now with
        | none => (some (-EINVAL), D1)
        | some t => match firstFate s1 with
          | .crash => (none, D1)
          | .ioerr => (some (-EIO), D1)
          | .ok => (some 0, (sqlUpdSub (·.id == id) (luStamp ps t) D1).2)) := by
    intro s1
    by_cases hc : d.subs.countP (·.id == id) = 1
    · have h1 : (sqlUpdSub (·.id == id) (luPlace ps n via) d).1 = .done 1 := by
        simp only [sqlUpdSub, hc]
      simp only [h1, luTail, updRc, hc, ne_eq, not_true_eq_false, if_false]
      cases now with
      | none => rfl
      | some t =>
        have hc1 : (sqlUpdSub (·.id == id) (luStamp ps t) D1).1 = .done 1 := by
          have := countP_upd_id d id (luPlace ps n via) (luPlace_id ps n via)
          simp only [D1]
          rw [sqlUpdSub]
          simp only [this, hc]
        simp only [exec_bind_stmt]
        rcases s1 with _ | ⟨_ | _ | _, s1⟩
        · simp only [hc1, exec_pure, firstFate, List.headD]
        · simp only [hc1, exec_pure, firstFate, List.headD]
        · rfl
        · rfl
    · have h2 : updRc (.done (d.subs.countP (·.id == id))) ≠ 0 := by
        exact updRc_ne_zero hc
      have h1 : (sqlUpdSub (·.id == id) (luPlace ps n via) d).1
          = .done (d.subs.countP (·.id == id)) := rfl
      simp only [luTail, h1, ne_eq, h2, not_false_eq_true, if_true, hc, exec_pure]
  have fin : ∀ s1, firstFate s = .ok → s1 = s.tail → res = (if d.subs.countP (·.id == id) ≠ 1 then
          (some (updRc (.done (d.subs.countP (·.id == id)))), D1)
        else match (generalizing := false) now with
        | none => (some (-EINVAL), D1)
        | some t => match firstFate s1 with
          | .crash => (none, D1)
          | .ioerr => (some (-EIO), D1)
          | .ok => (some 0, (sqlUpdSub (·.id == id) (luStamp ps t) D1).2)) →
      (firstFate s = .ok ∧ d.subs.countP (·.id == id) ≠ 1
        ∧ res = (some (updRc (.done (d.subs.countP (·.id == id)))), D1))
      ∨ (firstFate s = .ok ∧ d.subs.countP (·.id == id) = 1 ∧
        ((now = none ∧ res = (some (-EINVAL), D1))
        ∨ (∃ t, now = some t ∧ firstFate s.tail = .crash ∧ res = (none, D1))
        ∨ (∃ t, now = some t ∧ firstFate s.tail = .ioerr ∧ res = (some (-EIO), D1))
        ∨ (∃ t, now = some t ∧ firstFate s.tail = .ok
            ∧ res = (some 0, (sqlUpdSub (·.id == id) (luStamp ps t) D1).2)))) := by
    intro s1 h0 hs1 hr
    by_cases hc : d.subs.countP (·.id == id) = 1
    · right
      refine ⟨h0, hc, ?_⟩
      simp only [hc, ne_eq, not_true_eq_false, if_false] at hr
      cases now with
      | none => left; exact ⟨rfl, hr⟩
      | some t =>
        right
        subst hs1
        cases hf : firstFate s.tail with
        | crash => left; simp only [hf] at hr; exact ⟨t, rfl, rfl, hr⟩
        | ioerr => right; left; simp only [hf] at hr; exact ⟨t, rfl, rfl, hr⟩
        | ok => right; right; simp only [hf] at hr; exact ⟨t, rfl, rfl, hr⟩
    · left
      simp only [ne_eq, hc, not_false_eq_true, if_true] at hr
      exact ⟨h0, hc, hr⟩
  have hres := exec_bind_stmt (sqlUpdSub (·.id == id) (luPlace ps n via)) .error
    (luTail id ps now) d s
  rw [← subscrLu_eq] at hres
  rcases s with _ | ⟨_ | _ | _, s⟩
  · right; right
    exact fin [] rfl rfl (hres.trans (key []))
  · right; right
    exact fin s rfl rfl (hres.trans (key s))
  · right; left; exact ⟨rfl, rfl⟩
  · left; exact ⟨rfl, rfl⟩

theorem step_lu (d : Db) (hU : Unique d) (s : Script) (id : Int) (n : Bytes) (ps : Bool)
    (via : Option Bytes) (now : Option Int) :
    Step (.lu id n ps via now) (exec (subscrLu id n ps via now) d s).1 (abs d)
      (abs (exec (subscrLu id n ps via now) d s).2) := by
  have habs : abs (sqlUpdSub (·.id == id) (luPlace ps n via) d).2
      = (abs d).update (·.id == id) (fun r => some (luPlace ps n via r)) :=
    abs_upd d _ _ (luPlace_imsi ps n via)
  have hE : (-EIO : Int) ≠ 0 := by decide
  have hI : (-EINVAL : Int) ≠ 0 := by decide
  have half : ∀ rc, rc ≠ some 0 → Step (.lu id n ps via now) rc (abs d)
      (abs (sqlUpdSub (·.id == id) (luPlace ps n via) d).2) := by
    intro rc hrc
    simp only [Step, acked, hrc, if_false]
    right; exact habs
  have nothing : ∀ rc, rc ≠ some 0 → Step (.lu id n ps via now) rc (abs d) (abs d) := by
    intro rc hrc
    simp only [Step, acked, hrc, if_false]
    left; trivial
  rcases exec_lu d s id n ps via now with ⟨_, h⟩ | ⟨_, h⟩ | ⟨_, hc, h⟩ | ⟨_, hc, h⟩
  · rw [h]; exact nothing _ (by simp)
  · rw [h]; exact nothing _ (by simp)
  · rw [h]
    exact half _ (fun h => updRc_ne_zero hc (Option.some.inj h))
  · rcases h with ⟨_, h⟩ | ⟨t, _, _, h⟩ | ⟨t, _, _, h⟩ | ⟨t, ht, _, h⟩
    · rw [h]; exact half _ (by simp)
    · rw [h]; exact half _ (by simp)
    · rw [h]; exact half _ (by simp)
    · rw [h]
      simp only [Step, acked, if_true]
      refine ⟨?_, t, ht, ?_⟩
      · rcases countP_id_cases d hU id with ⟨_, r, hr, hid⟩ | ⟨h0, _⟩
        · exact ⟨r.imsi, r, abs_of_mem hU hr, hid⟩
        · omega
      · rw [abs_upd _ _ _ (luStamp_imsi ps t), habs,
          update_update _ _ _ _ (fun r => by simp [luPlace_id])]
        rfl

theorem ite_mono {c : Prop} [Decidable c] {a b a' : Prop} (h : if c then a else b)
    (f : a → a') : if c then a' else b := by
  by_cases hc : c
  · rw [if_pos hc] at h ⊢; exact f h
  · rw [if_neg hc] at h ⊢; exact h

theorem step_op (d : Db) (hU : Unique d) (op : Op) (s : Script) :
    Step op (exec op.run d s).1 (abs d) (abs (exec op.run d s).2) := by
  cases op with
  | create i c p => exact step_create d s i c p
  | delete i => exact step_delete d hU s i
  | msisdn i m =>
    cases m with
    | none =>
      exact ite_mono (step_of_contract (by intro r; rfl) (contract_delMsisdn d hU s i))
        (fun h => ⟨h.1, by simp, h.2.2⟩)
    | some m =>
      refine ite_mono (step_of_contract (by intro r; rfl) (contract_msisdn d hU s i m)) ?_
      intro h
      refine ⟨h.1, ?_, h.2.2⟩
      intro j r hj hr _
      have hm := abs_mem hr
      exact h.2.1 r hm.1 (by rw [hm.2]; exact hj)
  | aud i a => exact abs_of_subs ((sameSubs_aud i a).exec d s)
  | imei i v =>
    exact ite_mono (step_of_contract (by intro r; rfl) (contract_imei d hU s i v))
      (fun h => ⟨h.1, h.2.2⟩)
  | nam i v p =>
    exact ite_mono (step_of_contract (by intro r; cases p <;> rfl) (contract_nam d hU s i v p))
      (fun h => ⟨h.1, h.2.2⟩)
  | purge i v p =>
    exact ite_mono (step_of_contract (by intro r; cases p <;> rfl) (contract_purge d hU s i v p))
      (fun h => ⟨h.1, h.2.2⟩)
  | lu i n p v t => exact step_lu d hU s i n p v t
  | ind raw => exact abs_of_subs ((sameSubs_ind raw).exec d s)
  | indDel raw => exact abs_of_subs ((sameSubs_indDel raw).exec d s)
  | sqn i q => exact abs_of_subs ((sameSubs_sqn i q).exec d s)

theorem run_hist (hist : List (Op × Script)) (d : Db) (hU : Unique d) :
    Run (abs d) (trace d hist) (abs (runHist d hist)) := by
  induction hist generalizing d with
  | nil => exact .nil _
  | cons x rest ih =>
    obtain ⟨op, s⟩ := x
    exact .cons (step_op d hU op s) (ih _ ((unique_op op).exec d s hU))

end Verif.Db
