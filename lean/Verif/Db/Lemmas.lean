import Verif.Db.Model
/-! # Helper lemmas about database programs -/
namespace Verif.Db
open Verif

/-- `Sat R m`: whatever the database and the script, running `m` relates the
database before to the database after by `R` (also when it crashes). -/
def Sat (R : Db → Db → Prop) (m : DbM α) : Prop := ∀ w, R w.db (m w).2.db

structure Pre (R : Db → Db → Prop) : Prop where
  refl : ∀ d, R d d
  trans : ∀ a b c, R a b → R b c → R a c

theorem Sat.pure {R : Db → Db → Prop} (hR : Pre R) (a : α) :
    Sat R (Pure.pure a : DbM α) := fun w => hR.refl w.db

theorem Sat.bind {R : Db → Db → Prop} (hR : Pre R) {m : DbM α} {f : α → DbM β}
    (hm : Sat R m) (hf : ∀ a, Sat R (f a)) : Sat R (m >>= f) := by
  intro w
  show R w.db (DbM.bind m f w).2.db
  unfold DbM.bind
  have h := hm w
  rcases hmw : m w with ⟨o, w'⟩
  rw [hmw] at h
  cases o with
  | none => exact h
  | some a => exact hR.trans _ _ _ h (hf a w')

theorem Sat.stmt {R : Db → Db → Prop} (hR : Pre R) {f : Db → α × Db} {err : α}
    (h : ∀ d, R d (f d).2) : Sat R (stmt f err) := by
  intro w
  unfold Db.stmt
  split
  · exact h _
  · exact h _
  · exact hR.refl _
  · exact hR.refl _

/-- Reads have no effect. -/
theorem sqlSel_db (cond : SubRow → Bool) (d : Db) : (sqlSel cond d).2 = d := rfl
theorem sqlIndSel_db (v : Bytes) (d : Db) : (sqlIndSel v d).2 = d := rfl

/-- The statements each API call may issue (reads left out). -/
inductive Issues : Op → (Db → Db) → Prop
  | create {i c p} : imsiValid i = true →
      Issues (.create i c p) (fun d => (sqlCreate i c p d).2)
  | del {i} : Issues (.delete i) (fun d => (sqlDelById i d).2)
  | del2 {i} : Issues (.delete i) (fun d => (sqlDelAuc2 i d).2)
  | del3 {i} : Issues (.delete i) (fun d => (sqlDelAuc3 i d).2)
  | aud2d {i al k} : Issues (.aud i (.gsm al k)) (fun d => (sqlDelAuc2 i d).2)
  | aud3d {i al k o s l} : Issues (.aud i (.umts al k o s l)) (fun d => (sqlDelAuc3 i d).2)
  | aud2i {i al k} : aud2Valid al k = true → al ≠ .none →
      Issues (.aud i (.gsm al k)) (fun d => (sqlInsAuc2 { id := i, algo := al, ki := k } d).2)
  | aud3i {i al k o s l} : aud3Valid al k o l = true → al ≠ .none →
      Issues (.aud i (.umts al k o s l)) (fun d => (sqlInsAuc3 (mkAuc3 i al k o s l) d).2)
  | msisdn {i m} : msisdnValid m = true →
      Issues (.msisdn i (some m)) (fun d => (sqlSetMsisdn i m d).2)
  | noMsisdn {i} : Issues (.msisdn i none) (fun d => (sqlDelMsisdn i d).2)
  | imei {i m} : (∀ x, m = some x → imeiValid x = true) →
      Issues (.imei i m)
        (fun d => (sqlUpdSub (·.imsi == i) (fun r => { r with imei := m }) d).2)
  | nam {i v p} : Issues (.nam i v p) (fun d => (sqlUpdSub (·.imsi == i)
      (fun r => if p then { r with namPs := v } else { r with namCs := v }) d).2)
  | purge {i v p} : Issues (.purge i v p) (fun d => (sqlUpdSub (·.imsi == i)
      (fun r => if p then { r with purgedPs := v } else { r with purgedCs := v }) d).2)
  | lu1 {i n p v t} : Issues (.lu i n p v t) (fun d => (sqlUpdSub (·.id == i)
      (fun r => if p then { r with sgsn := some n, sgsnViaProxy := v }
                else { r with vlr := some n, vlrViaProxy := v }) d).2)
  | lu2 {i n p v t} : Issues (.lu i n p v (some t)) (fun d => (sqlUpdSub (·.id == i)
      (fun r => if p then { r with lastLuPs := some t } else { r with lastLu := some t }) d).2)
  | ind {raw} : indNameOk raw = true → Issues (.ind raw) (fun d => (sqlIndAdd (cstr raw) d).2)
  | indDel {raw} : indNameOk raw = true →
      Issues (.indDel raw) (fun d => (sqlIndDel (cstr raw) d).2)
  | sqn {i q} : Issues (.sqn i q) (fun d => (sqlUpdSqn i q d).2)

/-- A preorder that every issued statement respects is respected by the call,
under every script. -/
theorem Sat.op {R : Db → Db → Prop} (hR : Pre R) (op : Op)
    (h : ∀ g, Issues op g → ∀ d, R d (g d)) : Sat R op.run := by
  have rd : ∀ d, R d d := hR.refl
  cases op with
  | create i c p =>
    simp only [Op.run, subscrCreate]
    split
    · exact Sat.pure hR _
    · rename_i hv
      refine Sat.bind hR (Sat.stmt hR (fun d => h _ (.create (by simpa using hv)) d)) ?_
      intro a; cases a <;> exact Sat.pure hR _
  | delete i =>
    simp only [Op.run, subscrDelete]
    refine Sat.bind hR (Sat.stmt hR (fun d => h _ .del d)) ?_
    intro a
    cases a with
    | error => exact Sat.pure hR _
    | unique => exact Sat.pure hR _
    | done n =>
      have h2 : Sat R (updateAud i (.gsm .none [])) := by
        simp only [updateAud]
        split
        · exact Sat.pure hR _
        · refine Sat.bind hR (Sat.stmt hR (fun d => h _ .del2 d)) ?_
          intro a
          rcases a with n | _ | _
          · rcases n with _ | _ | n <;> exact Sat.pure hR _
          · exact Sat.pure hR _
          · exact Sat.pure hR _
      have h3 : Sat R (updateAud i (.umts .none [] [] false 0)) := by
        simp only [updateAud]
        split
        · exact Sat.pure hR _
        · refine Sat.bind hR (Sat.stmt hR (fun d => h _ .del3 d)) ?_
          intro a
          rcases a with n | _ | _
          · rcases n with _ | _ | n <;> exact Sat.pure hR _
          · exact Sat.pure hR _
          · exact Sat.pure hR _
      exact Sat.bind hR h2 (fun _ => Sat.bind hR h3 (fun _ => Sat.pure hR _))
  | msisdn i m =>
    cases m with
    | none =>
      simp only [Op.run, updateMsisdn]
      exact Sat.bind hR (Sat.stmt hR (fun d => h _ .noMsisdn d)) (fun _ => Sat.pure hR _)
    | some m =>
      simp only [Op.run, updateMsisdn]
      split
      · exact Sat.pure hR _
      · rename_i hv
        exact Sat.bind hR (Sat.stmt hR (fun d => h _ (.msisdn (by simpa using hv)) d))
          (fun _ => Sat.pure hR _)
  | aud i a =>
    cases a with
    | other => exact Sat.pure hR _
    | gsm al k =>
      simp only [Op.run, updateAud]
      split
      · exact Sat.pure hR _
      · rename_i hv
        refine Sat.bind hR (Sat.stmt hR (fun d => h _ .aud2d d)) ?_
        intro a
        split
        · exact Sat.pure hR _
        · rename_i heq
          have hal : al ≠ .none := by
            intro hh; subst hh
            revert heq
            rcases a with n | _ | _
            · rcases n with _ | _ | n <;> simp [audAfterDelete]
            · simp [audAfterDelete]
            · simp [audAfterDelete]
          exact Sat.bind hR (Sat.stmt hR (fun d => h _ (.aud2i (by simpa using hv) hal) d))
            (fun _ => Sat.pure hR _)
    | umts al k o s l =>
      simp only [Op.run, updateAud]
      split
      · exact Sat.pure hR _
      · rename_i hv
        refine Sat.bind hR (Sat.stmt hR (fun d => h _ .aud3d d)) ?_
        intro a
        split
        · exact Sat.pure hR _
        · rename_i heq
          have hal : al ≠ .none := by
            intro hh; subst hh
            revert heq
            rcases a with n | _ | _
            · rcases n with _ | _ | n <;> simp [audAfterDelete]
            · simp [audAfterDelete]
            · simp [audAfterDelete]
          exact Sat.bind hR (Sat.stmt hR (fun d => h _ (.aud3i (by simpa using hv) hal) d))
            (fun _ => Sat.pure hR _)
  | imei i m =>
    cases m with
    | none =>
      exact Sat.bind hR (Sat.stmt hR (fun d => h _ (.imei (by simp)) d)) (fun _ => Sat.pure hR _)
    | some m =>
      simp only [Op.run, updateImei]
      split
      · exact Sat.pure hR _
      · rename_i hv
        refine Sat.bind hR (Sat.stmt hR (fun d => h _ (.imei ?_) d)) (fun _ => Sat.pure hR _)
        intro x hx; cases hx; simpa using hv
  | nam i v p =>
    exact Sat.bind hR (Sat.stmt hR (fun d => h _ .nam d)) (fun _ => Sat.pure hR _)
  | purge i v p =>
    exact Sat.bind hR (Sat.stmt hR (fun d => h _ .purge d)) (fun _ => Sat.pure hR _)
  | lu i n p v t =>
    simp only [Op.run, subscrLu]
    refine Sat.bind hR (Sat.stmt hR (fun d => h _ .lu1 d)) ?_
    intro a
    split
    · exact Sat.pure hR _
    · split
      · exact Sat.pure hR _
      · exact Sat.bind hR (Sat.stmt hR (fun d => h _ .lu2 d)) (fun _ => Sat.pure hR _)
  | ind raw =>
    have hget : Sat R (indGet (cstr raw)) := by
      refine Sat.bind hR (Sat.stmt hR (fun d => by rw [sqlIndSel_db]; exact rd d)) ?_
      intro a; cases a <;> exact Sat.pure hR _
    refine Sat.bind hR ?_ (fun _ => Sat.pure hR _)
    simp only [dbInd]
    split
    · exact Sat.pure hR _
    · rename_i hv
      refine Sat.bind hR hget ?_
      intro r
      split
      · exact Sat.pure hR _
      · refine Sat.bind hR (Sat.stmt hR (fun d => h _ (.ind (by simpa using hv)) d)) ?_
        intro a; cases a
        · exact hget
        · exact Sat.pure hR _
        · exact Sat.pure hR _
  | indDel raw =>
    simp only [Op.run, dbIndDel]
    split
    · exact Sat.pure hR _
    · rename_i hv
      exact Sat.bind hR (Sat.stmt hR (fun d => h _ (.indDel (by simpa using hv)) d))
        (fun _ => Sat.pure hR _)
  | sqn i q =>
    exact Sat.bind hR (Sat.stmt hR (fun d => h _ .sqn d)) (fun _ => Sat.pure hR _)

theorem Sat.exec {R : Db → Db → Prop} {m : DbM α} (h : Sat R m) (d : Db) (s : Script) :
    R d (exec m d s).2 := h { db := d, script := s }

/-- The preorder "if `I` held before, it holds after". -/
def Keeps (I : Db → Prop) (d d' : Db) : Prop := I d → I d'

theorem Keeps.pre (I : Db → Prop) : Pre (Keeps I) :=
  ⟨fun _ h => h, fun _ _ _ h1 h2 h => h2 (h1 h)⟩

theorem runHist_keeps {I : Db → Prop} (h : ∀ op : Op, Sat (Keeps I) op.run) :
    ∀ (hist : List (Op × Script)) (d : Db), I d → I (runHist d hist)
  | [], _, hd => hd
  | (op, s) :: rest, d, hd =>
    runHist_keeps h rest _ ((h op).exec d s hd)

/-- On an exhausted or all-`ok` script a statement simply executes. -/
theorem stmt_ok (f : Db → α × Db) (err : α) (d : Db) :
    stmt f err { db := d, script := [] } = (some (f d).1, { db := (f d).2, script := [] }) := rfl

theorem exec_nil_pure (a : α) (d : Db) : exec (Pure.pure a : DbM α) d [] = (some a, d) := rfl

/-! ## newId -/

theorem le_foldl_max (l : List Int) (a : Int) : a ≤ l.foldl max a := by
  induction l generalizing a with
  | nil => simp
  | cons x l ih => exact Int.le_trans (Int.le_max_left a x) (ih _)

theorem mem_le_foldl_max (l : List Int) (a x : Int) (h : x ∈ l) : x ≤ l.foldl max a := by
  induction l generalizing a with
  | nil => cases h
  | cons y l ih =>
    rcases List.mem_cons.mp h with rfl | h
    · exact Int.le_trans (Int.le_max_right a x) (le_foldl_max l _)
    · exact ih _ h

theorem newId_fresh (l : List Int) : newId l ∉ l := by
  intro h
  have := mem_le_foldl_max l 0 _ h
  unfold newId at this
  omega

theorem le_foldl_maxN (l : List Nat) (a : Nat) : a ≤ l.foldl max a := by
  induction l generalizing a with
  | nil => simp
  | cons x l ih => exact Nat.le_trans (Nat.le_max_left a x) (ih _)

theorem mem_le_foldl_maxN (l : List Nat) (a x : Nat) (h : x ∈ l) : x ≤ l.foldl max a := by
  induction l generalizing a with
  | nil => cases h
  | cons y l ih =>
    rcases List.mem_cons.mp h with rfl | h
    · exact Nat.le_trans (Nat.le_max_right a x) (le_foldl_maxN l _)
    · exact ih _ h

theorem newInd_fresh (l : List Nat) : l.foldl max 0 + 1 ∉ l := by
  intro h
  have := mem_le_foldl_maxN l 0 _ h
  omega

end Verif.Db

namespace Verif.Db
open Verif

theorem exec_pure (a : α) (d : Db) (s : Script) : exec (Pure.pure a : DbM α) d s = (some a, d) := rfl

theorem exec_bind_stmt (f : Db → α × Db) (e : α) (g : α → DbM β) (d : Db) (s : Script) :
    exec (stmt f e >>= g) d s =
      match s with
      | [] => exec (g (f d).1) (f d).2 []
      | .ok :: s => exec (g (f d).1) (f d).2 s
      | .ioerr :: s => exec (g e) d s
      | .crash :: _ => (none, d) := by
  cases s with
  | nil => rfl
  | cons x s => cases x <;> rfl

theorem countP_le_one_of_nodup {α β} [BEq β] [LawfulBEq β] (l : List α) (f : α → β) (x : β)
    (h : (l.map f).Nodup) : l.countP (fun a => f a == x) ≤ 1 := by
  induction l with
  | nil => simp
  | cons a l ih =>
    simp only [List.map_cons, List.nodup_cons] at h
    simp only [List.countP_cons]
    split
    · rename_i hx
      have : l.countP (fun a => f a == x) = 0 := by
        rw [List.countP_eq_zero]
        intro y hy hyx
        apply h.1
        have h1 : f a = x := by simpa using hx
        have h2 : f y = x := by simpa using hyx
        rw [h1, ← h2]; exact List.mem_map_of_mem hy
      omega
    · have := ih h.2; omega

theorem countP_pos_iff_any {α} (l : List α) (p : α → Bool) : 0 < l.countP p ↔ l.any p = true := by
  rw [List.countP_pos_iff, List.any_eq_true]

theorem filter_map_ite {α} (l : List α) (c : α → Bool) (f : α → α) (h : ∀ a, c (f a) = c a) :
    (l.map (fun r => if c r then f r else r)).filter (fun r => !c r) = l.filter (fun r => !c r) := by
  induction l with
  | nil => rfl
  | cons a l ih =>
    simp only [List.map_cons]
    by_cases hc : c a = true
    · simp [hc, h, ih]
    · simp [hc, ih]

end Verif.Db
