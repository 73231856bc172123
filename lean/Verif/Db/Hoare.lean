import Verif.Db.Keys
/-! # Pre/postconditions for database programs -/
namespace Verif.Db
open Verif

/-- From every database satisfying `P`, under every script, `m` ends with a result
(or `none` for a crash) and a database satisfying `Q`. -/
def Post (P : Db → Prop) (m : DbM α) (Q : Option α → Db → Prop) : Prop :=
  ∀ w, P w.db → Q (m w).1 (m w).2.db

theorem Post.pure {P : Db → Prop} {a : α} {Q : Option α → Db → Prop}
    (h : ∀ d, P d → Q (some a) d) : Post P (Pure.pure a : DbM α) Q := fun w hw => h w.db hw

theorem Post.bind {P : Db → Prop} {m : DbM α} {f : α → DbM β} (Q : Option α → Db → Prop)
    {R : Option β → Db → Prop} (hm : Post P m Q) (hn : ∀ d, Q none d → R none d)
    (hf : ∀ a, Post (Q (some a)) (f a) R) : Post P (m >>= f) R := by
  intro w hw
  have h := hm w hw
  rw [bind_run]
  rcases hmw : m w with ⟨o, w'⟩
  rw [hmw] at h
  cases o with
  | none => exact hn _ h
  | some a => exact hf a w' h

theorem Post.stmt {P : Db → Prop} {f : Db → α × Db} {err : α} {Q : Option α → Db → Prop}
    (h1 : ∀ d, P d → Q (some (f d).1) (f d).2) (h2 : ∀ d, P d → Q (some err) d)
    (h3 : ∀ d, P d → Q none d) : Post P (stmt f err) Q := by
  intro w hw
  unfold Db.stmt
  split
  · exact h1 _ hw
  · exact h1 _ hw
  · exact h2 _ hw
  · exact h3 _ hw

theorem Post.mono {P P' : Db → Prop} {m : DbM α} {Q Q' : Option α → Db → Prop}
    (h : Post P m Q) (hP : ∀ d, P' d → P d) (hQ : ∀ o d, Q o d → Q' o d) : Post P' m Q' :=
  fun w hw => hQ _ _ (h w (hP _ hw))

theorem Post.and {P : Db → Prop} {m : DbM α} {Q Q' : Option α → Db → Prop}
    (h : Post P m Q) (h' : Post P m Q') : Post P m (fun o d => Q o d ∧ Q' o d) :=
  fun w hw => ⟨h w hw, h' w hw⟩

theorem Post.exec {P : Db → Prop} {m : DbM α} {Q : Option α → Db → Prop} (h : Post P m Q)
    (d : Db) (s : Script) (hd : P d) : Q (exec m d s).1 (exec m d s).2 := h { db := d, script := s } hd

/-- A preorder established by `Sat` as a postcondition. -/
theorem Sat.post {R : Db → Db → Prop} {m : DbM α} (h : Sat R m) (d0 : Db) :
    Post (fun d => d = d0) m (fun _ d => R d0 d) := by
  intro w hw; cases hw; exact h w

theorem Sat.keepsPost {I : Db → Prop} {m : DbM α} (h : Sat (Keeps I) m) :
    Post I m (fun _ d => I d) := fun w hw => h w hw

/-- Existence tests do not change the database. -/
theorem existsByImsi_sat {R : Db → Db → Prop} (hR : Pre R) (x : Bytes) : Sat R (existsByImsi x) :=
  Sat.bind hR (Sat.stmt hR (fun d => hR.refl d)) (fun a => by cases a <;> exact Sat.pure hR _)

theorem existsByMsisdn_sat {R : Db → Db → Prop} (hR : Pre R) (x : Bytes) :
    Sat R (existsByMsisdn x) :=
  Sat.bind hR (Sat.stmt hR (fun d => hR.refl d)) (fun a => by cases a <;> exact Sat.pure hR _)

theorem dbSel_sat {R : Db → Db → Prop} (hR : Pre R) (c : SubRow → Bool) : Sat R (dbSel c) :=
  Sat.bind hR (Sat.stmt hR (fun d => hR.refl d)) (fun a => by cases a <;> exact Sat.pure hR _)

theorem dbInd_sat {R : Db → Db → Prop} (hR : Pre R) (raw : Bytes)
    (h : Sat R (Op.ind raw).run) : Sat R (dbInd raw) := by
  intro w
  have := h w
  have e : ((Op.ind raw).run w).2 = (dbInd raw w).2 := by
    simp only [Op.run, bind_run]
    rcases dbInd raw w with ⟨_ | a, w⟩ <;> rfl
  rw [e] at this
  exact this

end Verif.Db
