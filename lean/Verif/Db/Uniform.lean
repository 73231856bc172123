import Verif.Db.Hoare
/-! # Programs without faults

On a script without faults a program behaves as on the empty script. -/
namespace Verif.Db
open Verif

def Uniform (m : DbM α) : Prop :=
  ∀ d, ∃ a d', m { db := d, script := [] } = (some a, { db := d', script := [] })
    ∧ ∀ s, AllOk s → ∃ t, AllOk t ∧ m { db := d, script := s } = (some a, { db := d', script := t })

theorem Uniform.pure (a : α) : Uniform (Pure.pure a : DbM α) :=
  fun d => ⟨a, d, rfl, fun s hs => ⟨s, hs, rfl⟩⟩

theorem Uniform.bind {m : DbM α} {f : α → DbM β} (hm : Uniform m) (hf : ∀ a, Uniform (f a)) :
    Uniform (m >>= f) := by
  intro d
  obtain ⟨a, d1, h1, h2⟩ := hm d
  obtain ⟨b, d2, h3, h4⟩ := hf a d1
  refine ⟨b, d2, ?_, ?_⟩
  · rw [bind_run, h1]; exact h3
  · intro s hs
    obtain ⟨t, ht, e⟩ := h2 s hs
    obtain ⟨t', ht', e'⟩ := h4 t ht
    refine ⟨t', ht', ?_⟩
    rw [bind_run, e]; exact e'

theorem Uniform.stmt (f : Db → α × Db) (err : α) : Uniform (stmt f err) := by
  intro d
  refine ⟨(f d).1, (f d).2, rfl, ?_⟩
  intro s hs
  rcases hs.cases with rfl | ⟨t, rfl, ht⟩
  · exact ⟨[], hs, rfl⟩
  · exact ⟨t, ht, rfl⟩

theorem Uniform.exec {m : DbM α} (h : Uniform m) (d : Db) {s : Script} (hs : AllOk s) :
    exec m d s = exec m d [] := by
  obtain ⟨a, d', h1, h2⟩ := h d
  obtain ⟨t, _, e⟩ := h2 s hs
  simp only [Db.exec, h1, e]

theorem Uniform.ite {c : Prop} [Decidable c] {m m' : DbM α} (h : Uniform m) (h' : Uniform m') :
    Uniform (if c then m else m') := by split <;> assumption

theorem existsByImsi_uniform (i : Bytes) : Uniform (existsByImsi i) :=
  .bind (.stmt _ _) (fun a => by cases a <;> exact .pure _)

theorem existsByMsisdn_uniform (i : Bytes) : Uniform (existsByMsisdn i) :=
  .bind (.stmt _ _) (fun a => by cases a <;> exact .pure _)

theorem dbSel_uniform (c : SubRow → Bool) : Uniform (dbSel c) :=
  .bind (.stmt _ _) (fun a => by cases a <;> exact .pure _)

theorem subscrCreate_uniform (i : Bytes) (c p : Bool) : Uniform (subscrCreate i c p) :=
  .ite (.pure _) (.bind (.stmt _ _) (fun a => by cases a <;> exact .pure _))

theorem updateMsisdn_uniform (i : Bytes) (m : Option Bytes) : Uniform (updateMsisdn i m) := by
  cases m with
  | none => exact .bind (.stmt _ _) (fun _ => .pure _)
  | some m => exact .ite (.pure _) (.bind (.stmt _ _) (fun _ => .pure _))

theorem updateImei_uniform (i : Bytes) (m : Option Bytes) : Uniform (updateImei i m) :=
  .ite (.pure _) (.bind (.stmt _ _) (fun _ => .pure _))

theorem subscrNam_uniform (i : Bytes) (v p : Bool) : Uniform (subscrNam i v p) :=
  .bind (.stmt _ _) (fun _ => .pure _)

theorem subscrPurge_uniform (i : Bytes) (v p : Bool) : Uniform (subscrPurge i v p) :=
  .bind (.stmt _ _) (fun _ => .pure _)

theorem updateSqn_uniform (i : Int) (q : Nat) : Uniform (updateSqn i q) :=
  .bind (.stmt _ _) (fun _ => .pure _)

theorem subscrLu_uniform (id : Int) (n : Bytes) (ps : Bool) (via : Option Bytes) (now : Option Int) :
    Uniform (subscrLu id n ps via now) := by
  refine .bind (.stmt _ _) (fun a => ?_)
  dsimp only
  refine .ite (.pure _) ?_
  cases now with
  | none => exact .pure _
  | some t => exact .bind (.stmt _ _) (fun _ => .pure _)

theorem indGet_uniform (n : Bytes) : Uniform (indGet n) :=
  .bind (.stmt _ _) (fun a => by cases a <;> exact .pure _)

theorem dbInd_uniform (raw : Bytes) : Uniform (dbInd raw) :=
  .ite (.pure _) (.bind (indGet_uniform _) (fun _ => .ite (.pure _)
    (.bind (.stmt _ _) (fun a => by cases a <;> first | exact indGet_uniform _ | exact .pure _))))

end Verif.Db
