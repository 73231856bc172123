import Verif.Sys.Gone
import Verif.Prov.Safety
import Verif.Config.Routing
import Verif.Live.Model
/-! # Lemmas about the running HLR and its configuration -/
namespace Verif.Live
open Verif Verif.Db Verif.Sys Verif.Sys.Props Verif.Prov.Running

/-! ## Histories -/

theorem run3_append (base : Cfg) (e : Config.Env) (s : Live) (l l' : List Ev3) :
    run3 base e s (l ++ l') = run3 base e (run3 base e s l) l' := by
  induction l generalizing s with
  | nil => rfl
  | cons x l ih => exact ih _

theorem run3_sys (base : Cfg) (e : Config.Env) (s : Live) (l : List Ev3) :
    (run3 base e s l).sys = run2 s.sys (pairs base e s l) := by
  induction l generalizing s with
  | nil => rfl
  | cons x l ih =>
    cases x with
    | cfg node words => exact ih _
    | hlr ev boot => exact ih _

theorem run3_ub {base : Cfg} {e : Config.Env} {s : Live} (l : List Ev3) (h : (run3 base e s l).sys.ub = false) : s.sys.ub = false := by
  cases hu : s.sys.ub with
  | false => rfl
  | true => rw [run3_sys, run2_ub hu, hu] at h; cases h

theorem run3_unique {base : Cfg} {e : Config.Env} {s : Live} (hU : Unique s.sys.db) (l : List Ev3) : Unique (run3 base e s l).sys.db := by
  rw [run3_sys]
  exact (run2_linked _ hU _).keeps unique_op hU

theorem run3_reach {base : Cfg} {e : Config.Env} {d : Db} (hU : Unique d) {h0 : List Config.Spec.Input} (l : List Ev3)
    (h : (run3 base e ⟨h0, init d⟩ l).sys.ub = false) : Reach (run3 base e ⟨h0, init d⟩ l).sys := by
  rw [run3_sys] at h ⊢
  obtain ⟨evs, he⟩ := run2_sim (init d) hU _ h
  exact ⟨d, evs, he.run.symm⟩

/-! ## Restarts -/

theorem restarts_iff {s t : Sys} {l : List Out} (h : t.log = l ++ s.log) : restarts t = restarts s ↔ .restart ∉ l := by
  unfold restarts
  rw [h, List.countP_append]
  have : l.countP isRestart = 0 ↔ .restart ∉ l := by
    rw [List.countP_eq_zero]
    constructor
    · intro h hm; exact absurd rfl (h _ hm)
    · intro h o ho hc
      cases o <;> first | exact h ho | cases hc
  rw [← this]
  omega

theorem prov_gfr {s : Sys} (o : Sys) {evs : List (Cfg × Sys.Ev)} (h : evs.all isProv = true) :
    GFr o s (Sys.run s evs) ∧ ∀ x ∈ (Sys.run s evs).sess, x ∈ s.sess := by
  induction evs generalizing s with
  | nil => exact ⟨id, fun _ h => h⟩
  | cons a evs ih =>
    obtain ⟨cfg, ev⟩ := a
    rw [List.all_cons, Bool.and_eq_true] at h
    have h1 : ∀ c m e, ev ≠ .rx c m e := by rintro c m e rfl; exact absurd h.1 (by simp [isProv])
    have h2 : ∀ i d, ev ≠ .ssTimeout i d := by rintro i d rfl; exact absurd h.1 (by simp [isProv])
    obtain ⟨i1, i2⟩ := ih (s := step cfg s ev) h.2
    obtain ⟨lg, -, -, w⟩ := stay_step cfg s ev (fun c m e he _ => h1 _ _ _ he) h2
    exact ⟨fun x => i1 (gfr_step0 o cfg s ev h1 x), fun x hx => w x (i2 x hx)⟩

/-- Where the sessions come from, commands included. -/
theorem step2_sess {cfg : Cfg} {s : Sys} (hr : Reach s) (hU : Unique s.db) (ev : Ev2) (hu : (step2 cfg s ev).ub = false) {x : Sess}
    (hx : x ∈ (step2 cfg s ev).sess) :
    restarts (step2 cfg s ev) = restarts s
    ∧ ((∃ y ∈ s.sess, Kept (∃ ev', ev = .sys ev' ∧ Continues cfg y ev') y x) ∨ ∃ c m e, ev = .sys (.rx c (some m) e) ∧ IsSs m.typ ∧ NewSess cfg s c m x) := by
  have key : Empty s (step2 cfg s ev) → restarts (step2 cfg s ev) = restarts s := by
    rintro ⟨l, h1, h2⟩
    refine (restarts_iff h1).2 fun hm => ?_
    rw [h2 hm] at hx
    cases hx
  have prov : ∀ evs : List (Cfg × Sys.Ev), evs.all isProv = true → Sys.run s evs = step2 cfg s ev →
      restarts (step2 cfg s ev) = restarts s
      ∧ ((∃ y ∈ s.sess, Kept (∃ ev', ev = .sys ev' ∧ Continues cfg y ev') y x) ∨ ∃ c m e, ev = .sys (.rx c (some m) e) ∧ IsSs m.typ ∧ NewSess cfg s c m x) := by
    intro evs hp he
    obtain ⟨h1, h2⟩ := prov_gfr s hp (s := s)
    rw [he] at h1 h2
    exact ⟨key (h1 (empty_refl s)), .inl ⟨x, h2 x hx, .refl _ x⟩⟩
  cases ev with
  | sys ev =>
    refine ⟨key (gfr_step cfg s ev), ?_⟩
    rcases step_sess hr ev hx with ⟨y, hy, st, v, tm, hxy, h⟩ | ⟨c, m, e, rfl, h⟩
    · exact .inl ⟨y, hy, st, v, tm, hxy, h.imp_right fun h => ⟨h.1, ev, rfl, h.2⟩⟩
    · exact .inr ⟨c, m, e, rfl, h⟩
  | ctrl c sc =>
    obtain ⟨evs, hp, he⟩ := ctrlCmd_events cfg c sc s
    exact prov evs hp he
  | vty ck c sc sc1 sc2 =>
    rcases vtyCmd_events cfg ck c sc sc1 sc2 s hU with hb | ⟨evs, hp, he⟩
    · exact absurd hb (by rw [show (vtyCmd cfg ck c sc sc1 sc2 s).ub = false from hu]; simp)
    · exact prov evs hp he

end Verif.Live
