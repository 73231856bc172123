import Verif.Live.Lemmas
import Verif.Live.Routes
import Verif.Hlr.Props
/-!
# C70: the configuration of a running HLR

`run3 base e ⟨h0, init d⟩ l` is the HLR after the history `l` of lines of configuration, messages, timers,
commands and failures, started with database `d` and a configuration file of the lines `h0`; `hist` are
the lines of configuration since the process was last started.
-/
namespace Verif.Live.Props
open Verif Verif.Db Verif.Gsup Verif.Sys Verif.Sys.Props Verif.Prov.Running Verif.Config.Spec Verif.Live Verif.Live.Spec

/-! ## The configuration in force -/

/-- C70: a history of the HLR is one of `Verif.Prov.Running`, with the configuration in force at every
event: what is proved of those (C26 – C57, C69) holds whatever is configured meanwhile. -/
theorem c70_run (base : Cfg) (e : Config.Env) (h0 : List Input) (d : Db) (l : List Ev3) :
    ∃ l2 : List (Cfg × Ev2), (run3 base e ⟨h0, init d⟩ l).sys = run2 (init d) l2
      ∧ l2.map Prod.snd = l.filterMap fun x => match x with | .hlr ev _ => some ev | .cfg .. => none := by
  refine ⟨pairs base e ⟨h0, init d⟩ l, run3_sys .., ?_⟩
  generalize (⟨h0, init d⟩ : Live) = s
  induction l generalizing s with
  | nil => rfl
  | cons x l ih =>
    cases x with
    | cfg node words => exact ih _
    | hlr ev boot => exact congrArg (ev :: ·) (ih _)

theorem list_snoc {α : Type} (P : List α → Prop) (h0 : P []) (h1 : ∀ l x, P l → P (l ++ [x])) (l : List α) : P l := by
  suffices ∀ l : List α, P l.reverse by simpa using this l.reverse
  intro l
  induction l with
  | nil => exact h0
  | cons a l ih => rw [List.reverse_cons]; exact h1 _ _ ih

theorem last_config {α : Type} (g : Config.St → α) (f : Config.Cmd → Option α)
    (hx : ∀ file n s c, g (Config.exec file n s c).2.2 = (f c).getD (g s)) (e : Config.Env) (h : List Input) :
    g (config e h) = lastOf f (g {}) e h := by
  induction h using list_snoc with
  | h0 => rfl
  | h1 l x ih =>
    unfold lastOf at ih ⊢
    rw [List.filterMap_append, config, List.foldl_append]
    show g (after e (config e l) x) = _
    unfold after
    cases hp : Config.parse e x.node x.words with
    | none => simpa [hp] using ih
    | some c =>
      dsimp only
      rw [hx, ih]
      cases hf : f c with
      | none => simp [hp, hf]
      | some a => simp [hp, hf]

/-- The settings by the commands that make them. -/
def notFoundOf : Config.Cmd → Option Config.Rej
  | .reject false r => some r
  | _ => none

def noProxyOf : Config.Cmd → Option Config.Rej
  | .reject true r => some r
  | _ => none

def imeiOf : Config.Cmd → Option Bool
  | .storeImei => some true
  | .noStoreImei => some false
  | _ => none

def codOf : Config.Cmd → Option Hlr.CodMode
  | .cod m _ _ => some m
  | .noCod => some .disabled
  | _ => none

def guardOf : Config.Cmd → Option Nat
  | .guard t => some t
  | _ => none

/-- C70: the settings that have one value have that of the last command for it, and before any the
documented one. -/
theorem c70_last (e : Config.Env) (h : List Input) :
    (config e h).rej = lastOf notFoundOf .plmnNotAllowed e h ∧ (config e h).noProxy = lastOf noProxyOf .netFail e h
    ∧ (config e h).storeImei = lastOf imeiOf false e h ∧ (config e h).cod = lastOf codOf .disabled e h
    ∧ (config e h).guard = lastOf guardOf 30 e h := by
  have key : ∀ file n s c,
      (Config.exec file n s c).2.2.rej = (notFoundOf c).getD s.rej ∧ (Config.exec file n s c).2.2.noProxy = (noProxyOf c).getD s.noProxy
      ∧ (Config.exec file n s c).2.2.storeImei = (imeiOf c).getD s.storeImei ∧ (Config.exec file n s c).2.2.cod = (codOf c).getD s.cod
      ∧ (Config.exec file n s c).2.2.guard = (guardOf c).getD s.guard := by
    intro file n s c
    cases c with
    | reject proxy r => cases proxy <;> exact ⟨rfl, rfl, rfl, rfl, rfl⟩
    | profile c =>
      unfold Config.exec Config.createPdp
      dsimp only
      split
      · exact ⟨rfl, rfl, rfl, rfl, rfl⟩
      · split
        · rename_i i s' hs
          obtain ⟨j, hj, hs⟩ := Option.map_eq_some_iff.1 hs
          cases hs
          exact ⟨rfl, rfl, rfl, rfl, rfl⟩
        · exact ⟨rfl, rfl, rfl, rfl, rfl⟩
    | _ =>
      (unfold Config.exec
       try dsimp only
       repeat' split
       all_goals first
         | exact ⟨rfl, rfl, rfl, rfl, rfl⟩
         | (obtain ⟨m, hm⟩ := Config.execMsl_msl n s _; rw [hm]; exact ⟨rfl, rfl, rfl, rfl, rfl⟩))
  exact ⟨last_config (·.rej) _ (fun f n s c => (key f n s c).1) e h, last_config (·.noProxy) _ (fun f n s c => (key f n s c).2.1) e h,
    last_config (·.storeImei) _ (fun f n s c => (key f n s c).2.2.1) e h, last_config (·.cod) _ (fun f n s c => (key f n s c).2.2.2.1) e h,
    last_config (·.guard) _ (fun f n s c => (key f n s c).2.2.2.2) e h⟩

/-! ## What is under way keeps what it began with -/

/-- A CONTINUE message of the session, at a time when a guard time is configured. -/
def Guarded (base : Cfg) (e : Config.Env) (s0 : Live) (x : Sess) (l1 l2 : List Ev3) : Prop :=
  ∃ l3 c m env boot l4, l2 = l3 ++ .hlr (.sys (.rx c (some m) env)) boot :: l4 ∧ m.sessState = .continue_
    ∧ m.imsi = x.imsi ∧ m.sessId = x.id ∧ lastOf guardOf 30 e (run3 base e s0 (l1 ++ l3)).hist ≠ 0

theorem Guarded.snoc {base : Cfg} {e : Config.Env} {s0 : Live} {x : Sess} {l1 l2 : List Ev3} (h : Guarded base e s0 x l1 l2) (a : Ev3) :
    Guarded base e s0 x l1 (l2 ++ [a]) := by
  obtain ⟨l3, c, m, env, boot, l4, rfl, h⟩ := h
  exact ⟨l3, c, m, env, boot, l4 ++ [a], by simp, h⟩

/-- How a session began, and what has become of its timer. -/
structure Origin (base : Cfg) (e : Config.Env) (s0 : Live) (l : List Ev3) (x x0 : Sess) (l1 : List Ev3) (a : Ev3) (l2 : List Ev3) : Prop where
  split : l = l1 ++ a :: l2
  begun : ∃ c m env boot, a = .hlr (.sys (.rx c (some m) env)) boot ∧ IsSs m.typ
    ∧ NewSess ((run3 base e s0 l1).cfg base e) (run3 base e s0 l1).sys c m x0
  same : restarts (run3 base e s0 l).sys = restarts (run3 base e s0 l1).sys
  kept : ∃ st v tm, x = { x0 with state := st, vlr := v, timer := tm }
    ∧ (tm = x0.timer ∨ (tm = true ∧ Guarded base e s0 x0 (l1 ++ [a]) l2))

theorem sess_origin {base : Cfg} {e : Config.Env} {h0 : List Input} {d : Db} (hU : Unique d) (l : List Ev3)
    (hub : (run3 base e ⟨h0, init d⟩ l).sys.ub = false) {x : Sess} (hx : x ∈ (run3 base e ⟨h0, init d⟩ l).sys.sess) :
    ∃ x0 l1 a l2, Origin base e ⟨h0, init d⟩ l x x0 l1 a l2 := by
  induction l using list_snoc generalizing x with
  | h0 => cases hx
  | h1 l a ih =>
    have hsnoc : run3 base e ⟨h0, init d⟩ (l ++ [a]) = step3 base e (run3 base e ⟨h0, init d⟩ l) a := run3_append ..
    have hub' : (run3 base e ⟨h0, init d⟩ l).sys.ub = false := by
      rw [run3_append] at hub
      exact run3_ub _ hub
    rw [hsnoc] at hx hub
    have old : ∀ y ∈ (run3 base e ⟨h0, init d⟩ l).sys.sess,
        Kept (∃ ev boot, a = .hlr (.sys ev) boot ∧ Continues ((run3 base e ⟨h0, init d⟩ l).cfg base e) y ev) y x →
        restarts (step3 base e (run3 base e ⟨h0, init d⟩ l) a).sys = restarts (run3 base e ⟨h0, init d⟩ l).sys →
        ∃ x0 l1 b l2, Origin base e ⟨h0, init d⟩ (l ++ [a]) x x0 l1 b l2 := by
      intro y hy hc hre
      obtain ⟨x0, l1, b, l2, e1, e2, e3, st, v, tm, rfl, htm⟩ := ih hub' hy
      obtain ⟨st', v', tm', rfl, htm'⟩ := hc
      refine ⟨x0, l1, b, l2 ++ [a], by rw [e1]; simp, e2, ?_, st', v', tm', rfl, ?_⟩
      · rw [hsnoc]; exact hre.trans e3
      · rcases htm' with h | ⟨h, ev, boot, rfl, hg, c, m, env, rfl, hst, hi, hd⟩
        · rcases htm with h' | ⟨h', hG⟩
          · exact .inl (h.trans h')
          · exact .inr ⟨h.trans h', hG.snoc _⟩
        · refine .inr ⟨h, l2, c, m, env, boot, [], rfl, hst, hi, hd, ?_⟩
          rw [show l1 ++ [b] ++ l2 = l by rw [e1]; simp, ← (c70_last e (run3 base e ⟨h0, init d⟩ l).hist).2.2.2.2]
          exact hg
    cases a with
    | cfg node words => exact old x hx (.refl _ x) rfl
    | hlr ev boot =>
      obtain ⟨hre, h⟩ := step2_sess (run3_reach hU l hub') (run3_unique (s := ⟨h0, init d⟩) hU l) ev hub hx
      rcases h with ⟨y, hy, st, v, tm, hxy, hc⟩ | ⟨c, m, env, rfl, hss, hnew⟩
      · refine old y hy ⟨st, v, tm, hxy, hc.imp_right fun h => ⟨h.1, ?_⟩⟩ hre
        obtain ⟨-, ev', rfl, h⟩ := h
        exact ⟨ev', boot, rfl, h⟩
      · exact ⟨x, l, _, [], rfl, ⟨c, m, env, boot, rfl, hss, hnew⟩, by rw [hsnoc]; exact hre, x.state, x.vlr, x.timer, rfl, .inl rfl⟩

/-- C70: every session stems from a BEGIN message, and the process has not been restarted since.  It has a
guard timer if a guard time was configured when that message came; and if it has one, a guard time was
configured then or when a later CONTINUE message of the session came. -/
theorem c70_session (base : Cfg) (e : Config.Env) (h0 : List Input) {d : Db} (hU : Unique d) (l : List Ev3)
    (hub : (run3 base e ⟨h0, init d⟩ l).sys.ub = false) {x : Sess} (hx : x ∈ (run3 base e ⟨h0, init d⟩ l).sys.sess) :
    ∃ l1 c m env boot l2, l = l1 ++ .hlr (.sys (.rx c (some m) env)) boot :: l2
      ∧ m.sessState = .begin ∧ m.imsi = x.imsi ∧ m.sessId = x.id
      ∧ restarts (run3 base e ⟨h0, init d⟩ l).sys = restarts (run3 base e ⟨h0, init d⟩ l1).sys
      ∧ (lastOf guardOf 30 e (run3 base e ⟨h0, init d⟩ l1).hist ≠ 0 → x.timer = true)
      ∧ (x.timer = true → lastOf guardOf 30 e (run3 base e ⟨h0, init d⟩ l1).hist ≠ 0
        ∨ ∃ l3 c' m' env' boot' l4, l2 = l3 ++ .hlr (.sys (.rx c' (some m') env')) boot' :: l4
          ∧ m'.sessState = .continue_ ∧ m'.imsi = x.imsi ∧ m'.sessId = x.id
          ∧ lastOf guardOf 30 e (run3 base e ⟨h0, init d⟩ (l1 ++ .hlr (.sys (.rx c (some m) env)) boot :: l3)).hist ≠ 0) := by
  obtain ⟨x0, l1, a, l2, h1, ⟨c, m, env, boot, rfl, h2, q, r, hq, n2, n3, n4, st, v, rfl⟩, h3, st', v', tm, rfl, htm⟩ := sess_origin hU l hub hx
  have hqg : q.gsup = m := by
    obtain ⟨k', -, h | h⟩ := hq
    · rw [h.2.2]
    · rw [h.2]; exact mkReq_gsup _ _ _
  obtain ⟨k1, k2, -⟩ := ssNew_key ((run3 base e ⟨h0, init d⟩ l1).cfg base e) q r
  have ht : (ssNew ((run3 base e ⟨h0, init d⟩ l1).cfg base e) q r).timer
      = decide (lastOf guardOf 30 e (run3 base e ⟨h0, init d⟩ l1).hist ≠ 0) := by
    rw [← (c70_last e (run3 base e ⟨h0, init d⟩ l1).hist).2.2.2.2]
    exact ssNew_timer ..
  refine ⟨l1, c, m, env, boot, l2, h1, n3, by rw [← hqg]; exact k1.symm, by rw [← hqg]; exact k2.symm, h3, ?_, ?_⟩
  · intro hg
    rcases htm with h | ⟨h, -⟩
    · exact h.trans (ht.trans (decide_eq_true hg))
    · exact h
  · intro hx
    rcases htm with h | ⟨-, l3, c', m', env', boot', l4, e1, e2, e3, e4, e5⟩
    · left
      have := ht.symm.trans (h.symm.trans hx)
      exact of_decide_eq_true this
    · right
      refine ⟨l3, c', m', env', boot', l4, e1, e2, e3, e4, ?_⟩
      rw [List.append_assoc] at e5
      exact e5

/-- The lines of configuration are words, and no EUSE is removed that a route leads to. -/
def Tidy (e : Config.Env) (h : List Input) : Prop := (∀ x ∈ h, x.valid = true) ∧ Ussd.orderly e {} h = true

/-- C70: the session of a USSD request of a subscriber is that of the target configured when the request
came, whatever has been configured since.
Missing: configurations in which an EUSE was removed that a route led to (C64). -/
theorem c70_target_partial (base : Cfg) (e : Config.Env) (h0 : List Input) {d : Db} (hU : Unique d) (l : List Ev3)
    (hub : (run3 base e ⟨h0, init d⟩ l).sys.ub = false) {x : Sess} (hx : x ∈ (run3 base e ⟨h0, init d⟩ l).sys.sess)
    (hms : x.reqMs.isSome = true) :
    ∃ l1 c m env boot l2 r, l = l1 ++ .hlr (.sys (.rx c (some m) env)) boot :: l2
      ∧ m.sessState = .begin ∧ m.imsi = x.imsi ∧ m.sessId = x.id ∧ base.parseSs m.ssInfo = some r
      ∧ restarts (run3 base e ⟨h0, init d⟩ l).sys = restarts (run3 base e ⟨h0, init d⟩ l1).sys
      ∧ (opIsUssd r.opcode = true → Tidy e (run3 base e ⟨h0, init d⟩ l1).hist →
        (∀ n, x.u = .euse n → target (ussd e (run3 base e ⟨h0, init d⟩ l1).hist) r = some (.inl n.name))
        ∧ (∀ i, x.u = .iuse i → target (ussd e (run3 base e ⟨h0, init d⟩ l1).hist) r = some (.inr i))
        ∧ (x.u = .null → target (ussd e (run3 base e ⟨h0, init d⟩ l1).hist) r = none)) := by
  obtain ⟨x0, l1, a, l2, h1, ⟨c, m, env, boot, rfl, h2, q, r, hq, n2, n3, n4, st, v, rfl⟩, h3, st', v', tm, rfl, htm⟩ := sess_origin hU l hub hx
  have hqg : q.gsup = m := by
    obtain ⟨k', -, h | h⟩ := hq
    · rw [h.2.2]
    · rw [h.2]; exact mkReq_gsup _ _ _
  obtain ⟨k1, k2, -⟩ := ssNew_key ((run3 base e ⟨h0, init d⟩ l1).cfg base e) q r
  refine ⟨l1, c, m, env, boot, l2, r, h1, n3, by rw [← hqg]; exact k1.symm, by rw [← hqg]; exact k2.symm, n4, h3, ?_⟩
  intro hop ht
  have hsrc : nameIsEuse q.source = false := by
    cases hc : nameIsEuse q.source with
    | false => rfl
    | true =>
      have hms : (ssNew ((run3 base e ⟨h0, init d⟩ l1).cfg base e) q r).reqMs.isSome = true := hms
      unfold ssNew at hms
      dsimp only at hms
      rw [hc, if_pos hop, if_pos rfl, if_pos rfl] at hms
      split at hms <;> cases hms
  have hrel := (Config.urel_config e (run3 base e ⟨h0, init d⟩ l1).hist {} {} ht.1 (Config.inv_init e) ⟨rfl, rfl, rfl⟩ ht.2).1
  obtain ⟨tg, htg, -⟩ := c35_target_unique ((run3 base e ⟨h0, init d⟩ l1).cfg base e) r
  have hnm := (routed_of base hrel htg).1
  have hnm : named tg = target (ussd e (run3 base e ⟨h0, init d⟩ l1).hist) r := hnm
  rw [ssNew_for htg hsrc hop, ← hnm]
  cases tg with
  | external n =>
    refine ⟨?_, ?_, ?_⟩
    · intro n' hn'; cases hn'; rfl
    · intro i hi; cases hi
    · intro hn; cases hn
  | internal i =>
    refine ⟨?_, ?_, ?_⟩
    · intro n' hn'; cases hn'
    · intro i hi; cases hi; rfl
    · intro hn; cases hn
  | nobody =>
    refine ⟨?_, ?_, ?_⟩
    · intro n' hn'; cases hn'
    · intro i hi; cases hi
    · intro _; rfl

end Verif.Live.Props
