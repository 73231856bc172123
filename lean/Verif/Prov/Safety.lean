import Verif.Sys.Safety
import Verif.Prov.Running
/-!
# No undefined behaviour in a history of events and commands
-/
namespace Verif.Prov.Running
open Verif Verif.Db Verif.Auc Verif.Prov Verif.Sys Verif.Sys.Props

/-! ## Commands -/

theorem safe_withSub (t : Vty.IdType) (id : Bytes) {k : Bytes → HlrSubscr → DbM Vty.Res} (h : ∀ p s, Never .ub (k p s)) :
    Never .ub (Vty.withSub t id k) := by
  rw [Vty.withSub_eq]
  refine .bind fun a => ?_
  obtain ⟨rc, o⟩ := a
  cases o with
  | none => exact .pure (by simp [Vty.warn])
  | some r => exact h _ _

theorem safe_warn (t : Bytes) : Never Vty.Res.ub (pure (Vty.warn t)) := .pure (by simp [Vty.warn])

theorem safe_success (t : Bytes) : Never Vty.Res.ub (pure (Vty.success t)) := .pure (by simp [Vty.success])

theorem safe_setKeys (t : Vty.IdType) (id : Bytes) (a : AudStr) (e : Bool) (w : Bytes) : Never .ub (Vty.setKeys t id a e w) :=
  safe_withSub t id fun _ _ => .bind fun _ => .ite (fun _ => safe_warn _) (fun _ => safe_success _)

theorem safe_put (t : Vty.IdType) (id : Bytes) (i : Option Bytes) : Never .ub (Vty.imei.put t id i) :=
  safe_withSub t id fun _ _ => .bind fun _ => .ite (fun _ => safe_warn _) (fun _ => safe_success _)

theorem safe_vty (ck : Vty.Clock) (c : Vty.Cmd) (h1 : ∀ i, c ≠ .create i) (h2 : ∀ t id v, c ≠ .nam t id v) :
    Never .ub (Vty.vty ck c) := by
  cases c with
  | show_ t id =>
    show Never .ub (Vty.show_ ck t id)
    unfold Vty.show_
    exact safe_withSub t id fun _ _ => .bind fun _ => safe_success _
  | create i => exact absurd rfl (h1 i)
  | delete t id =>
    show Never .ub (Vty.delete t id)
    unfold Vty.delete
    exact safe_withSub t id fun _ s => .bind fun _ => .ite (fun _ => safe_warn _) (fun _ => safe_success _)
  | msisdn t id v =>
    show Never .ub (Vty.msisdn t id v)
    unfold Vty.msisdn
    refine .ite (fun _ => safe_warn _) fun _ => .ite (fun _ => safe_warn _) fun _ => safe_withSub t id fun _ s => ?_
    refine .bind fun _ => .ite (fun _ => safe_warn _) fun _ => .ite (fun _ => .pure (by simp)) fun _ => .bind fun a => ?_
    obtain ⟨rc, o⟩ := a
    cases o with
    | none => exact .pure (by simp [Vty.success])
    | some r => exact .pure (by simp)
  | noAud2 t id => exact safe_setKeys _ _ _ _ _
  | aud2 t id alg ki =>
    show Never .ub (Vty.aud2 t id alg ki)
    unfold Vty.aud2
    split
    · exact safe_warn _
    · split
      · exact safe_warn _
      · exact safe_setKeys _ _ _ _ _
  | noAud3 t id => exact safe_setKeys _ _ _ _ _
  | aud3 t id alg k c o bl =>
    show Never .ub (Vty.aud3 t id alg k c o bl)
    unfold Vty.aud3
    dsimp only
    split
    · exact safe_warn _
    · split
      · exact safe_warn _
      · split
        · exact safe_warn _
        · exact safe_setKeys _ _ _ _ _
  | xor3 t id k bl =>
    show Never .ub (Vty.xor3 t id k bl)
    unfold Vty.xor3
    split
    · exact safe_warn _
    · split
      · exact safe_warn _
      · exact safe_setKeys _ _ _ _ _
  | imei t id v =>
    exact .ite (fun _ => safe_put _ _ _) fun _ => .ite (fun _ => safe_put _ _ _) fun _ =>
      .ite (fun _ => safe_put _ _ _) fun _ => safe_warn _
  | nam t id v => exact absurd rfl (h2 t id v)

theorem create_script (i : Bytes) (cs ps : Bool) (hv : imsiValid i = true) (w : World) :
    (subscrCreate i cs ps w).2.script = w.script.tail := by
  obtain ⟨d, sc⟩ := w
  have key : ∀ (a : WRes) (w : World), ((match a with
      | .done _ => pure 0
      | .unique => pure (-EEXIST)
      | .error => pure (-EIO) : DbM Int) w).2 = w := by
    intro a w
    cases a <;> rfl
  unfold subscrCreate
  rw [hv, if_neg (by simp), bind_run]
  rcases sc with _ | ⟨_ | _ | _, sc⟩
  · exact congrArg World.script (key (sqlCreate i cs ps d).1 { db := (sqlCreate i cs ps d).2, script := [] })
  · exact congrArg World.script (key (sqlCreate i cs ps d).1 { db := (sqlCreate i cs ps d).2, script := sc })
  · exact congrArg World.script (key .error { db := d, script := sc })
  · rfl

/-- A SELECT that does not fail finds what there is. -/
theorem sel_works {α : Type} (c : SubRow → Bool) (k : Int × Option SubRow → DbM α) (d : Db) (t : Script) (h : t[0]? ≠ some .ioerr) :
    (exec (dbSel c >>= k) d t = (none, d)) ∨ d.subs.find? c = none
    ∨ ∃ r, exec (dbSel c >>= k) d t = exec (k (0, some r)) d t.tail := by
  have key : ∀ t', dbSel c { db := d, script := t' } = dbSel c { db := d, script := .ok :: t'.tail } → d.subs.find? c = none
      ∨ ∃ r, exec (dbSel c >>= k) d t' = exec (k (0, some r)) d t'.tail := by
    intro t' ht
    cases hf : d.subs.find? c with
    | none => exact .inl rfl
    | some r =>
      refine .inr ⟨r, ?_⟩
      have e : dbSel c { db := d, script := .ok :: t'.tail } = (some (0, some r), { db := d, script := t'.tail }) := by
        unfold dbSel
        rw [bind_run]
        show ((match (sqlSel c d).1 with
          | .row r => pure (0, some r)
          | .done => pure (-ENOENT, none)
          | .error => pure (-EIO, none) : DbM (Int × Option SubRow)) { db := (sqlSel c d).2, script := t'.tail }) = _
        unfold sqlSel
        rw [hf]
        rfl
      unfold exec
      rw [bind_run, ht, e]
  rcases t with _ | ⟨_ | _ | _, t⟩
  · exact .inr (key [] rfl)
  · exact .inr (key (.ok :: t) rfl)
  · exact absurd rfl h
  · exact .inl rfl

theorem safe_create (ck : Vty.Clock) (i : Bytes) (d : Db) (sc : Script) (h : sc[1]? ≠ some .ioerr) :
    (exec (Vty.create ck i) d sc).1 ≠ some .ub := by
  unfold Vty.create
  split
  · exact fun e => safe_warn _ { db := d, script := sc } e
  · rename_i hv
    have hv : imsiValid i = true := by simpa using hv
    rcases Vty.bind_exec (subscrCreate i true true) (Vty.create.report ck i) d sc with ⟨-, e⟩ | ⟨rc, t, h1, e, ht⟩
    · rw [e]; simp
    · rw [e]
      unfold Vty.create.report
      split
      · exact fun e => safe_warn _ { db := (exec (subscrCreate i true true) d sc).2, script := t } e
      · rename_i hrc
        have hrc : rc = 0 := by simpa using hrc
        subst hrc
        have hc := Db.Props.c02_create d sc i true true
        dsimp only at hc
        obtain ⟨id, -, hd⟩ := hc.2.1 h1
        have ht : t = sc.tail := ht.trans (create_script i true true hv _)
        have h0 : t[0]? ≠ some .ioerr := by
          rw [ht]
          cases sc with
          | nil => simp
          | cons a sc => exact h
        unfold getByImsi
        rcases sel_works (fun r : SubRow => r.imsi == i) (Vty.create.created ck i) (exec (subscrCreate i true true) d sc).2 t h0 with
          e | hf | ⟨r, e⟩
        · rw [e]; simp
        · rw [hd] at hf
          exact absurd (by simp) (List.find?_eq_none.mp hf _ (List.mem_append_right _ (List.mem_singleton.2 rfl)))
        · rw [e]
          exact (Never.bind fun _ => safe_success _ : Never .ub (Vty.create.created ck i (0, some r))) _

/-- What the next event or command must not be, in the configuration there is. -/
def Fine (cfg : Cfg) (s : Sys) : Ev2 → Prop
  | .sys ev => EuseOk cfg ∧ SmscOk cfg ∧ 37 ∉ cfg.myName ∧ Sane cfg s ev
  | .vty _ (.create _) sc _ _ => sc[1]? ≠ some .ioerr
  | _ => True

/-- No event of a history is one of those. -/
def Careful (s : Sys) : List (Cfg × Ev2) → Prop
  | [] => True
  | x :: l => Fine x.1 s x.2 ∧ Careful (step2 x.1 s x.2) l

/-- What holds all the time. -/
structure AllOk (s : Sys) : Prop where
  reach : Reach s
  good : Auc.Good s.db
  names : NamesOk s
  plain : PlainDb s.db
  ub : s.ub = false

theorem prov_safe {s : Sys} (hs : AllOk s) {evs : List (Cfg × Sys.Ev)} (h : evs.all isProv = true) : AllOk (Sys.run s evs) := by
  induction evs generalizing s with
  | nil => exact hs
  | cons x evs ih =>
    obtain ⟨cfg, ev⟩ := x
    rw [List.all_cons, Bool.and_eq_true] at h
    refine ih ?_ h.2
    have hsane : Sane cfg s ev ∧ ∀ c m e, ev ≠ .rx c m e := by
      cases ev with
      | db op sc => cases op <;> first
        | exact ⟨trivial, fun _ _ _ e => by cases e⟩
        | exact absurd h.1 (by simp [isProv])
      | _ => first
        | exact ⟨trivial, fun _ _ _ e => by cases e⟩
        | exact absurd h.1 (by simp [isProv])
    refine ⟨hs.reach.step cfg ev, (step_linked cfg s ev).keeps Auc.good_op hs.good, nfr_step cfg s ev hsane.1 hs.names,
      plain_step cfg hs.good.1 hs.plain hs.names ev hsane.1,
      step_safe0 cfg ev (fun c m e he => absurd he (hsane.2 c m e)) hs.ub⟩

theorem act_ub (cfg : Cfg) (l : List Vty.Act) (s : Sys) : (l.foldl (act cfg) s).ub = s.ub := by
  induction l generalizing s with
  | nil => rfl
  | cons a l ih =>
    rw [List.foldl_cons, ih]
    cases a with
    | notify sub => show (updateNotify cfg sub s).ub = _; rw [Sys.Props.updateNotify_eq]
    | delData sub =>
      show (sendDelData cfg (sendDelData cfg s sub.imsi sub.vlrNumber) sub.imsi sub.sgsnNumber).ub = _
      obtain ⟨l1, e1⟩ := delData_log cfg s sub.imsi sub.vlrNumber
      obtain ⟨l2, e2⟩ := delData_log cfg { s with log := l1 } sub.imsi sub.sgsnNumber
      rw [e1, e2]

theorem step2_safe {cfg : Cfg} {s : Sys} (hs : AllOk s) (ev : Ev2) (h : Fine cfg s ev) : AllOk (step2 cfg s ev) := by
  cases ev with
  | sys ev =>
    obtain ⟨h1, h2, -, h3⟩ := h
    exact ⟨hs.reach.step cfg ev, (step_linked cfg s ev).keeps Auc.good_op hs.good, nfr_step cfg s ev h3 hs.names,
      plain_step cfg hs.good.1 hs.plain hs.names ev h3,
      step_safe h1 h2 hs.good (fun x hx => reach_iuOk hs.reach x hx) hs.names ev h3 hs.ub⟩
  | ctrl c sc =>
    obtain ⟨evs, hp, he⟩ := ctrlCmd_events cfg c sc s
    show AllOk (ctrlCmd c sc s)
    rw [← he]
    exact prov_safe hs hp
  | vty ck c sc sc1 sc2 =>
    show AllOk (vtyCmd cfg ck c sc sc1 sc2 s)
    have hub : ¬ s.ub = true := by rw [hs.ub]; simp
    by_cases hn : ∃ t id v, c = .nam t id v
    · obtain ⟨t, id, v, rfl⟩ := hn
      obtain ⟨evs, hp, he⟩ := namCmd_events cfg hs.ub hs.good.1 t id v sc sc1 sc2
      unfold vtyCmd
      rw [if_neg hub]
      dsimp only
      rw [← he]
      exact prov_safe hs hp
    rcases vtyCmd_events cfg ck c sc sc1 sc2 s hs.good.1 with hb | ⟨evs, hp, he⟩
    · exfalso
      have hv : vtyCmd cfg ck c sc sc1 sc2 s = withDb s sc (Vty.vty ck c) fun r s => match r with
          | .ub => { s with ub := true }
          | .done _ _ acts => acts.foldl (act cfg) s := by
        unfold vtyCmd
        rw [if_neg hub]
        cases c <;> first
          | rfl
          | exact absurd ⟨_, _, _, rfl⟩ hn
      have hnu : (exec (Vty.vty ck c) s.db sc).1 ≠ some .ub := by
        by_cases hc : ∃ i, c = .create i
        · obtain ⟨i, rfl⟩ := hc
          exact safe_create ck i s.db sc h
        · exact safe_vty ck c (fun i e => hc ⟨i, e⟩) (fun t id v e => hn ⟨t, id, v, e⟩) _
      rw [hv] at hb
      unfold withDb at hb
      rcases hx : exec (Vty.vty ck c) s.db sc with ⟨o, d⟩
      rw [hx] at hb hnu
      cases o with
      | none => cases hb
      | some r =>
        cases r with
        | ub => exact hnu rfl
        | done ok x acts =>
          dsimp only at hb
          rw [act_ub] at hb
          exact hub hb
    · rw [← he]
      exact prov_safe hs hp

theorem run2_safe {s : Sys} (hs : AllOk s) (l : List (Cfg × Ev2)) (h : Careful s l) : AllOk (run2 s l) := by
  induction l generalizing s with
  | nil => exact hs
  | cons x l ih => exact ih (step2_safe hs x.2 h.1) h.2

theorem init_ok {d : Db} (h : Auc.Good d) (hp : PlainDb d) : AllOk (init d) :=
  ⟨⟨d, [], rfl⟩, h, fun _ hk => (by cases hk), hp, rfl⟩

end Verif.Prov.Running
