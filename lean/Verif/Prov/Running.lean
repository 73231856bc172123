import Verif.Prov.VtyProps2
import Verif.Sys.Props8
/-! # The VTY and CTRL commands in the running HLR

The commands of `Verif.Prov.Vty` and `Verif.Prov.Ctrl` run in the same process (and thread) as
everything of `Verif.Sys`; here they become events of it. -/
namespace Verif.Prov.Running
open Verif Verif.Db Verif.Auc Verif.Prov Verif.Sys

/-- Sending what a command has to send (hlr_vty_subscr.c 443, 451; hlr.c 281-284). -/
def act (cfg : Cfg) (s : Sys) : Vty.Act → Sys
  | .notify sub => updateNotify cfg sub s
  | .delData sub => sendDelData cfg (sendDelData cfg s sub.imsi sub.vlrNumber) sub.imsi sub.sgsnNumber

/-- subscriber_nam (hlr_vty_subscr.c 787-811), with its messages going out as they are made:
the three scripts are for the three database calls. -/
def namCmd (cfg : Cfg) (t : Vty.IdType) (id v : Bytes) (sc sc1 sc2 : Script) (s : Sys) : Sys :=
  withDb s sc (Vty.lookup t id) fun r s => match r with
    | (_, none) => s
    | (_, some row) => second (HlrSubscr.ofRow row) (first (HlrSubscr.ofRow row) s)
where
  /-- hlr_vty_subscr.c 803-805 -/
  first (sub : HlrSubscr) (s : Sys) : Option Int × Sys :=
    if Vty.contains (b "cs") v ≠ sub.namCs then Sys.subscrNam cfg { sc := sc1 } sub (Vty.contains (b "cs") v) false s
    else (some 0, s)
  /-- hlr_vty_subscr.c 806-808 -/
  second (sub : HlrSubscr) : Option Int × Sys → Sys
    | (none, s) => s
    | (some _, s) =>
      if Vty.contains (b "ps") v ≠ sub.namPs then (Sys.subscrNam cfg { sc := sc2 } sub (Vty.contains (b "ps") v) true s).2
      else s

/-- A VTY command in the running HLR (`sc1`, `sc2`: for `network-access-mode` only). -/
def vtyCmd (cfg : Cfg) (ck : Vty.Clock) (c : Vty.Cmd) (sc sc1 sc2 : Script) (s : Sys) : Sys :=
  if s.ub then s else match c with
  | .nam t id v => namCmd cfg t id v sc sc1 sc2 s
  | c => withDb s sc (Vty.vty ck c) fun r s => match r with
    | .ub => { s with ub := true }
    | .done _ _ acts => acts.foldl (act cfg) s

/-- A CTRL command in the running HLR: nothing is sent to GSUP clients (ctrl.c has no such
call). -/
def ctrlCmd (c : Cmd) (sc : Script) (s : Sys) : Sys :=
  if s.ub then s else withDb s sc (ctrl c) fun _ s => s

/-- What can happen to the HLR, commands included. -/
inductive Ev2 where
  | sys (ev : Sys.Ev)
  | vty (ck : Vty.Clock) (c : Vty.Cmd) (sc sc1 sc2 : Script)
  | ctrl (c : Cmd) (sc : Script)

/-- One step. -/
def step2 (cfg : Cfg) (s : Sys) : Ev2 → Sys
  | .sys ev => step cfg s ev
  | .vty ck c sc sc1 sc2 => vtyCmd cfg ck c sc sc1 sc2 s
  | .ctrl c sc => ctrlCmd c sc s

/-- A history; every event comes with the configuration at the time. -/
def run2 (s : Sys) : List (Cfg × Ev2) → Sys
  | [] => s
  | x :: l => run2 (step2 x.1 s x.2) l

/-- A history in which the configuration stays the same. -/
def run2With (cfg : Cfg) (s : Sys) (l : List Ev2) : Sys := run2 s (l.map fun ev => (cfg, ev))

/-! ## Every command is a sequence of events of `Verif.Sys` -/

/-- The events of `Verif.Sys` that stand for parts of a command. -/
def isProv : Cfg × Sys.Ev → Bool
  | (_, .db (.lu ..) _) => false
  | (_, .db ..) => true
  | (_, .notify ..) => true
  | (_, .nam ..) => true
  | (_, .kill) => true
  | _ => false

/-- The result of a database program can be reached by events. -/
def Evs {α : Type} (m : DbM α) : Prop :=
  ∀ (cfg : Cfg) (s : Sys) (sc : Script), s.ub = false → ∃ evs, evs.all isProv = true ∧ run s evs =
    match exec m s.db sc with
    | (some _, d) => { s with db := d }
    | (none, d) => Sys.crash { s with db := d }

theorem Evs.pure {α : Type} (a : α) : Evs (pure a : DbM α) := fun _ _ _ _ => ⟨[], rfl, rfl⟩

theorem Evs.op (op : Op) (h : ∀ cfg sc, isProv (cfg, .db op sc) = true := by intros; rfl) : Evs op.run := by
  intro cfg s sc hu
  refine ⟨[(cfg, .db op sc)], by simp [h cfg sc], ?_⟩
  show step cfg s (.db op sc) = _
  unfold step
  rw [if_neg (by rw [hu]; simp)]
  show withDb s sc op.run (fun _ s => s) = _
  unfold withDb
  rcases exec op.run s.db sc with ⟨o, d⟩
  cases o <;> rfl

theorem Evs.read {α : Type} {m : DbM α} (h : ∀ w, (m w).2.db = w.db) : Evs m := by
  intro cfg s sc hu
  have e : (exec m s.db sc).2 = s.db := h _
  rcases hx : exec m s.db sc with ⟨o, d⟩
  rw [hx] at e
  dsimp only at e
  subst e
  cases o with
  | some a => exact ⟨[], rfl, rfl⟩
  | none =>
    refine ⟨[(cfg, .kill)], rfl, ?_⟩
    show step cfg s .kill = _
    unfold step
    rw [if_neg (by rw [hu]; simp)]

theorem Evs.bind {α β : Type} {m : DbM α} {g : α → DbM β} (h : Evs m) (hg : ∀ a, Evs (g a)) : Evs (m >>= g) := by
  intro cfg s sc hu
  obtain ⟨e1, p1, h1⟩ := h cfg s sc hu
  rcases Vty.bind_exec m g s.db sc with ⟨a1, a2⟩ | ⟨a, t, a1, a2, -⟩
  · rw [a2]
    rcases hx : exec m s.db sc with ⟨o, d⟩
    rw [hx] at a1 h1
    dsimp only at a1
    subst a1
    exact ⟨e1, p1, h1⟩
  · rw [a2]
    rcases hx : exec m s.db sc with ⟨o, d⟩
    rw [hx] at a1 h1
    dsimp only at a1
    subst a1
    dsimp only at h1 ⊢
    obtain ⟨e2, p2, h2⟩ := hg a cfg { s with db := d } t hu
    exact ⟨e1 ++ e2, by rw [List.all_append, p1, p2]; rfl, by rw [run_append, h1, h2]⟩

theorem Evs.ite {α : Type} {p : Prop} [Decidable p] {m m' : DbM α} (h : Evs m) (h' : Evs m') : Evs (if p then m else m') := by
  split <;> assumption

theorem evs_sel (c : SubRow → Bool) : Evs (dbSel c) := by
  refine .read fun w => ?_
  obtain ⟨o, e, -⟩ := dbSel_run c w
  rw [e]

theorem evs_auth (i : Bytes) : Evs (getAuthData i) := by
  refine .read fun w => ?_
  obtain ⟨o, t, e, -⟩ := getAuthData_run i w
  rw [e]

/-! ### VTY -/

theorem evs_withSub (t : Vty.IdType) (id : Bytes) {k : Bytes → HlrSubscr → DbM Vty.Res} (h : ∀ p s, Evs (k p s)) :
    Evs (Vty.withSub t id k) := by
  rw [Vty.withSub_eq]
  refine .bind (evs_sel _) fun a => ?_
  obtain ⟨rc, o⟩ := a
  cases o with
  | none => exact .pure _
  | some r => exact h _ _

theorem evs_dump (ck : Vty.Clock) (s : HlrSubscr) : Evs (Vty.dump ck s) := by
  refine .ite (.pure _) (.bind (evs_auth _) fun a => ?_)
  cases a with
  | keys _ g u => exact .pure _
  | err rc => exact .ite (.pure _) (.pure _)

theorem evs_setKeys (t : Vty.IdType) (id : Bytes) (a : AudStr) (e : Bool) (w : Bytes) : Evs (Vty.setKeys t id a e w) :=
  evs_withSub t id fun _ s => .bind (Evs.op (.aud s.id a)) fun _ => .ite (.pure _) (.pure _)

theorem evs_put (t : Vty.IdType) (id : Bytes) (i : Option Bytes) : Evs (Vty.imei.put t id i) :=
  evs_withSub t id fun _ s => .bind (Evs.op (.imei s.imsi i)) fun _ => .ite (.pure _) (.pure _)

theorem evs_hlrNam (s : HlrSubscr) (v ps : Bool) : Evs (Vty.hlrNam s v ps) :=
  .ite (.pure _) (.bind (Evs.op (.nam s.imsi v ps)) fun _ => .pure _)

theorem evs_vty (ck : Vty.Clock) (c : Vty.Cmd) : Evs (Vty.vty ck c) := by
  cases c with
  | show_ t id =>
    show Evs (Vty.show_ ck t id)
    unfold Vty.show_
    exact evs_withSub t id fun _ _ => .bind (evs_dump _ _) fun _ => .pure _
  | create i =>
    have hd : ∀ a, Evs (Vty.create.created ck i a) := by
      intro a
      obtain ⟨rc, o⟩ := a
      cases o with
      | none => exact .pure _
      | some r => exact .bind (evs_dump _ _) fun _ => .pure _
    have hr : ∀ rc, Evs (Vty.create.report ck i rc) := fun rc => .ite (.pure _) (.bind (evs_sel _) hd)
    exact .ite (.pure _) (.bind (Evs.op (.create i true true)) hr)
  | delete t id =>
    show Evs (Vty.delete t id)
    unfold Vty.delete
    exact evs_withSub t id fun _ s => .bind (Evs.op (.delete s.id)) fun _ => .ite (.pure _) (.pure _)
  | msisdn t id v =>
    refine .ite (.pure _) (.ite (.pure _) (evs_withSub t id fun _ s => .bind (Evs.op (.msisdn s.imsi _)) fun _ =>
      .ite (.pure _) (.ite (.pure _) (.bind (evs_sel _) fun a => ?_))))
    obtain ⟨rc, o⟩ := a
    cases o <;> exact .pure _
  | noAud2 t id => exact evs_setKeys _ _ _ _ _
  | aud2 t id alg ki =>
    show Evs (Vty.aud2 t id alg ki)
    unfold Vty.aud2
    split
    · exact .pure _
    · split
      · exact .pure _
      · exact evs_setKeys _ _ _ _ _
  | noAud3 t id => exact evs_setKeys _ _ _ _ _
  | aud3 t id alg k c o bl =>
    show Evs (Vty.aud3 t id alg k c o bl)
    unfold Vty.aud3
    dsimp only
    split
    · exact .pure _
    · split
      · exact .pure _
      · split
        · exact .pure _
        · exact evs_setKeys _ _ _ _ _
  | xor3 t id k bl =>
    show Evs (Vty.xor3 t id k bl)
    unfold Vty.xor3
    split
    · exact .pure _
    · split
      · exact .pure _
      · exact evs_setKeys _ _ _ _ _
  | imei t id v => exact .ite (evs_put _ _ _) (.ite (evs_put _ _ _) (.ite (evs_put _ _ _) (.pure _)))
  | nam t id v =>
    show Evs (Vty.nam t id v)
    unfold Vty.nam
    refine evs_withSub t id fun _ s => .bind ?_ fun _ => .bind ?_ fun _ => .pure _
    · exact .ite (evs_hlrNam _ _ _) (.pure _)
    · exact .ite (evs_hlrNam _ _ _) (.pure _)

/-! ### CTRL -/

theorem evs_selectSub (sel : Bytes) : Evs (selectSub sel) := by
  rw [selectSub_eq]
  split
  · exact .pure _
  · exact evs_sel _

theorem evs_cwithSub {k : HlrSubscr → DbM Reply} (sel : Bytes) (h : ∀ s, Evs (k s)) : Evs (withSub sel k) := by
  refine .bind (evs_selectSub sel) fun a => ?_
  obtain ⟨rc, o⟩ := a
  cases o with
  | none => exact .pure _
  | some r => exact h _

theorem evs_withKeys (i : Bytes) (e : Reply) (k : Option Aud2 → Option Aud3 → Reply) : Evs (withKeys i e k) := by
  refine .bind (evs_auth _) fun a => ?_
  cases a with
  | keys _ g u => exact .pure _
  | err rc => exact .ite (.pure _) (.pure _)

theorem evs_ctrl (c : Cmd) : Evs (ctrl c) := by
  cases c with
  | create i =>
    refine .ite (.pure _) (.bind (Evs.op (.create i true true)) fun rc => .ite (.pure _) (.bind (evs_sel _) fun a => ?_))
    obtain ⟨rc, o⟩ := a
    cases o <;> exact .pure _
  | delete i =>
    refine .ite (.pure _) (.bind (evs_sel _) fun a => ?_)
    obtain ⟨rc, o⟩ := a
    cases o with
    | none => exact .pure _
    | some r => exact .bind (Evs.op (.delete r.id)) fun _ => .pure _
  | get sel x =>
    show Evs (get sel x)
    cases x <;> unfold get
    case infoAud => exact .ite (evs_withKeys _ _ _) (evs_cwithSub sel fun _ => evs_withKeys _ _ _)
    all_goals first
      | exact evs_cwithSub sel fun _ => .pure _
      | exact evs_cwithSub sel fun _ => evs_withKeys _ _ _
  | set sel x v =>
    show Evs (set sel x v)
    unfold set
    cases x <;> dsimp only
    case imsi => exact .pure _
    case info => exact .pure _
    case infoAud => exact .pure _
    case infoAll => exact .pure _
    case cs => exact .ite (.ite (.bind (Evs.op (.nam _ _ false)) fun _ => .pure _) (evs_cwithSub _ fun s => .bind (Evs.op (.nam s.imsi _ false)) fun _ => .pure _)) (.pure _)
    case ps => exact .ite (.ite (.bind (Evs.op (.nam _ _ true)) fun _ => .pure _) (evs_cwithSub _ fun s => .bind (Evs.op (.nam s.imsi _ true)) fun _ => .pure _)) (.pure _)
    case msisdn => exact .ite (evs_cwithSub _ fun s => .bind (Evs.op (.msisdn s.imsi _)) fun _ => .pure _) (.pure _)
    case aud2g =>
      refine .ite (evs_cwithSub _ fun s => ?_) (.pure _)
      split
      · exact .pure _
      · exact .bind (Evs.op (.aud s.id _)) fun _ => .pure _
    case aud3g =>
      refine .ite (evs_cwithSub _ fun s => ?_) (.pure _)
      split
      · exact .pure _
      · exact .bind (Evs.op (.aud s.id _)) fun _ => .pure _

/-! ### Messages -/

/-- A program of which no messages are to be sent. -/
def Quiet (m : DbM Vty.Res) : Prop := ∀ w ok t acts, (m w).1 = some (.done ok t acts) → acts = []

theorem Quiet.warn (t : Bytes) : Quiet (pure (Vty.warn t)) := by
  intro w ok x acts h
  cases h
  rfl

theorem Quiet.success (t : Bytes) : Quiet (pure (Vty.success t)) := by
  intro w ok x acts h
  cases h
  rfl

theorem Quiet.bind {α : Type} {m : DbM α} {g : α → DbM Vty.Res} (h : ∀ a, Quiet (g a)) : Quiet (m >>= g) := by
  intro w ok t acts e
  rw [bind_run] at e
  rcases hx : m w with ⟨o, w'⟩
  rw [hx] at e
  cases o with
  | none => cases e
  | some a => exact h a w' ok t acts e

theorem Quiet.ite {p : Prop} [Decidable p] {m m' : DbM Vty.Res} (h : Quiet m) (h' : Quiet m') : Quiet (if p then m else m') := by
  split <;> assumption

theorem quiet_withSub (t : Vty.IdType) (id : Bytes) {k : Bytes → HlrSubscr → DbM Vty.Res} (h : ∀ p s, Quiet (k p s)) :
    Quiet (Vty.withSub t id k) := by
  rw [Vty.withSub_eq]
  refine .bind fun a => ?_
  obtain ⟨rc, o⟩ := a
  cases o with
  | none => exact .warn _
  | some r => exact h _ _

theorem quiet_setKeys (t : Vty.IdType) (id : Bytes) (a : AudStr) (e : Bool) (w : Bytes) : Quiet (Vty.setKeys t id a e w) :=
  quiet_withSub t id fun _ _ => .bind fun _ => .ite (.warn _) (.success _)

theorem quiet_put (t : Vty.IdType) (id : Bytes) (i : Option Bytes) : Quiet (Vty.imei.put t id i) :=
  quiet_withSub t id fun _ _ => .bind fun _ => .ite (.warn _) (.success _)

theorem quiet_vty (ck : Vty.Clock) (c : Vty.Cmd) (h1 : ∀ t id v, c ≠ .msisdn t id v) (h2 : ∀ t id v, c ≠ .nam t id v) :
    Quiet (Vty.vty ck c) := by
  cases c with
  | show_ t id =>
    show Quiet (Vty.show_ ck t id)
    unfold Vty.show_
    exact quiet_withSub t id fun _ _ => .bind fun _ => .success _
  | create i =>
    have hd : ∀ a, Quiet (Vty.create.created ck i a) := by
      intro a
      obtain ⟨rc, o⟩ := a
      cases o with
      | none => intro w ok t acts h; cases h
      | some r => exact .bind fun _ => .success _
    have hr : ∀ rc, Quiet (Vty.create.report ck i rc) := fun rc => .ite (.warn _) (.bind hd)
    exact .ite (.warn _) (.bind hr)
  | delete t id =>
    show Quiet (Vty.delete t id)
    unfold Vty.delete
    exact quiet_withSub t id fun _ s => .bind fun _ => .ite (.warn _) (.success _)
  | msisdn t id v => exact absurd rfl (h1 t id v)
  | noAud2 t id => exact quiet_setKeys _ _ _ _ _
  | aud2 t id alg ki =>
    show Quiet (Vty.aud2 t id alg ki)
    unfold Vty.aud2
    split
    · exact .warn _
    · split
      · exact .warn _
      · exact quiet_setKeys _ _ _ _ _
  | noAud3 t id => exact quiet_setKeys _ _ _ _ _
  | aud3 t id alg k c o bl =>
    show Quiet (Vty.aud3 t id alg k c o bl)
    unfold Vty.aud3
    dsimp only
    split
    · exact .warn _
    · split
      · exact .warn _
      · split
        · exact .warn _
        · exact quiet_setKeys _ _ _ _ _
  | xor3 t id k bl =>
    show Quiet (Vty.xor3 t id k bl)
    unfold Vty.xor3
    split
    · exact .warn _
    · split
      · exact .warn _
      · exact quiet_setKeys _ _ _ _ _
  | imei t id v => exact .ite (quiet_put _ _ _) (.ite (quiet_put _ _ _) (.ite (quiet_put _ _ _) (.warn _)))
  | nam t id v => exact absurd rfl (h2 t id v)

/-- The messages of an MSISDN command are about a subscriber as stored before or after. -/
theorem msisdn_acts (t : Vty.IdType) (id v : Bytes) (d : Db) (sc : Script) {ok : Bool} {x : Bytes} {acts : List Vty.Act}
    (h : (exec (Vty.msisdn t id v) d sc).1 = some (.done ok x acts)) :
    acts = [] ∨ ∃ r, acts = [.notify (HlrSubscr.ofRow r)] ∧ (r ∈ d.subs ∨ r ∈ (exec (Vty.msisdn t id v) d sc).2.subs) := by
  have hw : ∀ y (d : Db) (sc : Script), (exec (pure (Vty.warn y)) d sc).1 = some (.done ok x acts) → acts = [] :=
    fun y d sc e => Quiet.warn y { db := d, script := sc } _ _ _ e
  unfold Vty.msisdn at h ⊢
  by_cases h1 : v ≠ b "none" ∧ v.length > 15
  · rw [if_pos h1] at h; exact .inl (hw _ _ _ h)
  rw [if_neg h1] at h ⊢
  by_cases h2 : v ≠ b "none" ∧ msisdnValid v = false
  · rw [if_pos h2] at h; exact .inl (hw _ _ _ h)
  rw [if_neg h2] at h ⊢
  rw [Vty.withSub_eq] at h ⊢
  rcases exec_sel (Vty.cond t id) _ d sc with e | e | ⟨-, e⟩ | ⟨r, hf, e⟩
  · rw [e] at h; cases h
  · rw [e] at h; exact .inl (hw _ _ _ h)
  · rw [e] at h; exact .inl (hw _ _ _ h)
  · have hr := List.mem_of_find?_eq_some hf
    rw [e] at h ⊢
    dsimp only at h ⊢
    rcases Vty.bind_exec (updateMsisdn (HlrSubscr.ofRow r).imsi (if v = b "none" then none else some v)) _ d sc.tail with
      ⟨-, e⟩ | ⟨rc, t', -, e, -⟩
    · rw [e] at h; cases h
    · rw [e] at h ⊢
      by_cases h3 : rc ≠ 0
      · rw [if_pos h3] at h; exact .inl (hw _ _ _ h)
      · rw [if_neg h3] at h ⊢
        by_cases h4 : v = b "none"
        · rw [if_pos h4] at h
          cases h
          exact .inr ⟨r, rfl, .inl hr⟩
        · rw [if_neg h4] at h ⊢
          unfold getByMsisdn at h ⊢
          rcases exec_sel (fun r : SubRow => r.msisdn == some v) _ (exec (updateMsisdn (HlrSubscr.ofRow r).imsi
              (if v = b "none" then none else some v)) d sc.tail).2 t' with e | e | ⟨-, e⟩ | ⟨r', hf', e⟩
          · rw [e] at h; cases h
          · rw [e] at h; cases h; exact .inl rfl
          · rw [e] at h; cases h; exact .inl rfl
          · rw [e] at h ⊢
            cases h
            exact .inr ⟨r', rfl, .inr (List.mem_of_find?_eq_some hf')⟩

theorem find_imsi {d : Db} (hU : Unique d) {r : SubRow} (hr : r ∈ d.subs) :
    d.subs.find? (fun q : SubRow => q.imsi == r.imsi) = some r := by
  cases hf : d.subs.find? (fun q : SubRow => q.imsi == r.imsi) with
  | none => exact absurd (beq_self_eq_true r.imsi) (List.find?_eq_none.mp hf _ hr)
  | some q =>
    have e1 := List.find?_some hf
    have e1 : q.imsi = r.imsi := by simpa using e1
    rw [eq_of_nodup_map hU.imsis (List.mem_of_find?_eq_some hf) hr e1]

theorem step_notify (cfg : Cfg) {s : Sys} (hu : s.ub = false) (hU : Unique s.db) {r : SubRow} (hr : r ∈ s.db.subs) :
    step cfg s (.notify r.imsi []) = updateNotify cfg (HlrSubscr.ofRow r) s := by
  unfold step
  rw [if_neg (by rw [hu]; simp)]
  show withDb s [] (getByImsi r.imsi) _ = _
  unfold withDb exec getByImsi
  rw [dbSel_nil, find_imsi hU hr]

theorem step_nam (cfg : Cfg) {s : Sys} (hu : s.ub = false) (hU : Unique s.db) {r : SubRow} (hr : r ∈ s.db.subs) (v ps : Bool)
    (sc : Script) :
    step cfg s (.nam r.imsi v ps [] sc) = (Sys.subscrNam cfg { sc := sc } (HlrSubscr.ofRow r) v ps s).2 := by
  unfold step
  rw [if_neg (by rw [hu]; simp)]
  show withDb s [] (getByImsi r.imsi) _ = _
  unfold withDb exec getByImsi
  rw [dbSel_nil, find_imsi hU hr]

theorem addrSend_log (s : Sys) (a : Bytes) (m : Gsup.Msg) : ∃ lg, (addrSend s a m).2 = { s with log := lg } := by
  unfold addrSend
  split
  · exact ⟨s.log, rfl⟩
  · exact ⟨_, rfl⟩

theorem delData_log (cfg : Cfg) (s : Sys) (i n : Bytes) : ∃ lg, sendDelData cfg s i n = { s with log := lg } := by
  unfold sendDelData
  split
  · exact ⟨s.log, rfl⟩
  · unfold encSendToIpa
    split
    · unfold sendToIpa
      split
      · exact addrSend_log ..
      · split
        · split
          · exact ⟨s.log, rfl⟩
          · exact addrSend_log ..
        · exact addrSend_log ..
    · exact ⟨s.log, rfl⟩

theorem notify_log (cfg : Cfg) (s : Sys) (sub : HlrSubscr) (d : Db) :
    updateNotify cfg sub { s with db := d } = { updateNotify cfg sub s with db := d } := by
  rw [Sys.Props.updateNotify_eq, Sys.Props.updateNotify_eq]

/-- hlr_subscr_nam that did not die: what it did to the database. -/
theorem snam_db (cfg : Cfg) {s : Sys} (hU : Unique s.db) (sub : HlrSubscr) (v ps : Bool) (sc : Script) {rc : Int} {s' : Sys}
    (h : Sys.subscrNam cfg { sc := sc } sub v ps s = (some rc, s')) :
    s'.ub = s.ub ∧ (s'.db = s.db
      ∨ s'.db = withRow s.db sub.imsi (fun r => if ps then { r with namPs := v } else { r with namCs := v })) := by
  have hc := contract_nam s.db hU sc sub.imsi v ps
  unfold Sys.subscrNam at h
  generalize (if ps = true then sub.namPs else sub.namCs) = cur at h
  by_cases hcur : cur = v
  · rw [if_pos hcur] at h; cases h; exact ⟨rfl, .inl rfl⟩
  · rw [if_neg hcur] at h
    rcases hx : exec (Db.subscrNam sub.imsi v ps) s.db sc with ⟨o, d⟩
    have he : d = s.db ∨ d = withRow s.db sub.imsi (fun r => if ps then { r with namPs := v } else { r with namCs := v }) := by
      by_cases h0 : o = some 0
      · have := hc.effect (by rw [hx]; exact h0)
        rw [hx] at this
        exact .inr this
      · have := hc.noEffect (by rw [hx]; exact h0)
        rw [hx] at this
        exact .inl this
    rw [show exec (Db.subscrNam sub.imsi v ps) s.db ({ sc := sc } : Env).sc = (o, d) from hx] at h
    cases o with
    | none => cases h
    | some rc' =>
      dsimp only at h
      split at h
      · cases h; exact ⟨rfl, he⟩
      · split at h
        · cases h; exact ⟨rfl, he⟩
        · obtain ⟨l1, e1⟩ := delData_log cfg { s with db := d } sub.imsi sub.vlrNumber
          obtain ⟨l2, e2⟩ := delData_log cfg { s with db := d, log := l1 } sub.imsi sub.sgsnNumber
          rw [e1, e2] at h
          cases h
          exact ⟨rfl, he⟩

/-- hlr_subscr_nam for PS looks at neither the CS flag nor the purge flags. -/
theorem snam_congr (cfg : Cfg) (e : Env) (s : Sys) {sub sub' : HlrSubscr} (v : Bool) (h1 : sub.namPs = sub'.namPs)
    (h2 : sub.imsi = sub'.imsi) (h3 : sub.vlrNumber = sub'.vlrNumber) (h4 : sub.sgsnNumber = sub'.sgsnNumber) :
    Sys.subscrNam cfg e sub v true s = Sys.subscrNam cfg e sub' v true s := by
  unfold Sys.subscrNam
  rw [h2, h3, h4]
  simp only [if_true, h1]

theorem namCmd_events (cfg : Cfg) {s : Sys} (hu : s.ub = false) (hU : Unique s.db) (t : Vty.IdType) (id v : Bytes)
    (sc sc1 sc2 : Script) : ∃ evs, evs.all isProv = true ∧ run s evs = namCmd cfg t id v sc sc1 sc2 s := by
  have hkill : run s [(cfg, .kill)] = s.crash := by
    show step cfg s .kill = _
    unfold step
    rw [if_neg (by rw [hu]; simp)]
  unfold namCmd withDb exec
  rw [Vty.lookup_eq]
  obtain ⟨o, e1, e2⟩ := dbSel_run (Vty.cond t id) { db := s.db, script := sc }
  rw [e1]
  dsimp only
  rcases e2 with rfl | rfl | ⟨rfl, -⟩ | ⟨row, rfl, hf⟩
  · exact ⟨[(cfg, .kill)], rfl, hkill⟩
  · exact ⟨[], rfl, rfl⟩
  · exact ⟨[], rfl, rfl⟩
  dsimp only
  have hr : row ∈ s.db.subs := List.mem_of_find?_eq_some hf
  have hs : ({ s with db := s.db } : Sys) = s := rfl
  rw [hs]
  -- the first call
  obtain ⟨ev1, p1, h1, hd⟩ : ∃ evs, evs.all isProv = true ∧ run s evs = (namCmd.first cfg v sc1 (HlrSubscr.ofRow row) s).2
      ∧ ∀ rc s', namCmd.first cfg v sc1 (HlrSubscr.ofRow row) s = (some rc, s') → s'.ub = s.ub
        ∧ (s'.db = s.db ∨ s'.db = withRow s.db (HlrSubscr.ofRow row).imsi fun r => { r with namCs := Vty.contains (b "cs") v }) := by
    unfold namCmd.first
    split
    · refine ⟨[(cfg, .nam row.imsi (Vty.contains (b "cs") v) false [] sc1)], rfl, step_nam cfg hu hU hr _ _ _, fun rc s' h => ?_⟩
      have := snam_db cfg hU _ _ _ _ h
      simpa using this
    · exact ⟨[], rfl, rfl, fun rc s' h => by cases h; exact ⟨rfl, .inl rfl⟩⟩
  rcases hx : namCmd.first cfg v sc1 (HlrSubscr.ofRow row) s with ⟨o, s1⟩
  rw [hx] at h1
  cases o with
  | none => exact ⟨ev1, p1, h1⟩
  | some rc =>
    obtain ⟨hu1, hdb⟩ := hd rc s1 hx
    unfold namCmd.second
    dsimp only
    split
    · obtain ⟨row1, hr1, a1, a2, a3, a4⟩ : ∃ row1 ∈ s1.db.subs, row1.imsi = row.imsi ∧ row1.namPs = row.namPs
          ∧ row1.vlr = row.vlr ∧ row1.sgsn = row.sgsn := by
        rcases hdb with e | e
        · exact ⟨row, by rw [e]; exact hr, rfl, rfl, rfl, rfl⟩
        · by_cases hi : row.imsi = (HlrSubscr.ofRow row).imsi
          · refine ⟨{ row with namCs := Vty.contains (b "cs") v }, ?_, rfl, rfl, rfl, rfl⟩
            rw [e]
            exact List.mem_map.mpr ⟨row, hr, by rw [if_pos hi]⟩
          · refine ⟨row, ?_, rfl, rfl, rfl, rfl⟩
            rw [e]
            exact List.mem_map.mpr ⟨row, hr, by rw [if_neg hi]⟩
      have hU1 : Unique s1.db := by
        have : Unique (run s ev1).db := (run_linked s ev1).keeps unique_op hU
        rw [h1] at this
        exact this
      refine ⟨ev1 ++ [(cfg, .nam row1.imsi (Vty.contains (b "ps") v) true [] sc2)], by rw [List.all_append, p1]; rfl, ?_⟩
      rw [run_append, h1]
      dsimp only
      show step cfg s1 (.nam row1.imsi (Vty.contains (b "ps") v) true [] sc2) = _
      rw [step_nam cfg (hu1.trans hu) hU1 hr1]
      congr 1
      apply snam_congr
      · exact a2
      · show strlcpy 16 row1.imsi = strlcpy 16 row.imsi; rw [a1]
      · unfold HlrSubscr.ofRow; rw [a3]
      · unfold HlrSubscr.ofRow; rw [a4]
    · exact ⟨ev1, p1, h1⟩

/-- A VTY command is a sequence of events of `Verif.Sys`, unless its behaviour is undefined. -/
theorem vtyCmd_events (cfg : Cfg) (ck : Vty.Clock) (c : Vty.Cmd) (sc sc1 sc2 : Script) (s : Sys) (hU : Unique s.db) :
    (vtyCmd cfg ck c sc sc1 sc2 s).ub = true ∨ ∃ evs, evs.all isProv = true ∧ run s evs = vtyCmd cfg ck c sc sc1 sc2 s := by
  by_cases hub : s.ub = true
  · right
    refine ⟨[], rfl, ?_⟩
    unfold vtyCmd
    rw [if_pos hub]
    rfl
  have hu : s.ub = false := by simpa using hub
  by_cases hn : ∃ t id v, c = .nam t id v
  · obtain ⟨t, id, v, rfl⟩ := hn
    right
    unfold vtyCmd
    rw [if_neg hub]
    exact namCmd_events cfg hu hU t id v sc sc1 sc2
  have hv : vtyCmd cfg ck c sc sc1 sc2 s = withDb s sc (Vty.vty ck c) fun r s => match r with
      | .ub => { s with ub := true }
      | .done _ _ acts => acts.foldl (act cfg) s := by
    unfold vtyCmd
    rw [if_neg hub]
    cases c <;> first
      | rfl
      | exact absurd ⟨_, _, _, rfl⟩ hn
  rw [hv]
  obtain ⟨evs, hp, he⟩ := evs_vty ck c cfg s sc hu
  unfold withDb
  rcases hx : exec (Vty.vty ck c) s.db sc with ⟨o, d⟩
  rw [hx] at he
  cases o with
  | none => exact .inr ⟨evs, hp, he⟩
  | some res =>
    dsimp only at he ⊢
    cases res with
    | ub => exact .inl rfl
    | done ok x acts =>
      right
      dsimp only
      by_cases hm : ∃ t id v, c = .msisdn t id v
      · obtain ⟨t, id, v, rfl⟩ := hm
        have hx' : exec (Vty.msisdn t id v) s.db sc = _ := hx
        rcases msisdn_acts t id v s.db sc (by rw [hx']) with rfl | ⟨r, rfl, hr | hr⟩
        · exact ⟨evs, hp, he⟩
        · -- about the subscriber as before
          have h1 := step_notify cfg hu hU hr
          have h2 : (updateNotify cfg (HlrSubscr.ofRow r) s).db = s.db := by rw [Sys.Props.updateNotify_eq]
          have h3 : (updateNotify cfg (HlrSubscr.ofRow r) s).ub = false := by rw [Sys.Props.updateNotify_eq]; exact hu
          obtain ⟨evs', hp', he'⟩ := evs_vty ck (.msisdn t id v) cfg (updateNotify cfg (HlrSubscr.ofRow r) s) sc h3
          rw [h2, hx] at he'
          refine ⟨(cfg, .notify r.imsi []) :: evs', hp', ?_⟩
          show run (step cfg s _) evs' = _
          rw [h1, he']
          exact (notify_log cfg s _ d).symm
        · have hU' : Unique d := by
            have : Unique (run s evs).db := (run_linked s evs).keeps unique_op hU
            rw [he] at this
            exact this
          rw [hx'] at hr
          refine ⟨evs ++ [(cfg, .notify r.imsi [])], by rw [List.all_append, hp]; rfl, ?_⟩
          rw [run_append, he]
          exact step_notify (s := { s with db := d }) cfg hu hU' hr
      · have hq := quiet_vty ck c (fun t id v e => hm ⟨t, id, v, e⟩) (fun t id v e => hn ⟨t, id, v, e⟩)
        have := hq { db := s.db, script := sc } ok x acts (by
          have h9 : (exec (Vty.vty ck c) s.db sc).1 = some (.done ok x acts) := by rw [hx]
          exact h9)
        subst this
        exact ⟨evs, hp, he⟩

theorem ctrlCmd_events (cfg : Cfg) (c : Cmd) (sc : Script) (s : Sys) : ∃ evs, evs.all isProv = true ∧ run s evs = ctrlCmd c sc s := by
  by_cases hub : s.ub = true
  · refine ⟨[], rfl, ?_⟩
    unfold ctrlCmd
    rw [if_pos hub]
    rfl
  obtain ⟨evs, hp, he⟩ := evs_ctrl c cfg s sc (by simpa using hub)
  refine ⟨evs, hp, ?_⟩
  unfold ctrlCmd withDb
  rw [if_neg hub, he]
  rcases exec (ctrl c) s.db sc with ⟨o, d⟩
  cases o <;> rfl

theorem run2_ub {s : Sys} (h : s.ub = true) (l : List (Cfg × Ev2)) : run2 s l = s := by
  induction l with
  | nil => rfl
  | cons x l ih =>
    obtain ⟨cfg, ev⟩ := x
    show run2 (step2 cfg s ev) l = s
    have : step2 cfg s ev = s := by
      cases ev with
      | sys ev => show step cfg s ev = s; unfold step; rw [if_pos h]
      | vty => show vtyCmd _ _ _ _ _ _ s = s; unfold vtyCmd; rw [if_pos h]
      | ctrl => show ctrlCmd _ _ s = s; unfold ctrlCmd; rw [if_pos h]
    rw [this, ih]

/-- `Sim s l evs`: from `s`, the events `evs` of `Verif.Sys` do what the history `l` with
commands does, event by event: each command is replaced by events standing for its parts. -/
inductive Sim : Sys → List (Cfg × Ev2) → List (Cfg × Sys.Ev) → Prop where
  | nil (s : Sys) : Sim s [] []
  | sys {s : Sys} {l : List (Cfg × Ev2)} {evs : List (Cfg × Sys.Ev)} (cfg : Cfg) (ev : Sys.Ev)
      (h : Sim (step cfg s ev) l evs) : Sim s ((cfg, .sys ev) :: l) ((cfg, ev) :: evs)
  | cmd {s : Sys} {l : List (Cfg × Ev2)} {evs : List (Cfg × Sys.Ev)} (cfg : Cfg) (c : Ev2) (ce : List (Cfg × Sys.Ev)) (hp : ce.all isProv = true)
      (hc : run s ce = step2 cfg s c) (h : Sim (step2 cfg s c) l evs) : Sim s ((cfg, c) :: l) (ce ++ evs)

theorem Sim.run {s : Sys} {l : List (Cfg × Ev2)} {evs : List (Cfg × Sys.Ev)} (h : Sim s l evs) :
    Sys.run s evs = run2 s l := by
  induction h with
  | nil => rfl
  | sys cfg ev _ ih => exact ih
  | cmd cfg c ce _ hc _ ih =>
    rw [run_append, hc]
    exact ih

/-- An event that is not part of a command is one of the history. -/
theorem Sim.split {s : Sys} {l : List (Cfg × Ev2)} {evs : List (Cfg × Sys.Ev)} (h : Sim s l evs) :
    ∀ {e1 e2 : List (Cfg × Sys.Ev)} {cfg : Cfg} {ev : Sys.Ev}, evs = e1 ++ (cfg, ev) :: e2 →
      isProv (cfg, ev) = false →
      ∃ l1 l2, l = l1 ++ (cfg, .sys ev) :: l2 ∧ Sim s l1 e1 ∧ Sim (Sys.run s (e1 ++ [(cfg, ev)])) l2 e2 := by
  induction h with
  | nil s =>
    intro e1 e2 cfg1 ev he _
    cases e1 <;> cases he
  | @sys s l evs cfg ev' h ih =>
    intro e1 e2 cfg1 ev he hn
    cases e1 with
    | nil =>
      cases he
      exact ⟨[], l, rfl, .nil _, h⟩
    | cons a e1 =>
      cases he
      obtain ⟨l1, l2, rfl, h1, h2⟩ := ih rfl hn
      exact ⟨(cfg, .sys ev') :: l1, l2, rfl, .sys _ _ h1, h2⟩
  | @cmd s l evs cfg c ce hp hc h ih =>
    intro e1 e2 cfg1 ev he hn
    rcases List.append_eq_append_iff.mp he with ⟨t, rfl, e⟩ | ⟨t, e, e'⟩
    · obtain ⟨l1, l2, rfl, h1, h2⟩ := ih e hn
      refine ⟨(cfg, c) :: l1, l2, rfl, .cmd cfg c ce hp hc h1, ?_⟩
      rw [List.append_assoc, run_append, hc]
      exact h2
    · cases t with
      | nil =>
        rw [List.append_nil] at e
        subst e
        obtain ⟨l1, l2, rfl, h1, h2⟩ := ih (e1 := []) e'.symm hn
        have := Sim.cmd cfg c ce hp hc h1
        rw [List.append_nil] at this
        refine ⟨(cfg, c) :: l1, l2, rfl, this, ?_⟩
        rw [run_append, hc]
        exact h2
      | cons a t =>
        cases e'
        rw [e, List.all_append] at hp
        simp [hn] at hp

/-- Whatever mixture of messages, timeouts, commands, failures: without undefined behaviour it
is a history of the events of `Verif.Sys`. -/
theorem run2_sim (s : Sys) (hU : Unique s.db) (l : List (Cfg × Ev2)) (h : (run2 s l).ub = false) :
    ∃ evs, Sim s l evs := by
  induction l generalizing s with
  | nil => exact ⟨[], .nil _⟩
  | cons x l ih =>
    obtain ⟨cfg, ev⟩ := x
    have h : (run2 (step2 cfg s ev) l).ub = false := h
    have hub : (step2 cfg s ev).ub = false := by
      cases e : (step2 cfg s ev).ub with
      | false => rfl
      | true => rw [run2_ub e, e] at h; cases h
    have next {evs : List (Cfg × Sys.Ev)} (he : run s evs = step2 cfg s ev) : ∃ evs', Sim (step2 cfg s ev) l evs' := by
      refine ih _ ?_ h
      rw [← he]
      exact (run_linked s evs).keeps unique_op hU
    cases ev with
    | sys ev =>
      obtain ⟨evs', h'⟩ := next (evs := [(cfg, ev)]) rfl
      exact ⟨_, .sys cfg ev h'⟩
    | vty ck c sc sc1 sc2 =>
      rcases vtyCmd_events cfg ck c sc sc1 sc2 s hU with e | ⟨evs, hp, he⟩
      · have hub : (vtyCmd cfg ck c sc sc1 sc2 s).ub = false := hub
        rw [e] at hub; cases hub
      · obtain ⟨evs', h'⟩ := next he
        exact ⟨_, .cmd cfg _ evs hp he h'⟩
    | ctrl c sc =>
      obtain ⟨evs, hp, he⟩ := ctrlCmd_events cfg c sc s
      obtain ⟨evs', h'⟩ := next he
      exact ⟨_, .cmd cfg _ evs hp he h'⟩

/-- The database, even after undefined behaviour of `create` (which only prints). -/
theorem vtyCmd_db (cfg : Cfg) (ck : Vty.Clock) (c : Vty.Cmd) (sc sc1 sc2 : Script) (s : Sys) (hU : Unique s.db) :
    Linked s.db (vtyCmd cfg ck c sc sc1 sc2 s).db := by
  rcases vtyCmd_events cfg ck c sc sc1 sc2 s hU with e | ⟨evs, -, he⟩
  · by_cases hub : s.ub = true
    · unfold vtyCmd
      rw [if_pos hub]
      exact .refl _
    by_cases hn : ∃ t id v, c = .nam t id v
    · obtain ⟨t, id, v, rfl⟩ := hn
      obtain ⟨evs, -, he⟩ := namCmd_events cfg (s := s) (by simpa using hub) hU t id v sc sc1 sc2
      have hl := run_linked s evs
      rw [he] at hl
      unfold vtyCmd
      rw [if_neg hub]
      exact hl
    have hv : vtyCmd cfg ck c sc sc1 sc2 s = withDb s sc (Vty.vty ck c) fun r s => match r with
        | .ub => { s with ub := true }
        | .done _ _ acts => acts.foldl (act cfg) s := by
      unfold vtyCmd
      rw [if_neg hub]
      cases c <;> first
        | rfl
        | exact absurd ⟨_, _, _, rfl⟩ hn
    obtain ⟨evs, -, he⟩ := evs_vty ck c cfg s sc (by simpa using hub)
    have hl := run_linked s evs
    rw [he] at hl
    rw [hv]
    unfold withDb
    have hact : ∀ (l : List Vty.Act) (s : Sys), (l.foldl (act cfg) s).db = s.db := by
      intro l
      induction l with
      | nil => intro s; rfl
      | cons a l ih =>
        intro s
        rw [List.foldl_cons, ih]
        cases a with
        | notify sub => show (updateNotify cfg sub s).db = _; rw [Sys.Props.updateNotify_eq]
        | delData sub =>
          show (sendDelData cfg (sendDelData cfg s sub.imsi sub.vlrNumber) sub.imsi sub.sgsnNumber).db = _
          obtain ⟨l1, e1⟩ := delData_log cfg s sub.imsi sub.vlrNumber
          obtain ⟨l2, e2⟩ := delData_log cfg { s with log := l1 } sub.imsi sub.sgsnNumber
          rw [e1, e2]
    rcases hx : exec (Vty.vty ck c) s.db sc with ⟨o, d⟩
    rw [hx] at hl
    cases o with
    | none => exact hl
    | some r =>
      cases r with
      | ub => exact hl
      | done ok x acts =>
        dsimp only
        rw [hact]
        exact hl
  · have hl := run_linked s evs
    rw [he] at hl
    exact hl

theorem run2_linked (s : Sys) (hU : Unique s.db) (l : List (Cfg × Ev2)) : Linked s.db (run2 s l).db := by
  induction l generalizing s with
  | nil => exact .refl _
  | cons x l ih =>
    obtain ⟨cfg, ev⟩ := x
    have h : Linked s.db (step2 cfg s ev).db := by
      cases ev with
      | sys ev => exact run_linked s [(cfg, ev)]
      | vty ck c sc sc1 sc2 => exact vtyCmd_db cfg ck c sc sc1 sc2 s hU
      | ctrl c sc =>
        obtain ⟨evs, -, he⟩ := ctrlCmd_events cfg c sc s
        have hl := run_linked s evs
        rw [he] at hl
        exact hl
    exact h.trans (ih _ (h.keeps unique_op hU))

end Verif.Prov.Running
