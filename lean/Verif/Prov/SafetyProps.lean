import Verif.Prov.Safety
import Verif.Prov.VtyProps3
/-!
# C69: when a history has undefined behaviour

`Fine cfg s ev` (Verif.Prov.Safety) says that the next event `ev` is none of these:

* a message while a USSD route or the default EUSE refers to an EUSE that is not configured
  (`EuseOk`), or an SMSC route or the default SMSC to an SMSC that is not (`SmscOk`);
* a message while the HLR's own name has a percent sign;
* a peer's identity, or a message's source name, of 128 bytes without a NUL at the end, or with a
  percent sign (`BadName`);
* a message of a subscriber within a session that an EUSE began, or in a session of an EUSE that is
  not configured any more (`Misread`);
* a VTY command to create a subscriber of which the row cannot be read back.
-/
namespace Verif.Prov.Running
open Verif Verif.Db Verif.Auc Verif.Prov Verif.Sys Verif.Sys.Props Verif.Gsup

/-- C69: from any database, and whatever the peers, operators, timers, failing statements and
kills: without such an event the HLR never comes to undefined behaviour. -/
theorem c69_safe_partial {d : Db} (hU : Unique d) (hK : KeysOk d) (hP : PlainDb d) (l : List (Cfg × Ev2))
    (h : Careful (init d) l) : (run2 (init d) l).ub = false :=
  (run2_safe (init_ok ⟨hU, hK⟩ hP) l h).ub

/-- C69: and no name of a serving node or proxy that is stored has a percent sign, so that the
names mean themselves where the code uses them as formats of printf (which the model does not
represent otherwise). -/
theorem c69_plain_partial {d : Db} (hU : Unique d) (hK : KeysOk d) (hP : PlainDb d) (l : List (Cfg × Ev2))
    (h : Careful (init d) l) {r : SubRow} (hr : r ∈ (run2 (init d) l).db.subs) {n : Bytes}
    (hn : r.vlr = some n ∨ r.sgsn = some n ∨ r.vlrViaProxy = some n ∨ r.sgsnViaProxy = some n) : 37 ∉ n := by
  have hp := (run2_safe (init_ok ⟨hU, hK⟩ hP) l h).plain r hr
  rcases hn with e | e | e | e
  · exact (hp false).1 n e
  · exact (hp true).1 n e
  · exact (hp false).2 n e
  · exact (hp true).2 n e

/-- C69: in other words, the first event that leads to undefined behaviour is one of those. -/
theorem c69_cause {d : Db} (hU : Unique d) (hK : KeysOk d) (hP : PlainDb d) (l : List (Cfg × Ev2)) (h : (run2 (init d) l).ub = true) :
    ∃ l1 cfg ev l2, l = l1 ++ (cfg, ev) :: l2 ∧ (run2 (init d) l1).ub = false ∧ ¬ Fine cfg (run2 (init d) l1) ev := by
  suffices ∀ (l : List (Cfg × Ev2)) (s : Sys), AllOk s → (run2 s l).ub = true →
      ∃ l1 cfg ev l2, l = l1 ++ (cfg, ev) :: l2 ∧ (run2 s l1).ub = false ∧ ¬ Fine cfg (run2 s l1) ev from
    this l _ (init_ok ⟨hU, hK⟩ hP) h
  intro l
  induction l with
  | nil => intro s hs h; exact absurd h (by rw [show run2 s [] = s from rfl, hs.ub]; simp)
  | cons x l ih =>
    intro s hs h
    by_cases hf : Fine x.1 s x.2
    · obtain ⟨l1, cfg, ev, l2, e1, e2, e3⟩ := ih _ (step2_safe hs x.2 hf) h
      exact ⟨x :: l1, cfg, ev, l2, by rw [e1]; rfl, e2, e3⟩
    · exact ⟨[], x.1, x.2, l, rfl, hs.ub, hf⟩

/-! ## A careful history -/

/-- Checks `EuseOk` and `SmscOk`. -/
def cfgB (cfg : Cfg) : Bool :=
  cfg.ussdRoutes.all (fun rt => match rt.to with | .inl n => decide (n ∈ cfg.euses) | .inr _ => true)
    && (match cfg.euseDefault with | some n => decide (n ∈ cfg.euses) | none => true)
    && cfg.smscRoutes.all (fun rt => decide (rt.2 ∈ cfg.smscs))
    && (match cfg.smscDefault with | some n => decide (n ∈ cfg.smscs) | none => true)
    && decide (37 ∉ cfg.myName)

theorem cfgB_ok {cfg : Cfg} (h : cfgB cfg = true) : EuseOk cfg ∧ SmscOk cfg ∧ 37 ∉ cfg.myName := by
  unfold cfgB at h
  simp only [Bool.and_eq_true, List.all_eq_true] at h
  obtain ⟨⟨⟨⟨h1, h2⟩, h3⟩, h4⟩, h5⟩ := h
  refine ⟨⟨fun rt hrt n hn => ?_, fun n hn => ?_⟩, ⟨fun rt hrt => ?_, fun n hn => ?_⟩, of_decide_eq_true h5⟩
  · have := h1 rt hrt; rw [hn] at this; simpa using this
  · rw [hn] at h2; simpa using h2
  · simpa using h3 rt hrt
  · rw [hn] at h4; simpa using h4

/-- Checks `Fine`, for messages that are not about sessions or at a time when there are none. -/
def fineB (cfg : Cfg) (s : Sys) : Ev2 → Bool
  | .sys (.ccm _ (some n)) => cfgB cfg && !decide (BadName n)
  | .sys (.rx c (some m) _) => cfgB cfg && !decide (BadName m.src)
    && s.sess.all (fun x => x.isExternal && (match x.u with | .euse n => decide (n ∈ cfg.euses) | _ => true))
  | .sys (.db (.lu ..) _) => false
  | .sys _ => cfgB cfg
  | .vty _ (.create _) sc _ _ => decide (sc[1]? ≠ some .ioerr)
  | _ => true

theorem fineB_ok {cfg : Cfg} {s : Sys} {ev : Ev2} (h : fineB cfg s ev = true) : Fine cfg s ev := by
  cases ev with
  | sys ev =>
    have hsane : cfgB cfg = true ∧ Sane cfg s ev := by
      cases ev with
      | ccm c n =>
        cases n with
        | none => exact ⟨h, trivial⟩
        | some n =>
          rw [show fineB cfg s (.sys (.ccm c (some n))) = (cfgB cfg && !decide (BadName n)) from rfl, Bool.and_eq_true] at h
          exact ⟨h.1, (by simpa using h.2 : ¬ BadName n)⟩
      | rx c m e =>
        cases m with
        | none => exact ⟨h, trivial⟩
        | some m =>
          simp only [fineB, Bool.and_eq_true, List.all_eq_true] at h
          refine ⟨h.1.1, by simpa using h.1.2, fun k _ _ ⟨_, x, hx, _, _, n, hu, hx2⟩ => ?_⟩
          have := h.2 x hx
          rw [hu] at this
          rcases hx2 with e | e
          · rw [e] at this; simp at this
          · exact e (by simpa using this.2)
      | db op sc => cases op <;> first
        | exact ⟨h, trivial⟩
        | cases h
      | _ => exact ⟨h, trivial⟩
    exact ⟨(cfgB_ok hsane.1).1, (cfgB_ok hsane.1).2.1, (cfgB_ok hsane.1).2.2, hsane.2⟩
  | vty ck c sc sc1 sc2 =>
    cases c with
    | create i =>
      have h : decide (sc[1]? ≠ some .ioerr) = true := h
      exact (of_decide_eq_true h : sc[1]? ≠ some .ioerr)
    | _ => trivial
  | ctrl c sc => trivial

/-- Checks `Careful`. -/
def carefulB (s : Sys) : List (Cfg × Ev2) → Bool
  | [] => true
  | x :: l => fineB x.1 s x.2 && carefulB (step2 x.1 s x.2) l

theorem carefulB_ok {s : Sys} {l : List (Cfg × Ev2)} (h : carefulB s l = true) : Careful s l := by
  induction l generalizing s with
  | nil => trivial
  | cons x l ih =>
    rw [carefulB, Bool.and_eq_true] at h
    exact ⟨fineB_ok h.1, ih h.2⟩

/-- Nodes connect, a subscriber is created twice, updates their location, calls an EUSE, which
ends the session, and the HLR's own service; the HLR is killed. -/
def exCareful : List (Cfg × Ev2) :=
  (exUssd.map fun ev => (ussdCfg, .sys ev)) ++ [
    (ussdCfg, .vty Vty.Props.exClock (.create imsi1) [] [] []), (ussdCfg, .vty Vty.Props.exClock (.create imsi1) [.ioerr] [] []),
    (ussdCfg, .sys (.rx 1 (some ulMsg) {})),
    (ussdCfg, .sys (.rx 1 (some (ssMsg .begin 5 (b "*#101#"))) {})),
    (ussdCfg, .sys (.rx 4 (some (ssMsg .end_ 5 (b "bye"))) {})),
    (ussdCfg, .sys (.rx 1 (some (ssMsg .begin 6 (b "*#100#"))) {})), (ussdCfg, .sys .kill)]

example : Careful (init {}) exCareful := carefulB_ok (by decide +kernel)

example : (run2 (init {}) exCareful).ub = false :=
  c69_safe_partial Db.Props.unique_empty ⟨by simp, by simp⟩ (fun r hr => by cases hr) _ (carefulB_ok (by decide +kernel))

example : exCareful.length = 17 := by decide +kernel

/-- Afterwards the name of the serving node is stored. -/
example : (run2 (init {}) exCareful).db.subs.map (·.vlr) = [some (b "MSC-1")] := by decide +kernel

/-! ## The events excepted lead to undefined behaviour -/

/-- C69 violated: a source name of 128 bytes. -/
theorem c69_name_violated : ∃ l, Careful (init {}) l
    ∧ (run2 (init {}) (l ++ [(exCfg, .sys (.rx 1 (some { ulMsg with src := List.replicate 128 65 }) {}))])).ub = true :=
  ⟨exTwo.map fun ev => (exCfg, .sys ev), carefulB_ok (by decide +kernel), by decide +kernel⟩

/-- C69 violated: a client that says its identity is a name of 128 bytes, and then asks for a
location update. -/
theorem c69_identity_violated : ∃ l, Careful (init {}) l
    ∧ (run2 (init {}) (l ++ [(exCfg, .sys (.ccm 2 (some (List.replicate 128 65)))), (exCfg, .sys (.rx 2 (some ulMsg) {}))])).ub = true :=
  ⟨exTwo.map fun ev => (exCfg, .sys ev), carefulB_ok (by decide +kernel), by decide +kernel⟩

/-- C69 violated: a subscriber's answer in a session that an EUSE began. -/
theorem c69_session_violated : ∃ l, Careful (init {}) l
    ∧ (run2 (init {}) (l ++ [(ussdCfg, .sys (.rx 1 (some (ssMsg .continue_ 7 (b "yes"))) {}))])).ub = true :=
  ⟨((exUssd ++ [.rx 1 (some ulMsg) {}, .rx 3 (some (ssMsg .begin 7 (b "hello"))) {}] : List Sys.Ev)).map fun ev => (ussdCfg, .sys ev),
    carefulB_ok (by decide +kernel), by decide +kernel⟩

/-- C69 violated: a subscriber's answer in a session of an EUSE that was removed. -/
theorem c69_removed_violated : ∃ l, Careful (init {}) l
    ∧ (run2 (init {}) (l ++ [({ ussdCfg with euses := [eFoo], ussdRoutes := [] },
        .sys (.rx 1 (some (ssMsg .continue_ 5 (b "yes"))) {}))])).ub = true :=
  ⟨((exUssd ++ [.rx 1 (some ulMsg) {}, .rx 1 (some (ssMsg .begin 5 (b "*#101#"))) {}] : List Sys.Ev)).map fun ev => (ussdCfg, .sys ev),
    carefulB_ok (by decide +kernel), by decide +kernel⟩

/-- C69 violated: a new session, when the default EUSE is one that was removed. -/
theorem c69_default_violated : ∃ l, Careful (init {}) l
    ∧ (run2 (init {}) (l ++ [({ ussdCfg with euses := [eBar] }, .sys (.rx 1 (some (ssMsg .begin 5 (b "*77#"))) {}))])).ub = true :=
  ⟨((exUssd ++ [.rx 1 (some ulMsg) {}] : List Sys.Ev)).map fun ev => (ussdCfg, .sys ev), carefulB_ok (by decide +kernel), by decide +kernel⟩

/-- C69 violated: a short message, when the default SMSC is one that was removed. -/
theorem c69_smsc_violated : ∃ l, Careful (init {}) l
    ∧ (run2 (init {}) (l ++ [({ smsCfg with smscs := [] }, .sys (.rx 1 (some (moMsg (0x80 :: b "99"))) {}))])).ub = true :=
  ⟨exSms.map fun ev => (smsCfg, .sys ev), carefulB_ok (by decide +kernel), by decide +kernel⟩

/-- C69 violated: a new subscriber cannot be read back. -/
theorem c69_create_violated : ∃ l, Careful (init {}) l
    ∧ (run2 (init {}) (l ++ [(exCfg, .vty Vty.Props.exClock (.create (b "901990000000003")) [.ok, .ioerr] [] [])])).ub = true :=
  ⟨exTwo.map fun ev => (exCfg, .sys ev), carefulB_ok (by decide +kernel), by decide +kernel⟩

end Verif.Prov.Running
