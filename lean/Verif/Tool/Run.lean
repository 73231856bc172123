import Verif.Tool.Steps
/-!
# Runs of the lookup program
-/
namespace Verif.Tool
open Verif Verif.Mslookup

theorem steps_client (cfg : Cfg) (evs : List Ev) (t : Tool) : t.client.uids ≤ (evs.foldl (step cfg) t).client.uids := by
  induction evs generalizing t with
  | nil => exact Nat.le_refl _
  | cons e evs ih => exact Nat.le_trans (step_client cfg t e) (ih _)

theorem turn_client (cfg : Cfg) (t : Tool) (evs : List Ev) : t.client.uids ≤ (turn cfg t evs).client.uids := by
  unfold turn
  dsimp only
  split
  · rw [finish_client]; exact steps_client cfg evs t
  · exact steps_client cfg evs t

theorem turn_killed {cfg : Cfg} (t : Tool) (evs : List Ev) (h : t.killed = true) : (turn cfg t evs).killed = true := by
  have : (evs.foldl (step cfg) t).killed = true := foldl_killed (fun t e h => step_killed e h) evs h
  unfold turn
  dsimp only
  split
  · rw [finish_killed]; exact this
  · exact this

theorem steps_good {cfg : Cfg} {A : List Bytes} {t : Tool} (h : Good cfg A t) (evs : List Ev)
    (hu : (evs.foldl (step cfg) t).client.uids ≤ Client.MAX) (hk : (evs.foldl (step cfg) t).killed = false) :
    Good cfg A (evs.foldl (step cfg) t) := by
  induction evs generalizing t with
  | nil => exact h
  | cons e evs ih =>
    rw [List.foldl_cons] at hu hk ⊢
    exact ih (step_good h e (Nat.le_trans (steps_client cfg evs _) hu) (not_killed (foldl_killed (fun t e h => step_killed e h) evs) hk)) hu hk

theorem turn_good {cfg : Cfg} {A : List Bytes} {t : Tool} (h : Good cfg A t) (evs : List Ev) (hu : (turn cfg t evs).client.uids ≤ Client.MAX)
    (hk : (turn cfg t evs).killed = false) : Good cfg A (turn cfg t evs) := by
  unfold turn at hu hk ⊢
  dsimp only at hu hk ⊢
  split
  · rename_i hc
    rw [if_pos hc, finish_client] at hu
    rw [if_pos hc, finish_killed] at hk
    exact finish_good (steps_good h evs hu hk) hk
  · rename_i hc
    rw [if_neg hc] at hu hk
    exact steps_good h evs hu hk

theorem turns_client (cfg : Cfg) (turns : List (List Ev)) (t : Tool) : t.client.uids ≤ (turns.foldl (turn cfg) t).client.uids := by
  induction turns generalizing t with
  | nil => exact Nat.le_refl _
  | cons e evs ih => exact Nat.le_trans (turn_client cfg t e) (ih _)

theorem turns_good {cfg : Cfg} {A : List Bytes} {t : Tool} (h : Good cfg A t) (turns : List (List Ev))
    (hu : (turns.foldl (turn cfg) t).client.uids ≤ Client.MAX) (hk : (turns.foldl (turn cfg) t).killed = false) :
    Good cfg A (turns.foldl (turn cfg) t) := by
  induction turns generalizing t with
  | nil => exact h
  | cons e evs ih =>
    rw [List.foldl_cons] at hu hk ⊢
    exact ih (turn_good h e (Nat.le_trans (turns_client cfg evs _) hu) (not_killed (foldl_killed (fun t e h => turn_killed t e h) evs) hk)) hu hk

/-! ## The start -/

theorem header_good (cfg : Cfg) : Good cfg [] (if !cfg.json && cfg.headers then ({} : Tool).print csvHeaders else {}) := by
  have key : ∀ t : Tool, t = { log := t.log } → (t.log = [] ∨ ∃ s, t.log = [.stdout s]) → Spec.printed t.log = Spec.lines (header cfg) →
      Good cfg [] t := by
    intro t ht hl hp
    have e1 : t.client = {} := by rw [ht]
    have e2 : t.socks = [] := by rw [ht]
    have e3 : t.queries = [] := by rw [ht]
    have e4 : t.handled = 0 := by rw [ht]
    have e5 : t.conns = 0 := by rw [ht]
    have hrun : Spec.running t.log = [] := by rcases hl with e | ⟨s, e⟩ <;> rw [e] <;> rfl
    have hconn : ∀ n, Spec.conn cfg n t.log = (.none, []) := by intro n; rcases hl with e | ⟨s, e⟩ <;> rw [e] <;> rfl
    refine ⟨⟨by rw [e1]; exact Client.empty_early, by rw [e1, hrun]; rfl, by rw [e3, hrun]; rfl, ?_, ?_, ?_, ?_, ?_, ?_⟩, fun _ => ⟨?_, ?_, ?_⟩, ?_, ?_⟩
    · rw [e4]; rcases hl with e | ⟨s, e⟩ <;> rw [e] <;> rfl
    · intro u; rw [e1]; rcases hl with e | ⟨s, e⟩ <;> rw [e] <;> rfl
    · have : Spec.toPrint cfg t.log = [] := by rcases hl with e | ⟨s, e⟩ <;> rw [e] <;> rfl
      rw [hp, this, List.append_nil, List.append_nil]
    · rw [e2]; exact ⟨List.nodup_nil, fun c h => (by cases h)⟩
    · intro o ho
      rcases hl with e | ⟨s, e⟩ <;> rw [e] at ho
      · cases ho
      · rw [List.mem_singleton] at ho; subst ho; trivial
    · rcases hl with e | ⟨s, e⟩ <;> rw [e] <;> trivial
    · intro n
      rw [hconn]
      show t.conns ≤ n
      rw [e5]; exact Nat.zero_le _
    · intro n l h
      rw [hconn] at h; cases h
    · intro n
      rw [hconn]; rcases hl with e | ⟨s, e⟩ <;> rw [e] <;> rfl
    · rcases hl with e | ⟨s, e⟩ <;> rw [e] <;> rfl
    · rcases hl with e | ⟨s, e⟩ <;> rw [e] <;> rfl
  split
  · rename_i hh
    refine key _ rfl (.inr ⟨_, rfl⟩) ?_
    unfold header
    rw [if_pos hh]; rfl
  · rename_i hh
    refine key _ rfl (.inl rfl) ?_
    unfold header
    rw [if_neg hh]; rfl

theorem startQuery_good {cfg : Cfg} {A : List Bytes} {t : Tool} (h : Good cfg A t) (line : Bytes)
    (hu : (startQuery cfg t none line).client.uids ≤ Client.MAX) (hk : (startQuery cfg t none line).killed = false) :
    Good cfg (A ++ [line]) (startQuery cfg t none line) := by
  obtain ⟨h1, h2⟩ := startQuery_core h.1 none line hu hk
  refine ⟨h1, fun hd => ?_, tally_began h.2.2 h2⟩
  refine began_conns h.1 none line (h.2.1 (distinct_suffix ?_ hd)) (fun n e => by cases e) hd h2
  cases h2 with
  | refused hlog _ _ _ _ => obtain ⟨l, e, -⟩ := hlog; rw [e]; exact ⟨l ++ [_], by rw [List.append_assoc]; rfl⟩
  | started u q mn to hlog _ _ _ _ => rw [hlog]; exact List.suffix_cons _ _

theorem args_client (cfg : Cfg) (args : List Bytes) (t : Tool) : t.client.uids ≤ (args.foldl (fun t a => startQuery cfg t none a) t).client.uids := by
  induction args generalizing t with
  | nil => exact Nat.le_refl _
  | cons a args ih => exact Nat.le_trans (startQuery_client cfg t none a) (ih _)

theorem args_killed {cfg : Cfg} (args : List Bytes) {t : Tool} (h : t.killed = true) : (args.foldl (fun t a => startQuery cfg t none a) t).killed = true :=
  foldl_killed (fun t a h => startQuery_killed h none a) args h

theorem args_good {cfg : Cfg} {A : List Bytes} {t : Tool} (h : Good cfg A t) (args : List Bytes)
    (hu : (args.foldl (fun t a => startQuery cfg t none a) t).client.uids ≤ Client.MAX)
    (hk : (args.foldl (fun t a => startQuery cfg t none a) t).killed = false) :
    Good cfg (A ++ args) (args.foldl (fun t a => startQuery cfg t none a) t) := by
  induction args generalizing t A with
  | nil => rw [List.append_nil]; exact h
  | cons a args ih =>
    rw [List.foldl_cons] at hu hk ⊢
    have := ih (startQuery_good h a (Nat.le_trans (args_client cfg args _) hu) (not_killed (args_killed args) hk)) hu hk
    rw [List.append_assoc] at this
    exact this

theorem run_good (cfg : Cfg) (args : List Bytes) (turns : List (List Ev)) (hu : (run cfg args turns).client.uids ≤ Client.MAX)
    (hk : (run cfg args turns).killed = false) : Good cfg args (run cfg args turns) := by
  unfold run at hu hk ⊢
  have hk1 : (start cfg args).killed = false := not_killed (foldl_killed (fun t e h => turn_killed t e h) turns) hk
  have hu1 : (start cfg args).client.uids ≤ Client.MAX := Nat.le_trans (turns_client cfg turns _) hu
  refine turns_good ?_ turns hu hk
  exact args_good (header_good cfg) args hu1 hk1

/-! ## The end -/

/-- The program has ended at `t'` if and only if it has ended at `t`. -/
def Alike (t' t : Tool) : Prop := t'.exited = t.exited ∧ (.exit ∈ t'.log ↔ .exit ∈ t.log)

theorem Alike.refl (t : Tool) : Alike t t := ⟨rfl, Iff.rfl⟩

theorem Alike.trans {t t' t'' : Tool} (h : Alike t'' t') (h' : Alike t' t) : Alike t'' t := ⟨h.1.trans h'.1, h.2.trans h'.2⟩

theorem emit_alike (t : Tool) {o : Obs} (h : o ≠ .exit) : Alike (t.emit o) t := by
  refine ⟨(emit_fields _ _).2.2.2.2.1, ?_⟩
  unfold Tool.emit
  split
  · exact Iff.rfl
  · show _ ∈ o :: t.log ↔ _
    rw [List.mem_cons]
    exact ⟨fun h' => h'.elim (fun e => absurd e.symm h) id, Or.inr⟩

theorem write_alike (t : Tool) (c : Sock) (s : Bytes) : Alike (t.write c s) t := by
  unfold Tool.write
  split
  · exact emit_alike _ (by simp)
  · exact ⟨rfl, Iff.rfl⟩

theorem close_alike (t : Tool) (n : Nat) : Alike (t.close n) t := (emit_alike _ (by simp)).trans ⟨rfl, Iff.rfl⟩

theorem print_alike (t : Tool) (s : Bytes) : Alike (t.print s) t := emit_alike _ (by simp)

theorem foldl_alike {α : Type} {f : Tool → α → Tool} (hf : ∀ t a, Alike (f t a) t) (l : List α) (t : Tool) : Alike (l.foldl f t) t := by
  induction l generalizing t with
  | nil => exact Alike.refl t
  | cons a l ih => exact (ih (f t a)).trans (hf t a)

theorem respondTo_alike (text s : Bytes) (fin : Bool) (t : Tool) (c : Sock) : Alike (respondTo text s fin t c) t := by
  unfold respondTo
  split
  · dsimp only
    split
    · exact (close_alike _ _).trans (write_alike _ _ _)
    · exact write_alike _ _ _
  · exact Alike.refl t

theorem respond_alike (cfg : Cfg) (t : Tool) (text : Bytes) (r : Option Result) : Alike (respond cfg t text r) t := by
  have h := (foldl_alike (respondTo_alike text (fmt cfg text r) (isFinal r)) (t.print (fmt cfg text r)).socks (t.print (fmt cfg text r))).trans
    (print_alike _ _)
  unfold respond
  dsimp only
  split
  · exact ⟨h.1, h.2⟩
  · exact h

theorem resultCb_alike (cfg : Cfg) (t : Tool) (x : Nat × Nat × Result) : Alike (resultCb cfg t x) t := by
  unfold resultCb
  split
  · exact Alike.refl t
  · rename_i q _
    have h := (respond_alike cfg (t.emit (.result x.1 x.2.2)) q.text (some x.2.2)).trans (emit_alike _ (by simp))
    dsimp only
    split
    · exact ⟨h.1, h.2⟩
    · exact h

theorem moved_alike (cfg : Cfg) (t : Tool) (c : Client.Client) : Alike (t.moved cfg c) t :=
  (foldl_alike (resultCb_alike cfg) _ _).trans ⟨rfl, Iff.rfl⟩

theorem startQuery_alike (cfg : Cfg) (t : Tool) (o : Option Nat) (line : Bytes) : Alike (startQuery cfg t o line) t := by
  unfold startQuery
  split
  · exact (respond_alike _ _ _ _).trans (emit_alike _ (by simp))
  · rename_i q mn to _
    have h := moved_alike cfg t (Client.request (Client.react {} 0) (fun _ => []) t.client q mn to).2
    dsimp only
    split
    · exact (respond_alike _ _ _ _).trans ((emit_alike _ (by simp)).trans h)
    · refine (emit_alike _ (by simp)).trans ?_
      exact ⟨h.1, h.2⟩

theorem step_alike (cfg : Cfg) (t : Tool) (e : Ev) : Alike (step cfg t e) t := by
  unfold step
  split
  · exact Alike.refl t
  · cases e with
    | accept alive =>
      show Alike (accept cfg t alive) t
      have h : Alike (({ t with conns := t.conns + 1, socks := { id := t.conns, alive := alive } :: t.socks } : Tool).emit (.accepted t.conns)) t :=
        (emit_alike _ (by simp)).trans ⟨rfl, Iff.rfl⟩
      unfold accept
      dsimp only
      split
      · exact (write_alike _ _ _).trans h
      · exact h
    | packet n d =>
      dsimp only
      split
      · exact Alike.refl t
      · rename_i c _
        have h : Alike (t.emit (.asked c.id d)) t := emit_alike _ (by simp)
        unfold readCb
        dsimp only
        split
        · exact (close_alike _ _).trans h
        · split
          · exact (close_alike _ _).trans h
          · split
            · exact (write_alike _ _ _).trans h
            · exact (print_alike _ _).trans ((startQuery_alike _ _ _ _).trans ⟨h.1, h.2⟩)
    | hangup n => exact ⟨rfl, Iff.rfl⟩
    | ended n =>
      dsimp only
      split
      · exact Alike.refl t
      · exact (close_alike _ _).trans (emit_alike _ (by simp))
    | rx h res => exact moved_alike _ _ _
    | timeout u => exact moved_alike _ _ _

/-- The program has ended if and only if it was to. -/
def Ended (cfg : Cfg) (t : Tool) : Prop :=
  (t.exited = true ↔ cfg.daemon = false ∧ Spec.answered t.log ≠ 0 ∧ Spec.running t.log = [])
  ∧ (.exit ∈ t.log ↔ t.exited = true)

theorem Core.isEmpty {cfg : Cfg} {t : Tool} (h : Core cfg [] t) : t.queries.isEmpty = true ↔ Spec.running t.log = [] := by
  rw [h.queries, List.isEmpty_iff, List.map_eq_nil_iff]

theorem exited_steps {cfg : Cfg} (evs : List Ev) {t : Tool} (h : t.exited = true) : evs.foldl (step cfg) t = t := by
  induction evs with
  | nil => rfl
  | cons e evs ih =>
    rw [List.foldl_cons]
    have : step cfg t e = t := by unfold step; rw [if_pos (by simp [h])]
    rw [this, ih]

theorem finish_entry {t : Tool} (hn : (t.socks.map (·.id)).Nodup) (hk : t.killed = false) :
    ∃ l, (finish t).log = l ++ .exit :: t.log ∧ ∀ o ∈ l, IsOut o := by
  unfold finish
  dsimp only
  rw [emit_log hk]
  dsimp only
  obtain ⟨w1, -, -⟩ := close_loop t.socks hn ({ t with log := .exit :: t.log } : Tool) hk
  obtain ⟨l, h1, h2⟩ := w1.log
  exact ⟨l, h1, h2⟩

theorem turn_ended {cfg : Cfg} {A : List Bytes} {t : Tool} (h : Good cfg A t) (evs : List Ev) (h0 : t.exited = true → Ended cfg t)
    (h1 : t.exited = false → .exit ∉ t.log) (hu : (turn cfg t evs).client.uids ≤ Client.MAX) (hk : (turn cfg t evs).killed = false) : Ended cfg (turn cfg t evs) := by
  unfold turn at hu hk ⊢
  dsimp only at hu hk ⊢
  obtain ⟨hex, hin⟩ := foldl_alike (step_alike cfg) evs t
  split
  · rename_i hc
    rw [if_pos hc, finish_client] at hu
    rw [if_pos hc, finish_killed] at hk
    have hg := steps_good h evs hu hk
    obtain ⟨l, e, hl⟩ := finish_entry hg.1.ids.1 hk
    obtain ⟨s1, s2, -, -, -, -⟩ := out_same (log := .exit :: (evs.foldl (step cfg) t).log) hl cfg
    simp only [Bool.and_eq_true, bne_iff_ne, Bool.not_eq_true'] at hc
    unfold Ended
    rw [e, s1, s2]
    refine ⟨⟨fun _ => ⟨hc.1.1.2, ?_, hg.1.isEmpty.1 hc.2⟩, fun _ => rfl⟩, fun _ => rfl, fun _ => List.mem_append_right _ List.mem_cons_self⟩
    show Spec.answered (evs.foldl (step cfg) t).log ≠ 0
    rw [← hg.1.handled]; exact hc.1.2
  · rename_i hc
    rw [if_neg hc] at hu hk
    cases he : t.exited with
    | true =>
      rw [exited_steps evs he]
      exact h0 he
    | false =>
      have hg := steps_good h evs hu hk
      rw [he] at hex
      unfold Ended
      rw [hex, ← hg.1.handled, ← hg.1.isEmpty, hin]
      refine ⟨⟨fun h => (by cases h), fun h => ?_⟩, fun h => absurd h (h1 he), fun h => (by cases h)⟩
      refine absurd ?_ hc
      simp only [Bool.and_eq_true, bne_iff_ne, Bool.not_eq_true']
      exact ⟨⟨⟨⟨hk, hex⟩, h.1⟩, h.2.1⟩, h.2.2⟩

theorem turns_ended {cfg : Cfg} {A : List Bytes} {t : Tool} (h : Good cfg A t) (turns : List (List Ev)) (h0 : t.exited = true → Ended cfg t)
    (h00 : t.exited = false → .exit ∉ t.log) (hne : turns ≠ [])
    (hu : (turns.foldl (turn cfg) t).client.uids ≤ Client.MAX) (hk : (turns.foldl (turn cfg) t).killed = false) :
    Ended cfg (turns.foldl (turn cfg) t) := by
  induction turns generalizing t with
  | nil => exact absurd rfl hne
  | cons e evs ih =>
    rw [List.foldl_cons] at hu hk ⊢
    have hu' := Nat.le_trans (turns_client cfg evs _) hu
    have hk' : (turn cfg t e).killed = false := not_killed (foldl_killed (fun t e h => turn_killed t e h) evs) hk
    have h1 := turn_ended h e h0 h00 hu' hk'
    by_cases he : evs = []
    · subst he; exact h1
    · exact ih (turn_good h e hu' hk') (fun _ => h1) (fun e hm => by rw [h1.2.1 hm] at e; cases e) he hu hk

theorem start_exited (cfg : Cfg) (args : List Bytes) : (start cfg args).exited = false ∧ .exit ∉ (start cfg args).log := by
  have h : Alike (start cfg args) {} := by
    unfold start
    dsimp only
    refine (foldl_alike (fun t a => startQuery_alike cfg t none a) _ _).trans ?_
    split
    · exact print_alike _ _
    · exact Alike.refl _
  exact ⟨h.1, fun hm => (by cases h.2.1 hm)⟩

theorem run_ended (cfg : Cfg) (args : List Bytes) (turns : List (List Ev)) (hne : turns ≠ []) (hu : (run cfg args turns).client.uids ≤ Client.MAX)
    (hk : (run cfg args turns).killed = false) : Ended cfg (run cfg args turns) := by
  have hk1 : (start cfg args).killed = false := not_killed (foldl_killed (fun t e h => turn_killed t e h) turns) hk
  have hu1 : (start cfg args).client.uids ≤ Client.MAX := Nat.le_trans (turns_client cfg turns _) hu
  refine turns_ended (A := args) ?_ turns ?_ (fun _ => (start_exited cfg args).2) hne hu hk
  · exact args_good (header_good cfg) args hu1 hk1
  · intro h
    rw [(start_exited cfg args).1] at h; cases h

end Verif.Tool
