import Verif.Tool.Conns
/-!
# The main loop
-/
namespace Verif.Tool
open Verif Verif.Mslookup

/-! ## Things that do not concern lookups -/

def Quiet : Obs → Prop
  | .accepted _ | .asked _ _ | .ended _ | .exit => True
  | _ => False

theorem core_quiet {cfg : Cfg} {t t' : Tool} (h : Core cfg [] t) {o : Obs} (hq : Quiet o) (hlog : ∃ l, t'.log = l ++ o :: t.log ∧ ∀ o ∈ l, IsOut o)
    (hp : Spec.printed t'.log = Spec.printed t.log) (h1 : t'.client = t.client) (h2 : t'.queries = t.queries) (h3 : t'.handled = t.handled)
    (h4 : (t'.socks.map (·.id)).Nodup ∧ ∀ c ∈ t'.socks, c.id < t'.conns) : Core cfg [] t' := by
  obtain ⟨l, hl1, hl2⟩ := hlog
  obtain ⟨s1, s2, s3, s4, s5, s6⟩ := out_same (log := o :: t.log) hl2 cfg
  have q : Spec.running (o :: t.log) = Spec.running t.log ∧ Spec.answered (o :: t.log) = Spec.answered t.log
      ∧ (∀ u, Spec.results u (o :: t.log) = Spec.results u t.log) ∧ Spec.toPrint cfg (o :: t.log) = Spec.toPrint cfg t.log := by
    cases o with
    | accepted n => exact ⟨rfl, rfl, fun _ => rfl, List.append_nil _⟩
    | asked n d => exact ⟨rfl, rfl, fun _ => rfl, List.append_nil _⟩
    | ended n => exact ⟨rfl, rfl, fun _ => rfl, List.append_nil _⟩
    | exit => exact ⟨rfl, rfl, fun _ => rfl, List.append_nil _⟩
    | _ => exact hq.elim
  obtain ⟨q1, q2, q3, q4⟩ := q
  refine ⟨by rw [h1]; exact h.rest, ?_, ?_, ?_, ?_, ?_, h4, ?_, ?_⟩
  · rw [h1, hl1, s1, q1]; exact h.live
  · rw [h2, hl1, s1, q1]; exact h.queries
  · rw [h3, hl1, s2, q2]; exact h.handled
  · intro u; rw [hl1, s3, q3, h1]; exact h.results u
  · rw [hp, hl1, s5, q4]; exact h.printed
  · intro x hx
    rw [h1]
    rw [hl1] at hx
    rcases List.mem_append.1 hx with hx | hx
    · have := hl2 x hx
      cases x <;> first | trivial | exact this.elim
    · rcases List.mem_cons.1 hx with rfl | hx
      · cases x <;> first | trivial | exact hq.elim
      · exact h.right x hx
  · rw [hl1]
    refine order_out hl2 ?_
    cases o <;> first | exact h.order | exact hq.elim

theorem quiet_running {o : Obs} (hq : Quiet o) {l log : List Obs} (hl : ∀ o ∈ l, IsOut o) :
    Spec.running (l ++ o :: log) = Spec.running log ∧ (Spec.Distinct (l ++ o :: log) ↔ Spec.Distinct log) := by
  obtain ⟨s1, -, -, -, -, s6⟩ := out_same (log := o :: log) hl { ip := fun _ => [] }
  rw [s1, s6]
  cases o with
  | accepted n => exact ⟨rfl, Iff.rfl⟩
  | asked n d => exact ⟨rfl, Iff.rfl⟩
  | ended n => exact ⟨rfl, Iff.rfl⟩
  | exit => exact ⟨rfl, Iff.rfl⟩
  | _ => exact hq.elim

/-- Something happens to connection `m` only. -/
theorem conns_one {cfg : Cfg} {X : Option (Nat × Bytes)} {t t' : Tool} (h : Conns cfg none t) (m : Nat) {o : Obs} (hq : Quiet o)
    (hlog : ∃ l, t'.log = l ++ o :: t.log ∧ ∀ o ∈ l, IsOut o)
    (hother : ∀ n, n ≠ m → ∀ s, Spec.next cfg n s o = (s, []))
    (hgot : ∀ n, n ≠ m → Spec.got n t'.log = Spec.got n t.log)
    (hsocks : ∀ c, c.id ≠ m → (c ∈ t'.socks ↔ c ∈ t.socks))
    (hconns : ∀ n, n ≠ m → (t'.conns ≤ n ↔ t.conns ≤ n))
    (hm : Fits t' m (Spec.next cfg m (Spec.conn cfg m t.log).1 o).1)
    (hX : ∀ l, (Spec.next cfg m (Spec.conn cfg m t.log).1 o).1 = .asking l → X = some (m, l))
    (hg : Spec.got m t'.log = Spec.got m t.log ++ (Spec.next cfg m (Spec.conn cfg m t.log).1 o).2) : Conns cfg X t' := by
  obtain ⟨l, hl1, hl2⟩ := hlog
  obtain ⟨s1, -⟩ := quiet_running (log := t.log) hq hl2
  obtain ⟨-, -, -, s4, -, -⟩ := out_same (log := o :: t.log) hl2 cfg
  have hconn : ∀ n, Spec.conn cfg n t'.log = ((Spec.next cfg n (Spec.conn cfg n t.log).1 o).1,
      (Spec.conn cfg n t.log).2 ++ (Spec.next cfg n (Spec.conn cfg n t.log).1 o).2) := by
    intro n; rw [hl1, s4]; rfl
  refine ⟨fun n => ?_, fun n l => ?_, fun n => ?_⟩
  · by_cases e : n = m
    · rw [e, hconn]; exact hm
    · rw [hconn, hother n e]
      have hf := h.fits n
      dsimp only
      cases hs : (Spec.conn cfg n t.log).1 with
      | none => rw [hs] at hf; exact (hconns n e).2 hf
      | over =>
        rw [hs] at hf
        refine ⟨Nat.lt_of_not_le fun h => ?_, fun c hc e' => ?_⟩
        · exact absurd hf.1 (Nat.not_lt.2 ((hconns n e).1 h))
        · exact hf.2 c ((hsocks c (by rw [e']; exact e)).1 hc) e'
      | fresh =>
        rw [hs] at hf
        obtain ⟨c, hc, e1, e2⟩ := hf
        exact ⟨c, (hsocks c (by rw [e1]; exact e)).2 hc, e1, e2⟩
      | asking l => exact absurd hs (h.rest n l)
      | waiting u dom =>
        rw [hs] at hf
        obtain ⟨⟨c, hc, e1, e2⟩, h3, h4⟩ := hf
        exact ⟨⟨c, (hsocks c (by rw [e1]; exact e)).2 hc, e1, e2⟩, by rw [hl1, s1]; exact h3, h4⟩
  · intro ha
    rw [hconn] at ha
    by_cases e : n = m
    · subst e; exact hX l ha
    · rw [hother n e] at ha
      exact absurd ha (h.rest n l)
  · rw [hconn]
    by_cases e : n = m
    · subst e
      rw [hg, h.got]
    · rw [hother n e, hgot n e, h.got, List.append_nil]

/-! ## The callbacks of connections -/

theorem write_client (t : Tool) (c : Sock) (s : Bytes) : (t.write c s).client = t.client := by
  unfold Tool.write
  split
  · exact (emit_fields _ _).2.1
  · rfl

theorem close_client (t : Tool) (n : Nat) : (t.close n).client = t.client := (emit_fields _ _).2.1

theorem print_client (t : Tool) (s : Bytes) : (t.print s).client = t.client := (emit_fields _ _).2.1

theorem foldl_client {α : Type} {f : Tool → α → Tool} (hf : ∀ t a, (f t a).client = t.client) (l : List α) (t : Tool) : (l.foldl f t).client = t.client := by
  induction l generalizing t with
  | nil => rfl
  | cons a l ih => rw [List.foldl_cons, ih, hf]

theorem respondTo_client (text s : Bytes) (fin : Bool) (t : Tool) (c : Sock) : (respondTo text s fin t c).client = t.client := by
  unfold respondTo
  split
  · dsimp only
    split
    · rw [close_client, write_client]
    · exact write_client _ _ _
  · rfl

theorem respond_client (cfg : Cfg) (t : Tool) (text : Bytes) (r : Option Result) : (respond cfg t text r).client = t.client := by
  unfold respond
  dsimp only
  split <;> exact (foldl_client (respondTo_client _ _ _) _ _).trans (print_client _ _)

theorem resultCb_client (cfg : Cfg) (t : Tool) (x : Nat × Nat × Result) : (resultCb cfg t x).client = t.client := by
  unfold resultCb
  split
  · rfl
  · dsimp only
    split <;> exact (respond_client _ _ _ _).trans (emit_fields _ _).2.1

theorem moved_client (cfg : Cfg) (t : Tool) (c : Client.Client) : (t.moved cfg c).client = c := foldl_client (resultCb_client cfg) _ _

theorem startQuery_client (cfg : Cfg) (t : Tool) (o : Option Nat) (line : Bytes) : t.client.uids ≤ (startQuery cfg t o line).client.uids := by
  unfold startQuery
  split
  · unfold refuse
    rw [respond_client, (emit_fields _ _).2.1]
    exact Nat.le_refl _
  · dsimp only
    split
    · unfold refuse
      rw [respond_client, (emit_fields _ _).2.1, moved_client]
      exact (Client.request_uids (Client.react_good (b := 0) {} 0) _ _ _ _ _).1.1
    · rw [(emit_fields _ _).2.1]
      show _ ≤ (t.moved cfg _).client.uids
      rw [moved_client]
      exact (Client.request_uids (Client.react_good (b := 0) {} 0) _ _ _ _ _).1.1

theorem finish_client (t : Tool) : (finish t).client = t.client := by
  unfold finish
  dsimp only
  exact (foldl_client (f := fun (t : Tool) (c : Sock) => t.close c.id) (fun t c => close_client t c.id) _ _).trans (emit_fields _ _).2.1

theorem readCb_client (cfg : Cfg) (t : Tool) (c : Sock) (d : Bytes) : t.client.uids ≤ (readCb cfg t c d).client.uids := by
  unfold readCb
  dsimp only
  split
  · rw [close_client, (emit_fields _ _).2.1]; exact Nat.le_refl _
  · split
    · rw [close_client, (emit_fields _ _).2.1]; exact Nat.le_refl _
    · split
      · rw [write_client, (emit_fields _ _).2.1]; exact Nat.le_refl _
      · rw [print_client]
        refine Nat.le_trans ?_ (startQuery_client _ _ _ _)
        show _ ≤ (t.emit _).client.uids
        rw [(emit_fields _ _).2.1]; exact Nat.le_refl _

theorem step_client (cfg : Cfg) (t : Tool) (e : Ev) : t.client.uids ≤ (step cfg t e).client.uids := by
  unfold step
  split
  · exact Nat.le_refl _
  · cases e with
    | accept alive =>
      show _ ≤ (accept cfg t alive).client.uids
      unfold accept
      dsimp only
      split
      · rw [write_client, (emit_fields _ _).2.1]; exact Nat.le_refl _
      · rw [(emit_fields _ _).2.1]; exact Nat.le_refl _
    | packet n d =>
      dsimp only
      split
      · exact Nat.le_refl _
      · exact readCb_client _ _ _ _
    | hangup n => exact Nat.le_refl _
    | ended n =>
      dsimp only
      split
      · exact Nat.le_refl _
      · rw [close_client, (emit_fields _ _).2.1]; exact Nat.le_refl _
    | rx h res =>
      dsimp only
      rw [moved_client]
      exact (Client.step_uids _ _ _ _).1
    | timeout u =>
      dsimp only
      rw [moved_client]
      exact (Client.step_uids _ _ _ _).1

/-! ## Killed -/

theorem readCb_killed {cfg : Cfg} {t : Tool} (h : t.killed = true) (c : Sock) (d : Bytes) : (readCb cfg t c d).killed = true := by
  unfold readCb
  dsimp only
  have he : (t.emit (.asked c.id d)).killed = true := by rw [emit_killed]; exact h
  split
  · rw [close_killed]; exact he
  · split
    · rw [close_killed]; exact he
    · split
      · exact write_killed he _ _
      · rw [print_killed]
        refine startQuery_killed ?_ _ _
        exact he

theorem step_killed {cfg : Cfg} {t : Tool} (e : Ev) (h : t.killed = true) : (step cfg t e).killed = true := by
  unfold step
  rw [if_pos (by simp [h])]
  exact h

theorem finish_killed (t : Tool) : (finish t).killed = t.killed := by
  unfold finish
  dsimp only
  have : ∀ (l : List Sock) (t : Tool), (l.foldl (fun t c => t.close c.id) t).killed = t.killed := by
    intro l
    induction l with
    | nil => intro t; rfl
    | cons c l ih => intro t; rw [List.foldl_cons, ih, close_killed]
  rw [this, emit_killed]

/-! ## Suffixes -/

theorem distinct_suffix {l l' : List Obs} (h : l <:+ l') (hd : Spec.Distinct l') : Spec.Distinct l := by
  obtain ⟨p, rfl⟩ := h
  induction p with
  | nil => exact hd
  | cons o p ih =>
    refine ih ?_
    rw [List.cons_append] at hd
    cases o with
    | started o l u q mn to => exact hd.1
    | refused o l => exact hd.1
    | _ => exact hd

/-! ## Counting -/

/-- All queries have been counted, and those of the command line are `A`. -/
structure Tally (A : List Bytes) (log : List Obs) : Prop where
  count : Spec.answered log + (Spec.running log).length = (Spec.queries log).length
  cmd : Spec.ofCommandLine log = A

theorem tally_out {A : List Bytes} {l log : List Obs} (h : Tally A log) (hl : ∀ o ∈ l, IsOut o) : Tally A (l ++ log) := by
  obtain ⟨s1, s2, -, -, -, -⟩ := out_same (log := log) hl { ip := fun _ => [] }
  have hq : Spec.queries (l ++ log) = Spec.queries log := by
    clear s1 s2
    induction l with
    | nil => rfl
    | cons o l ih =>
      have ho := hl o List.mem_cons_self
      have : Spec.query o = [] := by cases o <;> first | rfl | exact ho.elim
      rw [List.cons_append, Spec.queries, this, List.append_nil]
      exact ih (fun o h => hl o (List.mem_cons_of_mem _ h))
  exact ⟨by rw [s1, s2, hq]; exact h.count, by unfold Spec.ofCommandLine; rw [hq]; exact h.cmd⟩

theorem tally_quiet {A : List Bytes} {l log : List Obs} {o : Obs} (h : Tally A log) (hq : Quiet o) (hl : ∀ o ∈ l, IsOut o) :
    Tally A (l ++ o :: log) := by
  refine tally_out ?_ hl
  have h2 : Spec.ofCommandLine (o :: log) = A := by
    unfold Spec.ofCommandLine Spec.queries
    have : Spec.query o = [] := by cases o <;> first | rfl | exact hq.elim
    rw [this, List.append_nil]; exact h.cmd
  refine ⟨?_, h2⟩
  have := h.count
  cases o with
  | accepted n => simpa [Spec.answered, Spec.running, Spec.queries, Spec.query] using this
  | asked n d => simpa [Spec.answered, Spec.running, Spec.queries, Spec.query] using this
  | ended n => simpa [Spec.answered, Spec.running, Spec.queries, Spec.query] using this
  | exit => simpa [Spec.answered, Spec.running, Spec.queries, Spec.query] using this
  | _ => exact hq.elim

theorem filter_one {l : List (Nat × Bytes)} (hn : (l.map (·.1)).Nodup) {u : Nat} {dom : Bytes} (h : (u, dom) ∈ l) :
    (l.filter (fun x => decide (x.1 ≠ u))).length + 1 = l.length := by
  induction l with
  | nil => cases h
  | cons x l ih =>
    rw [List.map_cons, List.nodup_cons] at hn
    rw [List.filter_cons]
    rcases List.mem_cons.1 h with e | h'
    · subst e
      rw [if_neg (by simp)]
      have : l.filter (fun x => decide (x.1 ≠ u)) = l := by
        rw [List.filter_eq_self]
        intro y hy
        have : y.1 ≠ u := fun e => hn.1 (List.mem_map.2 ⟨y, hy, e⟩)
        simpa using this
      rw [this]; rfl
    · have : x.1 ≠ u := fun e => hn.1 (by rw [e]; exact List.mem_map_of_mem (f := (·.1)) h')
      rw [if_pos (by simpa using this), List.length_cons, List.length_cons, ih hn.2 h']

theorem tally_result {A : List Bytes} {l log : List Obs} {u : Nat} {dom : Bytes} {r : Result} (h : Tally A log)
    (hn : ((Spec.running log).map (·.1)).Nodup) (hu : (u, dom) ∈ Spec.running log) (hl : ∀ o ∈ l, IsOut o) : Tally A (l ++ .result u r :: log) := by
  refine tally_out ⟨?_, ?_⟩ hl
  · have := h.count
    have hf := filter_one hn hu
    have hq : Spec.queries (.result u r :: log) = Spec.queries log := List.append_nil _
    rw [hq]
    unfold Spec.answered Spec.running
    split <;> omega
  · have hq : Spec.queries (.result u r :: log) = Spec.queries log := List.append_nil _
    unfold Spec.ofCommandLine
    rw [hq]; exact h.cmd

theorem tally_began {cfg : Cfg} {A : List Bytes} {t t' : Tool} {o : Option Nat} {line : Bytes} (h : Tally A t.log) (hb : Began cfg t t' o line) :
    Tally (if o.isNone then A ++ [line] else A) t'.log := by
  have cmd : ∀ (x : Obs), Spec.query x = [(o, line)] → Spec.ofCommandLine (x :: t.log) = if o.isNone then A ++ [line] else A := by
    intro x hx
    unfold Spec.ofCommandLine Spec.queries
    rw [hx, List.filter_append, List.map_append]
    have := h.cmd
    unfold Spec.ofCommandLine at this
    rw [this]
    cases o with
    | none => rfl
    | some n => exact List.append_nil _
  have hcount := h.count
  cases hb with
  | refused hlog _ _ _ _ =>
    obtain ⟨l, e, hl⟩ := hlog
    rw [e]
    refine tally_out ⟨?_, cmd _ rfl⟩ hl
    show Spec.answered t.log + 1 + (Spec.running t.log).length = (Spec.queries t.log ++ [(o, line)]).length
    rw [List.length_append]
    simp only [List.length_cons, List.length_nil]
    omega
  | started u q mn to hlog _ _ _ _ =>
    rw [hlog]
    refine ⟨?_, cmd _ rfl⟩
    show Spec.answered t.log + ((Spec.running t.log).length + 1) = (Spec.queries t.log ++ [(o, line)]).length
    rw [List.length_append]
    simp only [List.length_cons, List.length_nil]
    omega

/-! ## The steps -/

/-- What holds between the callbacks. -/
def Good (cfg : Cfg) (A : List Bytes) (t : Tool) : Prop := Core cfg [] t ∧ (Spec.Distinct t.log → Conns cfg none t) ∧ Tally A t.log

theorem Good.ids_new {cfg : Cfg} {t : Tool} (h : Core cfg [] t) : ∀ c ∈ t.socks, c.id ≠ t.conns := fun c hc e => by
  have := h.ids.2 c hc
  omega

theorem conn_new {cfg : Cfg} {t : Tool} (hc : Core cfg [] t) (h : Conns cfg none t) : (Spec.conn cfg t.conns t.log).1 = .none := by
  have hf := h.fits t.conns
  have hno := Good.ids_new hc
  cases hs : (Spec.conn cfg t.conns t.log).1 with
  | none => rfl
  | over => rw [hs] at hf; exact absurd hf.1 (Nat.lt_irrefl _)
  | fresh => rw [hs] at hf; obtain ⟨c, h1, h2, -⟩ := hf; exact absurd h2 (hno c h1)
  | asking l => exact absurd hs (h.rest _ l)
  | waiting u dom => rw [hs] at hf; obtain ⟨⟨c, h1, h2, -⟩, -⟩ := hf; exact absurd h2 (hno c h1)

theorem accept_good {cfg : Cfg} {A : List Bytes} {t : Tool} (h : Good cfg A t) (alive : Bool) (hk : (accept cfg t alive).killed = false) : Good cfg A (accept cfg t alive) := by
  obtain ⟨hc, hcs, htal⟩ := h
  have hk0 : t.killed = false := by
    refine not_killed (fun h => ?_) hk
    unfold accept
    dsimp only
    split
    · exact write_killed (by rw [emit_killed]; exact h) _ _
    · rw [emit_killed]; exact h
  have key : ∃ l, (accept cfg t alive).log = l ++ .accepted t.conns :: t.log ∧ (∀ o ∈ l, IsOut o)
      ∧ (∀ n, Spec.got n (accept cfg t alive).log = Spec.got n t.log
          ++ if t.conns = n then (if !cfg.json && cfg.headers then [.line csvHeaders] else []) else [])
      ∧ Spec.printed (accept cfg t alive).log = Spec.printed t.log ∧ (accept cfg t alive).client = t.client
      ∧ (accept cfg t alive).queries = t.queries ∧ (accept cfg t alive).handled = t.handled
      ∧ (accept cfg t alive).socks = { id := t.conns, alive := alive } :: t.socks ∧ (accept cfg t alive).conns = t.conns + 1 := by
    unfold accept at hk ⊢
    dsimp only at hk ⊢
    rw [emit_log (t := ({ t with conns := t.conns + 1, socks := { id := t.conns, alive := alive } :: t.socks } : Tool)) hk0] at hk ⊢
    split
    · rename_i hh
      rw [if_pos hh] at hk
      obtain ⟨w1, w2, w3⟩ := write_writes hk
      obtain ⟨l, hl1, hl2⟩ := w1.log
      refine ⟨l, hl1, hl2, fun n => ?_, w1.printed.trans (List.append_nil _), w1.client, w1.queries, w3, w2, w1.conns⟩
      rw [w1.got]
      show (Spec.got n t.log ++ []) ++ _ = _
      rw [List.append_nil]
    · refine ⟨[], rfl, fun o h => (by cases h), fun n => ?_, rfl, rfl, rfl, rfl, rfl, rfl⟩
      show Spec.got n t.log ++ [] = _
      split <;> rfl
  obtain ⟨l, hl1, hl2, hgot, hp, k1, k2, k3, k4, k5⟩ := key
  refine ⟨core_quiet hc (o := .accepted t.conns) trivial ⟨l, hl1, hl2⟩ hp k1 k2 k3 ?_, fun hd => ?_, by rw [hl1]; exact tally_quiet htal (o := .accepted t.conns) trivial hl2⟩
  · rw [k4, k5, List.map_cons, List.nodup_cons]
    refine ⟨⟨?_, hc.ids.1⟩, fun c hm => ?_⟩
    · intro hm
      obtain ⟨c, h1, h2⟩ := List.mem_map.1 hm
      exact Good.ids_new hc c h1 h2
    · rcases List.mem_cons.1 hm with rfl | hm
      · exact Nat.lt_succ_self _
      · exact Nat.lt_succ_of_lt (hc.ids.2 c hm)
  · rw [hl1] at hd
    have hcs := hcs ((quiet_running (o := .accepted t.conns) trivial hl2).2.1 hd)
    have hnew := conn_new hc hcs
    refine conns_one hcs t.conns (o := .accepted t.conns) trivial ⟨l, hl1, hl2⟩ ?_ ?_ ?_ ?_ ?_ ?_ ?_
    · intro n hn s
      cases s with
      | none => exact if_neg (fun e => hn e.symm)
      | _ => rfl
    · intro n hn
      rw [hgot, if_neg (fun e => hn e.symm), List.append_nil]
    · intro c hn
      rw [k4, List.mem_cons]
      exact ⟨fun h => h.elim (fun e => absurd (by rw [e]) hn) id, Or.inr⟩
    · intro n hn
      rw [k5]; omega
    · rw [hnew]
      show Fits _ _ (if t.conns = t.conns then _ else _ : Spec.Conn × List Spec.Out).1
      rw [if_pos rfl]
      exact ⟨_, by rw [k4]; exact List.mem_cons_self, rfl, rfl⟩
    · intro l hl
      rw [hnew] at hl
      have hl : (if t.conns = t.conns then _ else _ : Spec.Conn × List Spec.Out).1 = Spec.Conn.asking l := hl
      rw [if_pos rfl] at hl
      cases hl
    · rw [hgot, if_pos rfl, hnew]
      congr 1
      show _ = (if t.conns = t.conns then _ else _ : Spec.Conn × List Spec.Out).2
      rw [if_pos rfl]

/-- The state of an open connection. -/
theorem conn_open {cfg : Cfg} {t : Tool} (hc : Core cfg [] t) (h : Conns cfg none t) {c : Sock} (hm : c ∈ t.socks) :
    (c.query = [] ∧ (Spec.conn cfg c.id t.log).1 = .fresh) ∨ ∃ u, c.query ≠ [] ∧ (Spec.conn cfg c.id t.log).1 = .waiting u c.query
      ∧ (u, c.query) ∈ Spec.running t.log := by
  have hf := h.fits c.id
  cases hs : (Spec.conn cfg c.id t.log).1 with
  | none =>
    rw [hs] at hf
    have hf : t.conns ≤ c.id := hf
    have := hc.ids.2 c hm
    omega
  | over => rw [hs] at hf; exact absurd rfl (hf.2 c hm)
  | fresh =>
    rw [hs] at hf
    obtain ⟨c', h1, h2, h3⟩ := hf
    rw [sock_unique hc.ids.1 h1 hm h2] at h3
    exact .inl ⟨h3, rfl⟩
  | asking l => exact absurd hs (h.rest _ l)
  | waiting u dom =>
    rw [hs] at hf
    obtain ⟨⟨c', h1, h2, h3⟩, h4, h5⟩ := hf
    rw [sock_unique hc.ids.1 h1 hm h2] at h3
    subst h3
    exact .inr ⟨u, h5, rfl, h4⟩

/-- A connection is closed after `o`. -/
theorem closed_good {cfg : Cfg} {A : List Bytes} {t : Tool} (h : Good cfg A t) (hk : t.killed = false) {c : Sock} (hm : c ∈ t.socks) {o : Obs} (hq : Quiet o)
    (hother : ∀ n, n ≠ c.id → ∀ s, Spec.next cfg n s o = (s, [])) (hopen : ∀ s, s = .fresh ∨ (∃ u d, s = .waiting u d) → Spec.next cfg c.id s o = (.over, [.close]))
    (hng : ∀ n, Spec.gets n o = []) (hnp : ∀ log, Spec.printed (o :: log) = Spec.printed log) : Good cfg A ((t.emit o).close c.id) := by
  obtain ⟨hc, hcs, htal⟩ := h
  have hkc : (({ t with log := o :: t.log } : Tool).close c.id).killed = false := by rw [close_killed]; exact hk
  rw [emit_log hk]
  obtain ⟨w1, w2, w3⟩ := close_writes hkc
  obtain ⟨l, hl1, hl2⟩ := w1.log
  have hgot : ∀ n, Spec.got n (({ t with log := o :: t.log } : Tool).close c.id).log = Spec.got n t.log ++ if c.id = n then [.close] else [] := by
    intro n
    rw [w1.got]
    show (Spec.got n t.log ++ Spec.gets n o) ++ _ = _
    rw [hng, List.append_nil]
  refine ⟨core_quiet hc hq ⟨l, hl1, hl2⟩ ?_ w1.client w1.queries w3 ?_, fun hd => ?_, by rw [hl1]; exact tally_quiet htal hq hl2⟩
  · rw [w1.printed, List.append_nil]; exact hnp _
  · rw [w2, w1.conns]
    exact ⟨List.Nodup.sublist (List.filter_sublist.map _) hc.ids.1, fun x hx => hc.ids.2 x (List.mem_filter.1 hx).1⟩
  · rw [hl1] at hd
    have hcs := hcs ((quiet_running hq hl2).2.1 hd)
    have hst : Spec.next cfg c.id (Spec.conn cfg c.id t.log).1 o = (.over, [.close]) := by
      rcases conn_open hc hcs hm with ⟨-, e⟩ | ⟨u, -, e, -⟩
      · exact hopen _ (.inl e)
      · exact hopen _ (.inr ⟨u, _, e⟩)
    refine conns_one hcs c.id hq ⟨l, hl1, hl2⟩ hother ?_ ?_ ?_ ?_ ?_ ?_
    · intro n hn
      rw [hgot, if_neg (fun e => hn e.symm), List.append_nil]
    · intro x hx
      rw [w2]
      exact ⟨fun h => (List.mem_filter.1 h).1, fun h => List.mem_filter.2 ⟨h, by simpa using hx⟩⟩
    · intro n hn; rw [w1.conns]
    · rw [hst]
      refine ⟨?_, fun x hx e => ?_⟩
      · rw [w1.conns]; exact hc.ids.2 c hm
      · rw [w2] at hx
        have := (List.mem_filter.1 hx).2
        simp [e] at this
    · intro l hl
      rw [hst] at hl
      cases hl
    · rw [hst, hgot, if_pos rfl]

theorem next_asked {cfg : Cfg} {n m : Nat} (h : n ≠ m) (d : Bytes) (s : Spec.Conn) : Spec.next cfg n s (.asked m d) = (s, []) := by
  cases s with
  | fresh => exact if_neg (fun e => h e.symm)
  | waiting u dom => exact if_neg (fun e => h e.symm)
  | _ => rfl

theorem readCb_good {cfg : Cfg} {A : List Bytes} {t : Tool} (h : Good cfg A t) {c : Sock} (hm : c ∈ t.socks) (d : Bytes)
    (hu : (readCb cfg t c d).client.uids ≤ Client.MAX) (hk : (readCb cfg t c d).killed = false) : Good cfg A (readCb cfg t c d) := by
  have hk0 : t.killed = false := not_killed (fun h => readCb_killed h c d) hk
  by_cases hl : Spec.lineIn d = none
  · have hdef : readCb cfg t c d = (t.emit (.asked c.id d)).close c.id := by
      unfold readCb
      dsimp only
      unfold Spec.lineIn at hl
      split
      · rfl
      · rename_i hn
        rw [if_pos (Nat.lt_of_not_le hn), ← firstLine_eq] at hl
        rw [hl]
    rw [hdef]
    refine closed_good h hk0 hm (o := .asked c.id d) trivial (fun n hn s => next_asked hn d s) ?_ (fun n => rfl) (fun log => rfl)
    rintro s (rfl | ⟨u, dom, rfl⟩)
    · show (if c.id = c.id then _ else _) = _
      rw [if_pos rfl, hl]
    · show (if c.id = c.id then _ else _) = _
      rw [if_pos rfl, hl]
  · obtain ⟨line, hl⟩ := Option.ne_none_iff_exists'.1 hl
    have hl' : ¬ d.length ≥ 1024 ∧ firstLine d = some line := by
      unfold Spec.lineIn at hl
      split at hl
      · rename_i hlt
        exact ⟨Nat.not_le.2 hlt, by rw [firstLine_eq]; exact hl⟩
      · cases hl
    obtain ⟨hc, hcs, htal⟩ := h
    by_cases hq : c.query = []
    · have hdef : readCb cfg t c d = (startQuery cfg { t.emit (.asked c.id d) with
          socks := (t.emit (.asked c.id d)).socks.map (fun x => if x.id = c.id then { x with query := (parts line).2 } else x) } (some c.id) line).print
            (b "query: " ++ line) := by
        unfold readCb
        dsimp only
        rw [if_neg hl'.1, hl'.2]
        dsimp only
        rw [if_neg (by simp [hq])]
      rw [hdef] at hk hu ⊢
      rw [emit_log hk0] at hk hu ⊢
      dsimp only at hk hu ⊢
      rw [parts_eq] at hk hu ⊢
      generalize ht1 : ({ t with
        log := .asked c.id d :: t.log
        socks := t.socks.map (fun x => if x.id = c.id then { x with query := Spec.domain line } else x) } : Tool) = t1 at hk hu ⊢
      have e1 : t1.log = .asked c.id d :: t.log := by rw [← ht1]
      have e2 : t1.socks = t.socks.map (fun x => if x.id = c.id then { x with query := Spec.domain line } else x) := by rw [← ht1]
      have e3 : t1.conns = t.conns := by rw [← ht1]
      have e4 : t1.client = t.client := by rw [← ht1]
      have e5 : t1.queries = t.queries := by rw [← ht1]
      have e6 : t1.handled = t.handled := by rw [← ht1]
      have hid : ∀ x : Sock, (if x.id = c.id then { x with query := Spec.domain line } else x).id = x.id := by
        intro x; split <;> rfl
      have hids : t1.socks.map (·.id) = t.socks.map (·.id) := by
        rw [e2, List.map_map]
        exact List.map_congr_left (fun x _ => hid x)
      have hc1 : Core cfg [] t1 := by
        refine core_quiet hc (o := .asked c.id d) trivial ⟨[], e1, fun o h => (by cases h)⟩ (by rw [e1]; rfl) e4 e5 e6 ⟨by rw [hids]; exact hc.ids.1, ?_⟩
        intro x hx
        rw [e2] at hx
        obtain ⟨y, hy, rfl⟩ := List.mem_map.1 hx
        rw [hid, e3]; exact hc.ids.2 y hy
      have hk1 : (startQuery cfg t1 (some c.id) line).killed = false := by rw [print_killed] at hk; exact hk
      have hu1 : (startQuery cfg t1 (some c.id) line).client.uids ≤ Client.MAX := by rw [print_client] at hu; exact hu
      obtain ⟨hc2, hb⟩ := startQuery_core hc1 (some c.id) line hu1 hk1
      obtain ⟨w1, w2, w3⟩ := print_writes hk
      obtain ⟨l, hl1, hl2⟩ := w1.log
      obtain ⟨s1, s2, s3, s4, s5, s6⟩ := out_same (log := (startQuery cfg t1 (some c.id) line).log) hl2 cfg
      refine ⟨?_, ?_, ?_⟩
      · refine ⟨by rw [w1.client]; exact hc2.rest, ?_, ?_, ?_, ?_, ?_, by rw [w2, w1.conns]; exact hc2.ids, ?_, ?_⟩
        · rw [w1.client, hl1, s1]; exact hc2.live
        · rw [w1.queries, hl1, s1]; exact hc2.queries
        · rw [w3, hl1, s2]; exact hc2.handled
        · intro u; rw [hl1, s3, w1.client]; exact hc2.results u
        · rw [List.append_nil, w1.printed, hl1, s5]; exact hc2.printed
        · intro x hx
          rw [w1.client]
          rw [hl1] at hx
          rcases List.mem_append.1 hx with hx | hx
          · have := hl2 x hx
            cases x <;> first | trivial | exact this.elim
          · exact hc2.right x hx
        · rw [hl1]
          exact order_out hl2 hc2.order
      · intro hd
        rw [hl1] at hd
        have hd := s6.1 hd
        have hsuf : t.log <:+ (startQuery cfg t1 (some c.id) line).log := by
          have : t1.log <:+ (startQuery cfg t1 (some c.id) line).log := by
            cases hb with
            | refused hlog _ _ _ _ => obtain ⟨l, e, -⟩ := hlog; rw [e]; exact ⟨l ++ [_], by rw [List.append_assoc]; rfl⟩
            | started u q mn to hlog _ _ _ _ => rw [hlog]; exact List.suffix_cons _ _
          refine List.IsSuffix.trans ?_ this
          rw [e1]; exact List.suffix_cons _ _
        have hcs := hcs (distinct_suffix hsuf hd)
        have hfresh : (Spec.conn cfg c.id t.log).1 = .fresh := by
          rcases conn_open hc hcs hm with ⟨-, e⟩ | ⟨u, e, -⟩
          · exact e
          · exact absurd hq e
        have hnext : Spec.next cfg c.id (Spec.conn cfg c.id t.log).1 (.asked c.id d) = (.asking line, []) := by
          rw [hfresh]
          show (if c.id = c.id then _ else _) = _
          rw [if_pos rfl, hl]
        have hcs1 : Conns cfg ((some c.id).map (fun n => (n, line))) t1 := by
          refine conns_one hcs c.id (o := .asked c.id d) trivial ⟨[], e1, fun o h => (by cases h)⟩ (fun n hn s => next_asked hn d s) ?_ ?_ ?_ ?_ ?_ ?_
          · intro n _
            rw [e1]
            exact List.append_nil _
          · intro x hx
            rw [e2, List.mem_map]
            constructor
            · rintro ⟨y, hy, rfl⟩
              rw [hid] at hx
              rw [if_neg hx]; exact hy
            · intro h
              exact ⟨x, h, if_neg hx⟩
          · intro n _; rw [e3]
          · rw [hnext]
            refine ⟨{ c with query := Spec.domain line }, ?_, rfl, rfl⟩
            rw [e2, List.mem_map]
            exact ⟨c, hm, if_pos rfl⟩
          · intro l hl
            rw [hnext] at hl
            cases hl; rfl
          · rw [hnext, e1]; rfl
        have hask : ∀ n, some c.id = some n → (Spec.conn cfg n t1.log).1 = .asking line := by
          intro n hn
          cases hn
          rw [e1]
          show (Spec.next cfg c.id (Spec.conn cfg c.id t.log).1 (.asked c.id d)).1 = _
          rw [hnext]
        have hcs2 := began_conns hc1 (some c.id) line hcs1 hask hd hb
        refine ⟨fun n => ?_, fun n l => ?_, fun n => ?_⟩
        · rw [hl1, s4]
          have hf := hcs2.fits n
          cases hs : (Spec.conn cfg n (startQuery cfg t1 (some c.id) line).log).1 with
          | none => rw [hs] at hf; show _ ≤ n; rw [w1.conns]; exact hf
          | over => rw [hs] at hf; exact ⟨by rw [w1.conns]; exact hf.1, by rw [w2]; exact hf.2⟩
          | fresh => rw [hs] at hf; show ∃ c ∈ _, _; rw [w2]; exact hf
          | asking l => rw [hs] at hf; show ∃ c ∈ _, _; rw [w2]; exact hf
          | waiting u dom => rw [hs] at hf; exact ⟨by rw [w2]; exact hf.1, by rw [hl1, s1]; exact hf.2.1, hf.2.2⟩
        · rw [hl1, s4]; exact hcs2.asking n l
        · rw [w1.got, List.append_nil, hl1, s4]; exact hcs2.got n
      · rw [hl1]
        have h1 : Tally A t1.log := by rw [e1]; exact tally_quiet (l := []) htal (o := .asked c.id d) trivial (fun o h => (by cases h))
        exact tally_out (tally_began h1 hb) hl2
    · have hdef : readCb cfg t c d = (t.emit (.asked c.id d)).write c (fmt cfg (parts line).2 none) := by
        unfold readCb
        dsimp only
        rw [if_neg hl'.1, hl'.2]
        dsimp only
        rw [if_pos (by simpa using hq)]
      rw [hdef] at hk ⊢
      rw [emit_log hk0, parts_eq] at hk ⊢
      obtain ⟨w1, w2, w3⟩ := write_writes hk
      obtain ⟨l, hl1, hl2⟩ := w1.log
      have hgot : ∀ n, Spec.got n (({ t with log := .asked c.id d :: t.log } : Tool).write c (fmt cfg (Spec.domain line) none)).log
          = Spec.got n t.log ++ if c.id = n then [.line (fmt cfg (Spec.domain line) none)] else [] := by
        intro n
        rw [w1.got]
        show (Spec.got n t.log ++ []) ++ _ = _
        rw [List.append_nil]
      refine ⟨core_quiet hc (o := .asked c.id d) trivial ⟨l, hl1, hl2⟩ (w1.printed.trans (List.append_nil _)) w1.client w1.queries w3
        (by rw [w2, w1.conns]; exact hc.ids), fun hd => ?_, by rw [hl1]; exact tally_quiet htal (o := .asked c.id d) trivial hl2⟩
      rw [hl1] at hd
      have hcs := hcs ((quiet_running (o := .asked c.id d) trivial hl2).2.1 hd)
      obtain ⟨u, -, hw, hr⟩ : ∃ u, c.query ≠ [] ∧ (Spec.conn cfg c.id t.log).1 = .waiting u c.query ∧ (u, c.query) ∈ Spec.running t.log := by
        rcases conn_open hc hcs hm with ⟨e, -⟩ | h
        · exact absurd e hq
        · exact h
      have hnext : Spec.next cfg c.id (Spec.conn cfg c.id t.log).1 (.asked c.id d)
          = (.waiting u c.query, [.line (fmt cfg (Spec.domain line) none)]) := by
        rw [hw]
        show (if c.id = c.id then _ else _) = _
        rw [if_pos rfl, hl]
      refine conns_one hcs c.id (o := .asked c.id d) trivial ⟨l, hl1, hl2⟩ (fun n hn s => next_asked hn d s) ?_ ?_ ?_ ?_ ?_ ?_
      · intro n hn
        rw [hgot, if_neg (fun e => hn e.symm), List.append_nil]
      · intro x _; rw [w2]
      · intro n _; rw [w1.conns]
      · rw [hnext]
        refine ⟨⟨c, by rw [w2]; exact hm, rfl, rfl⟩, ?_, hq⟩
        rw [hl1, (quiet_running (o := .asked c.id d) trivial hl2).1]
        exact hr
      · intro l hl
        rw [hnext] at hl
        cases hl
      · rw [hnext, hgot, if_pos rfl]

theorem moved_good {cfg : Cfg} {A : List Bytes} {t : Tool} (h : Good cfg A t) {c' : Client.Client} (hm : Moved t.client c') (hr : Client.Early c')
    (hlog : t.client.log <:+ c'.log) (hk : (t.moved cfg c').killed = false) : Good cfg A (t.moved cfg c') := by
  obtain ⟨h1, h2⟩ := moved_core h.1 hm hr hlog hk
  refine ⟨h1, fun hd => ?_, ?_⟩
  rotate_left
  · rcases h2 with e | ⟨u, dom, r, ht⟩
    · rw [e]; exact h.2.2
    · obtain ⟨l, e, hl⟩ := ht.log
      rw [e]
      exact tally_result h.2.2 h.1.nodup ht.run hl
  rcases h2 with e | ⟨u, dom, r, ht⟩
  · rw [e] at hd ⊢
    exact (h.2.1 hd).same rfl rfl (fun c hc => ⟨c, hc, rfl, rfl⟩) (fun c hc => ⟨c, hc, rfl⟩)
  · have hd0 : Spec.Distinct t.log := by
      refine distinct_suffix ?_ hd
      obtain ⟨l, e, -⟩ := ht.log
      rw [e]
      exact ⟨l ++ [_], by rw [List.append_assoc]; rfl⟩
    exact told_conns h.1 (h.2.1 hd0) hd0 ht

theorem step_good {cfg : Cfg} {A : List Bytes} {t : Tool} (h : Good cfg A t) (e : Ev) (hu : (step cfg t e).client.uids ≤ Client.MAX)
    (hk : (step cfg t e).killed = false) : Good cfg A (step cfg t e) := by
  have hk0 : t.killed = false := not_killed (step_killed e) hk
  unfold step at hk hu ⊢
  split at hk
  · rename_i hs
    rw [if_pos hs]; exact h
  · rename_i hs
    rw [if_neg hs] at hu ⊢
    cases e with
    | accept alive => exact accept_good h alive hk
    | packet n d =>
      dsimp only at hk hu ⊢
      cases hf : t.socks.find? (·.id == n) with
      | none => exact h
      | some c =>
        rw [hf] at hk hu
        exact readCb_good h (find_sock hf).1 d hu hk
    | hangup n =>
      dsimp only
      have hid : ∀ x : Sock, (if x.id = n then { x with alive := false } else x).id = x.id := by
        intro x; split <;> rfl
      have hqq : ∀ x : Sock, (if x.id = n then { x with alive := false } else x).query = x.query := by
        intro x; split <;> rfl
      have hids : (t.socks.map (fun x => if x.id = n then { x with alive := false } else x)).map (·.id) = t.socks.map (·.id) := by
        rw [List.map_map]
        exact List.map_congr_left (fun x _ => hid x)
      refine ⟨⟨h.1.rest, h.1.live, h.1.queries, h.1.handled, h.1.results, h.1.printed, ⟨?_, ?_⟩, h.1.right, h.1.order⟩, fun hd => (h.2.1 hd).same rfl rfl ?_ ?_, h.2.2⟩
      · show ((t.socks.map _).map _).Nodup
        rw [hids]; exact h.1.ids.1
      · intro c hc
        obtain ⟨y, hy, rfl⟩ := List.mem_map.1 hc
        rw [hid]; exact h.1.ids.2 y hy
      · intro c hc
        exact ⟨_, List.mem_map_of_mem hc, hid c, hqq c⟩
      · intro c hc
        obtain ⟨y, hy, rfl⟩ := List.mem_map.1 hc
        exact ⟨y, hy, (hid y).symm⟩
    | ended n =>
      dsimp only at hk ⊢
      cases hf : t.socks.find? (·.id == n) with
      | none => exact h
      | some c =>
        refine closed_good h hk0 (find_sock hf).1 (o := .ended c.id) trivial ?_ ?_ (fun n => rfl) (fun log => rfl)
        · intro n hn s
          cases s <;> exact if_neg (fun e => hn e.1.symm)
        · rintro s (rfl | ⟨u, dom, rfl⟩) <;> exact if_pos ⟨rfl, rfl⟩
    | rx hd res =>
      dsimp only at hk hu ⊢
      rw [moved_client] at hu
      exact moved_good h (rx_moved (Keyed.of h.1.rest.inv) hd res) (Client.early_step h.1.rest _ hu) (Client.step_log _ _ _ _) hk
    | timeout u =>
      dsimp only at hk hu ⊢
      rw [moved_client] at hu
      exact moved_good h (timeout_moved (Keyed.of h.1.rest.inv) u) (Client.early_step h.1.rest _ hu) (Client.step_log _ _ _ _) hk

/-! ## The end -/

theorem close_loop (cs : List Sock) (hn : (cs.map (·.id)).Nodup) (t : Tool) (h : t.killed = false) :
    Writes t (cs.foldl (fun t c => t.close c.id) t) (fun n => if n ∈ cs.map (·.id) then [.close] else []) []
    ∧ (cs.foldl (fun t c => t.close c.id) t).socks = t.socks.filter (fun x => !decide (x.id ∈ cs.map (·.id)))
    ∧ (cs.foldl (fun t c => t.close c.id) t).handled = t.handled := by
  induction cs generalizing t with
  | nil =>
    refine ⟨(Writes.refl h).congr (fun n => by simp) rfl, ?_, rfl⟩
    exact (List.filter_eq_self.2 (fun x _ => by simp)).symm
  | cons c cs ih =>
    rw [List.map_cons, List.nodup_cons] at hn
    have hk : (t.close c.id).killed = false := by rw [close_killed]; exact h
    obtain ⟨w1, w2, w3⟩ := close_writes hk
    obtain ⟨v1, v2, v3⟩ := ih hn.2 (t.close c.id) hk
    rw [List.foldl_cons]
    refine ⟨(w1.trans v1).congr (fun n => ?_) rfl, ?_, v3.trans w3⟩
    · by_cases e : c.id = n
      · subst e
        rw [if_pos rfl, if_neg hn.1, if_pos (by simp)]; rfl
      · rw [if_neg e, List.nil_append]
        by_cases e' : n ∈ cs.map (·.id)
        · rw [if_pos e', if_pos (by rw [List.map_cons]; exact List.mem_cons_of_mem _ e')]
        · rw [if_neg e', if_neg]
          rw [List.map_cons, List.mem_cons]
          rintro (e2 | e2)
          · exact e e2.symm
          · exact e' e2
    · rw [v2, w2, List.filter_filter]
      congr 1
      funext x
      rw [List.map_cons]
      by_cases e : x.id = c.id <;> simp [e]

theorem finish_good {cfg : Cfg} {A : List Bytes} {t : Tool} (h : Good cfg A t) (hk : t.killed = false) : Good cfg A (finish t) := by
  obtain ⟨hc, hcs, htal⟩ := h
  unfold finish
  dsimp only
  rw [emit_log hk]
  dsimp only
  obtain ⟨w1, w2, w3⟩ := close_loop t.socks hc.ids.1 ({ t with log := .exit :: t.log } : Tool) hk
  obtain ⟨l, hl1, hl2⟩ := w1.log
  generalize t.socks.foldl (fun t c => t.close c.id) ({ t with log := .exit :: t.log } : Tool) = t1 at w1 w2 w3 hl1
  have w2 : t1.socks = [] := by
    rw [w2, List.filter_eq_nil_iff]
    intro x hx
    have : x.id ∈ t.socks.map (·.id) := List.mem_map_of_mem hx
    simp only [this, decide_true, Bool.not_true]
    simp
  have hgot : ∀ n, Spec.got n t1.log = Spec.got n t.log ++ if n ∈ t.socks.map (·.id) then [.close] else [] := by
    intro n
    rw [w1.got]
    show (Spec.got n t.log ++ []) ++ _ = _
    rw [List.append_nil]
  refine ⟨core_quiet hc (o := .exit) trivial ⟨l, hl1, hl2⟩ (w1.printed.trans (List.append_nil _)) w1.client w1.queries w3 ?_, fun hd => ?_,
    by show Tally A t1.log; rw [hl1]; exact tally_quiet htal (o := .exit) trivial hl2⟩
  · show (t1.socks.map _).Nodup ∧ ∀ c ∈ t1.socks, _
    rw [w2]
    exact ⟨List.nodup_nil, fun c h => (by cases h)⟩
  · have hd : Spec.Distinct t1.log := hd
    rw [hl1] at hd
    have hcs := hcs ((quiet_running (o := .exit) trivial hl2).2.1 hd)
    obtain ⟨-, -, -, s4, -, -⟩ := out_same (log := .exit :: t.log) hl2 cfg
    have hconn : ∀ n, Spec.conn cfg n t1.log = ((Spec.next cfg n (Spec.conn cfg n t.log).1 .exit).1,
        (Spec.conn cfg n t.log).2 ++ (Spec.next cfg n (Spec.conn cfg n t.log).1 .exit).2) := by
      intro n; rw [hl1, s4]; rfl
    have hnone : ∀ (n : Nat) (c : Sock), c ∈ t1.socks → c.id ≠ n := by
      intro n c hc
      rw [w2] at hc; cases hc
    have main : ∀ n, Fits { t1 with exited := true } n (Spec.conn cfg n t1.log).1 ∧ (∀ l, (Spec.conn cfg n t1.log).1 ≠ .asking l)
        ∧ Spec.got n t1.log = (Spec.conn cfg n t1.log).2 := by
      intro n
      have hf := hcs.fits n
      rw [hconn, hgot, hcs.got n]
      have hopen : (∃ c ∈ t.socks, c.id = n) → n < t1.conns ∧ n ∈ t.socks.map (·.id) := by
        rintro ⟨c, h1, h2⟩
        refine ⟨?_, ?_⟩
        · rw [w1.conns, ← h2]; exact hc.ids.2 c h1
        · rw [← h2]; exact List.mem_map_of_mem h1
      cases hs : (Spec.conn cfg n t.log).1 with
      | none =>
        rw [hs] at hf
        have hf : t.conns ≤ n := hf
        rw [if_neg (fun hm => by
          obtain ⟨c, h1, h2⟩ := List.mem_map.1 hm
          have := hc.ids.2 c h1
          omega)]
        exact ⟨by show t1.conns ≤ n; rw [w1.conns]; exact hf, fun l e => (by cases e), rfl⟩
      | over =>
        rw [hs] at hf
        rw [if_neg (fun hm => by
          obtain ⟨c, h1, h2⟩ := List.mem_map.1 hm
          exact hf.2 c h1 h2)]
        exact ⟨⟨by show n < t1.conns; rw [w1.conns]; exact hf.1, hnone n⟩, fun l e => (by cases e), rfl⟩
      | fresh =>
        rw [hs] at hf
        obtain ⟨c, h1, h2, -⟩ := hf
        obtain ⟨o1, o2⟩ := hopen ⟨c, h1, h2⟩
        rw [if_pos o2]
        exact ⟨⟨o1, hnone n⟩, fun l e => (by cases e), rfl⟩
      | asking l => exact absurd hs (hcs.rest n l)
      | waiting u dom =>
        rw [hs] at hf
        obtain ⟨⟨c, h1, h2, -⟩, -⟩ := hf
        obtain ⟨o1, o2⟩ := hopen ⟨c, h1, h2⟩
        rw [if_pos o2]
        exact ⟨⟨o1, hnone n⟩, fun l e => (by cases e), rfl⟩
    exact ⟨fun n => (main n).1, fun n l e => absurd e ((main n).2.1 l), fun n => (main n).2.2⟩

end Verif.Tool
