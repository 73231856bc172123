import Verif.Tool.Text
import Verif.Tool.Lookup
/-!
# Writing responses
-/
namespace Verif.Tool
open Verif Verif.Mslookup

/-- What the program does, as opposed to what happens to it. -/
def IsOut : Obs → Prop
  | .line _ _ => True
  | .closed _ => True
  | .stdout _ => True
  | _ => False

theorem out_same {l log : List Obs} (h : ∀ o ∈ l, IsOut o) (cfg : Cfg) :
    Spec.running (l ++ log) = Spec.running log ∧ Spec.answered (l ++ log) = Spec.answered log
    ∧ (∀ u, Spec.results u (l ++ log) = Spec.results u log) ∧ (∀ n, Spec.conn cfg n (l ++ log) = Spec.conn cfg n log)
    ∧ Spec.toPrint cfg (l ++ log) = Spec.toPrint cfg log ∧ (Spec.Distinct (l ++ log) ↔ Spec.Distinct log) := by
  induction l with
  | nil => exact ⟨rfl, rfl, fun _ => rfl, fun _ => rfl, rfl, Iff.rfl⟩
  | cons o l ih =>
    obtain ⟨h1, h2, h3, h4, h5, h6⟩ := ih (fun o ho => h o (List.mem_cons_of_mem _ ho))
    have ho := h o List.mem_cons_self
    rw [List.cons_append]
    have hconn : (∀ n s, Spec.next cfg n s o = (s, [])) → ∀ n, Spec.conn cfg n (o :: (l ++ log)) = Spec.conn cfg n log := by
      intro hn n
      rw [Spec.conn, hn, h4, List.append_nil]
    cases o with
    | line m s =>
      refine ⟨h1, h2, h3, hconn (fun n s => by cases s <;> rfl), ?_, h6⟩
      rw [Spec.toPrint, h5]; exact List.append_nil _
    | closed m =>
      refine ⟨h1, h2, h3, hconn (fun n s => by cases s <;> rfl), ?_, h6⟩
      rw [Spec.toPrint, h5]; exact List.append_nil _
    | stdout s =>
      refine ⟨h1, h2, h3, hconn (fun n s => by cases s <;> rfl), ?_, h6⟩
      rw [Spec.toPrint, h5]; exact List.append_nil _
    | _ => exact ho.elim

/-- The program is at `t'` after it has written something at `t`: to the connections as `f` says,
to stdout as `s` says. -/
structure Writes (t t' : Tool) (f : Nat → List Spec.Out) (s : Bytes) : Prop where
  log : ∃ l, t'.log = l ++ t.log ∧ ∀ o ∈ l, IsOut o
  got : ∀ n, Spec.got n t'.log = Spec.got n t.log ++ f n
  printed : Spec.printed t'.log = Spec.printed t.log ++ s
  client : t'.client = t.client
  queries : t'.queries = t.queries
  conns : t'.conns = t.conns
  exited : t'.exited = t.exited
  before : t.killed = false

theorem Writes.refl {t : Tool} (h : t.killed = false) : Writes t t (fun _ => []) [] where
  log := ⟨[], rfl, fun o h => (by cases h)⟩
  got n := (List.append_nil _).symm
  printed := (List.append_nil _).symm
  client := rfl
  queries := rfl
  conns := rfl
  exited := rfl
  before := h

theorem Writes.trans {t t' t'' : Tool} {f g : Nat → List Spec.Out} {s s' : Bytes} (h : Writes t t' f s) (h' : Writes t' t'' g s') :
    Writes t t'' (fun n => f n ++ g n) (s ++ s') where
  log := by
    obtain ⟨l, h1, h2⟩ := h.log
    obtain ⟨l', h3, h4⟩ := h'.log
    refine ⟨l' ++ l, by rw [h3, h1, List.append_assoc], fun o ho => ?_⟩
    rcases List.mem_append.1 ho with ho | ho
    · exact h4 o ho
    · exact h2 o ho
  got n := by rw [h'.got, h.got, List.append_assoc]
  printed := by rw [h'.printed, h.printed, List.append_assoc]
  client := h'.client.trans h.client
  queries := h'.queries.trans h.queries
  conns := h'.conns.trans h.conns
  exited := h'.exited.trans h.exited
  before := h.before

theorem Writes.congr {t t' : Tool} {f g : Nat → List Spec.Out} {s s' : Bytes} (h : Writes t t' f s) (hf : ∀ n, f n = g n) (hs : s = s') :
    Writes t t' g s' := by
  have : f = g := funext hf
  subst this; subst hs; exact h

theorem emit_killed (t : Tool) (o : Obs) : (t.emit o).killed = t.killed := by
  unfold Tool.emit; split <;> rfl

theorem emit_log {t : Tool} (h : t.killed = false) (o : Obs) : t.emit o = { t with log := o :: t.log } := by
  unfold Tool.emit; rw [if_neg (by simp [h])]

theorem emit_fields (t : Tool) (o : Obs) : (t.emit o).socks = t.socks ∧ (t.emit o).client = t.client ∧ (t.emit o).queries = t.queries
    ∧ (t.emit o).conns = t.conns ∧ (t.emit o).exited = t.exited ∧ (t.emit o).handled = t.handled := by
  unfold Tool.emit; split <;> exact ⟨rfl, rfl, rfl, rfl, rfl, rfl⟩

theorem write_writes {t : Tool} {c : Sock} {s : Bytes} (h : (t.write c s).killed = false) :
    Writes t (t.write c s) (fun n => if c.id = n then [.line s] else []) [] ∧ (t.write c s).socks = t.socks
    ∧ (t.write c s).handled = t.handled := by
  unfold Tool.write at *
  split at h
  · rename_i ha
    rw [if_pos ha]
    rw [emit_killed] at h
    rw [emit_log h]
    exact ⟨⟨⟨[_], rfl, by intro o ho; simp at ho; subst ho; trivial⟩, fun n => rfl, (List.append_nil _).symm, rfl, rfl, rfl, rfl, h⟩, rfl, rfl⟩
  · cases h

theorem close_writes {t : Tool} {m : Nat} (h : (t.close m).killed = false) :
    Writes t (t.close m) (fun n => if m = n then [.close] else []) []
    ∧ (t.close m).socks = t.socks.filter (fun c => !(c.id == m)) ∧ (t.close m).handled = t.handled := by
  unfold Tool.close at *
  rw [emit_killed] at h
  rw [emit_log h]
  exact ⟨⟨⟨[_], rfl, by intro o ho; simp at ho; subst ho; trivial⟩, fun n => rfl, (List.append_nil _).symm, rfl, rfl, rfl, rfl, h⟩, rfl, rfl⟩

theorem print_writes {t : Tool} {s : Bytes} (h : (t.print s).killed = false) :
    Writes t (t.print s) (fun _ => []) (s ++ [10]) ∧ (t.print s).socks = t.socks ∧ (t.print s).handled = t.handled := by
  unfold Tool.print at *
  rw [emit_killed] at h
  rw [emit_log h]
  exact ⟨⟨⟨[_], rfl, by intro o ho; simp at ho; subst ho; trivial⟩, fun n => rfl, rfl, rfl, rfl, rfl, rfl, h⟩, rfl, rfl⟩

/-! ## A killed process stays so -/

theorem write_killed {t : Tool} (h : t.killed = true) (c : Sock) (s : Bytes) : (t.write c s).killed = true := by
  unfold Tool.write
  split
  · rw [emit_killed]; exact h
  · rfl

theorem close_killed (t : Tool) (m : Nat) : (t.close m).killed = t.killed := by
  unfold Tool.close; rw [emit_killed]

theorem print_killed (t : Tool) (s : Bytes) : (t.print s).killed = t.killed := emit_killed _ _

theorem respondTo_killed {t : Tool} (h : t.killed = true) (text s : Bytes) (fin : Bool) (c : Sock) :
    (respondTo text s fin t c).killed = true := by
  unfold respondTo
  split
  · dsimp only
    split
    · rw [close_killed]; exact write_killed h c s
    · exact write_killed h c s
  · exact h

theorem foldl_killed {α : Type} {f : Tool → α → Tool} (hf : ∀ t a, t.killed = true → (f t a).killed = true) (l : List α) {t : Tool}
    (h : t.killed = true) : (l.foldl f t).killed = true := by
  induction l generalizing t with
  | nil => exact h
  | cons a l ih => exact ih (hf t a h)

theorem not_killed {t t' : Tool} (hf : t.killed = true → t'.killed = true) (h : t'.killed = false) : t.killed = false := by
  cases hk : t.killed with
  | false => rfl
  | true => rw [hf hk] at h; cases h

/-! ## respond_result -/

/-- What a connection gets by a response. -/
def response (s : Bytes) (fin : Bool) : List Spec.Out := .line s :: if fin then [.close] else []

/-- The connection is among those asking for the text. -/
def asksFor (text : Bytes) (cs : List Sock) (n : Nat) : Bool := cs.any (fun c => c.id == n && c.query == text)

theorem respond_loop (text s : Bytes) (fin : Bool) (cs : List Sock) (hn : (cs.map (·.id)).Nodup) (t : Tool)
    (h : (cs.foldl (respondTo text s fin) t).killed = false) :
    Writes t (cs.foldl (respondTo text s fin) t) (fun n => if asksFor text cs n then response s fin else []) []
    ∧ (cs.foldl (respondTo text s fin) t).socks = t.socks.filter (fun x => !(fin && asksFor text cs x.id))
    ∧ (cs.foldl (respondTo text s fin) t).handled = t.handled := by
  induction cs generalizing t with
  | nil =>
    refine ⟨Writes.refl h, ?_, rfl⟩
    symm
    rw [List.foldl_nil, List.filter_eq_self]
    intro x _
    simp [asksFor]
  | cons c cs ih =>
    rw [List.map_cons, List.nodup_cons] at hn
    rw [List.foldl_cons] at *
    have hk1 : (respondTo text s fin t c).killed = false :=
      not_killed (foldl_killed (fun t a ht => respondTo_killed ht text s fin a) cs) h
    obtain ⟨i1, i2, i3⟩ := ih hn.2 (respondTo text s fin t c) h
    have hnot : ∀ n, n = c.id → asksFor text cs n = false := by
      rintro n rfl
      unfold asksFor
      rw [List.any_eq_false]
      intro x hx
      have : x.id ≠ c.id := fun e => hn.1 (e ▸ List.mem_map_of_mem (f := (·.id)) hx)
      simp [this]
    have hone : Writes t (respondTo text s fin t c) (fun n => if c.id = n ∧ c.query = text then response s fin else []) []
        ∧ (respondTo text s fin t c).socks = t.socks.filter (fun x => !(fin && decide (c.id = x.id ∧ c.query = text)))
        ∧ (respondTo text s fin t c).handled = t.handled := by
      unfold respondTo at hk1 ⊢
      by_cases hq : c.query = text
      · rw [if_pos hq] at hk1 ⊢
        dsimp only at hk1 ⊢
        cases fin with
        | false =>
          obtain ⟨w1, w2, w3⟩ := write_writes (t := t) (c := c) (s := s) hk1
          refine ⟨w1.congr (fun n => ?_) rfl, ?_, w3⟩
          · by_cases e : c.id = n <;> simp [e, hq, response]
          · rw [if_neg (by simp), w2]
            symm; rw [List.filter_eq_self]; intro x _; rfl
        | true =>
          rw [if_pos rfl] at hk1 ⊢
          obtain ⟨v1, v2, v3⟩ := close_writes hk1
          rw [close_killed] at hk1
          obtain ⟨w1, w2, w3⟩ := write_writes (t := t) (c := c) (s := s) hk1
          refine ⟨(w1.trans v1).congr (fun n => ?_) rfl, ?_, v3.trans w3⟩
          · by_cases e : c.id = n <;> simp [e, hq, response]
          · rw [v2, w2]
            apply List.filter_congr
            intro x _
            by_cases e : x.id = c.id
            · simp [e, hq]
            · have : c.id ≠ x.id := fun e' => e e'.symm
              simp [e, hq, this]
      · rw [if_neg hq] at hk1 ⊢
        refine ⟨(Writes.refl hk1).congr (fun n => ?_) rfl, ?_, rfl⟩
        · simp [hq]
        · symm; rw [List.filter_eq_self]; intro x _; simp [hq]
    obtain ⟨o1, o2, o3⟩ := hone
    refine ⟨(o1.trans i1).congr (fun n => ?_) rfl, ?_, i3.trans o3⟩
    · by_cases e : c.id = n
      · have h0 := hnot n e.symm
        have h1 : asksFor text (c :: cs) n = decide (c.query = text) := by
          unfold asksFor at h0 ⊢
          rw [List.any_cons, h0, Bool.or_false, e]
          simp only [beq_self_eq_true, Bool.true_and]
          by_cases hq : c.query = text <;> simp [hq]
        rw [h0, h1]
        by_cases hq : c.query = text <;> simp [e, hq]
      · have h1 : asksFor text (c :: cs) n = asksFor text cs n := by
          unfold asksFor
          rw [List.any_cons]
          simp [e]
        rw [h1, if_neg (fun h => e h.1), List.nil_append]
    · rw [i2, o2, List.filter_filter]
      apply List.filter_congr
      intro x _
      unfold asksFor
      rw [List.any_cons]
      by_cases e : c.id = x.id
      · by_cases hq : c.query = text <;> cases fin <;> simp [e, hq]
      · cases fin <;> simp [e]

theorem respond_killed {cfg : Cfg} {t : Tool} (h : t.killed = true) (text : Bytes) (r : Option Result) :
    (respond cfg t text r).killed = true := by
  unfold respond
  dsimp only
  have : ((t.print (fmt cfg text r)).socks.foldl (respondTo text (fmt cfg text r) (isFinal r)) (t.print (fmt cfg text r))).killed = true :=
    foldl_killed (fun t a ht => respondTo_killed ht _ _ _ a) _ (by rw [print_killed]; exact h)
  split <;> exact this

theorem respond_spec {cfg : Cfg} {t : Tool} {text : Bytes} {r : Option Result} (hn : (t.socks.map (·.id)).Nodup)
    (h : (respond cfg t text r).killed = false) :
    Writes t (respond cfg t text r) (fun n => if asksFor text t.socks n then response (fmt cfg text r) (isFinal r) else [])
      (fmt cfg text r ++ [10])
    ∧ (respond cfg t text r).socks = t.socks.filter (fun x => !(isFinal r && x.query == text))
    ∧ (respond cfg t text r).handled = (if isFinal r then t.handled + 1 else t.handled) := by
  have hs : (respond cfg t text r).killed = ((t.print (fmt cfg text r)).socks.foldl (respondTo text (fmt cfg text r) (isFinal r))
      (t.print (fmt cfg text r))).killed := by
    unfold respond; dsimp only; split <;> rfl
  rw [hs] at h
  have hp : (t.print (fmt cfg text r)).killed = false :=
    not_killed (foldl_killed (fun t a ht => respondTo_killed ht _ _ _ a) _) h
  obtain ⟨p1, p2, p3⟩ := print_writes hp
  rw [p2] at h
  obtain ⟨w1, w2, w3⟩ := respond_loop text (fmt cfg text r) (isFinal r) t.socks hn (t.print (fmt cfg text r)) h
  have hw := p1.trans w1
  rw [p2] at w2
  have hfil : t.socks.filter (fun x => !(isFinal r && asksFor text t.socks x.id)) = t.socks.filter (fun x => !(isFinal r && x.query == text)) := by
    apply List.filter_congr
    intro x hx
    have : asksFor text t.socks x.id = (x.query == text) := by
      unfold asksFor
      rw [Bool.eq_iff_iff, List.any_eq_true]
      constructor
      · rintro ⟨y, hy, h⟩
        simp only [Bool.and_eq_true, beq_iff_eq] at h ⊢
        have : y = x := by
          clear w1 w2 w3 hw p1 p2 p3 hp hs
          have hinj : ∀ l : List Sock, (l.map (·.id)).Nodup → y ∈ l → x ∈ l → y = x := by
            intro l
            induction l with
            | nil => intro _ hy; cases hy
            | cons z l ih =>
              intro hn hy hx
              rw [List.map_cons, List.nodup_cons] at hn
              rcases List.mem_cons.1 hy with ey | hy'
              · rcases List.mem_cons.1 hx with ex | hx'
                · rw [ey, ex]
                · refine absurd (List.mem_map_of_mem (f := (·.id)) hx') ?_
                  rw [← h.1, ey]; exact hn.1
              · rcases List.mem_cons.1 hx with ex | hx'
                · refine absurd (List.mem_map_of_mem (f := (·.id)) hy') ?_
                  rw [h.1, ex]; exact hn.1
                · exact ih hn.2 hy' hx'
          exact hinj t.socks hn hy hx
        rw [← this]; exact h.2
      · intro h
        exact ⟨x, hx, by simpa using h⟩
    rw [this]
  rw [hfil] at w2
  have hdef : respond cfg t text r = (if isFinal r then { t.socks.foldl (respondTo text (fmt cfg text r) (isFinal r)) (t.print (fmt cfg text r))
      with handled := (t.socks.foldl (respondTo text (fmt cfg text r) (isFinal r)) (t.print (fmt cfg text r))).handled + 1 }
      else t.socks.foldl (respondTo text (fmt cfg text r) (isFinal r)) (t.print (fmt cfg text r))) := by
    unfold respond; dsimp only; rw [p2]
  rw [hdef]
  have hw : Writes t (t.socks.foldl (respondTo text (fmt cfg text r) (isFinal r)) (t.print (fmt cfg text r)))
      (fun n => if asksFor text t.socks n then response (fmt cfg text r) (isFinal r) else []) (fmt cfg text r ++ [10]) :=
    hw.congr (fun n => List.nil_append _) (List.append_nil _)
  split
  · exact ⟨⟨hw.log, hw.got, hw.printed, hw.client, hw.queries, hw.conns, hw.exited, hw.before⟩, w2, by dsimp only; rw [w3, p3]⟩
  · exact ⟨hw, w2, by rw [w3, p3]⟩

end Verif.Tool
