import Verif.Tool.Core
/-!
# Connections
-/
namespace Verif.Tool
open Verif Verif.Mslookup

/-- The socket of a connection agrees with what it is doing. -/
def Fits (t : Tool) (n : Nat) : Spec.Conn → Prop
  | .none => t.conns ≤ n
  | .over => n < t.conns ∧ ∀ c ∈ t.socks, c.id ≠ n
  | .fresh => ∃ c ∈ t.socks, c.id = n ∧ c.query = []
  | .asking l => ∃ c ∈ t.socks, c.id = n ∧ c.query = Spec.domain l
  | .waiting u dom => (∃ c ∈ t.socks, c.id = n ∧ c.query = dom) ∧ (u, dom) ∈ Spec.running t.log ∧ dom ≠ []

/-- What holds of the connections; `X` is the one whose query is being dealt with. -/
structure Conns (cfg : Cfg) (X : Option (Nat × Bytes)) (t : Tool) : Prop where
  fits : ∀ n, Fits t n (Spec.conn cfg n t.log).1
  asking : ∀ n l, (Spec.conn cfg n t.log).1 = .asking l → X = some (n, l)
  got : ∀ n, Spec.got n t.log = (Spec.conn cfg n t.log).2

theorem sock_unique {l : List Sock} (hn : (l.map (·.id)).Nodup) {x y : Sock} (hx : x ∈ l) (hy : y ∈ l) (h : x.id = y.id) : x = y := by
  induction l with
  | nil => cases hx
  | cons z l ih =>
    rw [List.map_cons, List.nodup_cons] at hn
    rcases List.mem_cons.1 hx with ex | hx'
    · rcases List.mem_cons.1 hy with ey | hy'
      · rw [ex, ey]
      · refine absurd (List.mem_map_of_mem (f := (·.id)) hy') ?_
        rw [← h, ex]; exact hn.1
    · rcases List.mem_cons.1 hy with ey | hy'
      · refine absurd (List.mem_map_of_mem (f := (·.id)) hx') ?_
        rw [h, ey]; exact hn.1
      · exact ih hn.2 hx' hy'

theorem asksFor_mem {l : List Sock} (hn : (l.map (·.id)).Nodup) {c : Sock} (hc : c ∈ l) (text : Bytes) :
    asksFor text l c.id = decide (c.query = text) := by
  unfold asksFor
  rw [Bool.eq_iff_iff, List.any_eq_true]
  constructor
  · rintro ⟨y, hy, h⟩
    simp only [Bool.and_eq_true, beq_iff_eq] at h
    rw [← sock_unique hn hy hc h.1]
    simpa using h.2
  · intro h
    exact ⟨c, hc, by simpa using h⟩

theorem asksFor_none {l : List Sock} {n : Nat} (h : ∀ c ∈ l, c.id ≠ n) (text : Bytes) : asksFor text l n = false := by
  unfold asksFor
  rw [List.any_eq_false]
  intro c hc
  simp [h c hc]

theorem find_sock {t : Tool} {n : Nat} {c : Sock} (h : t.socks.find? (·.id == n) = some c) : c ∈ t.socks ∧ c.id = n := by
  refine ⟨List.mem_of_find?_eq_some h, ?_⟩
  have := List.find?_some h
  simpa using this

/-! ## Running lookups -/

theorem distinct_running {log : List Obs} (h : Spec.Distinct log) :
    (∀ u dom, (u, dom) ∈ Spec.running log → dom ≠ []) ∧ (∀ u v dom, (u, dom) ∈ Spec.running log → (v, dom) ∈ Spec.running log → u = v) := by
  induction log with
  | nil => exact ⟨fun u dom h => (by cases h), fun u v dom h => (by cases h)⟩
  | cons o log ih =>
    cases o with
    | started o l u q mn to =>
      obtain ⟨h1, h2, h3⟩ := h
      obtain ⟨i1, i2⟩ := ih h1
      constructor
      · intro v dom hm
        rcases List.mem_cons.1 hm with e | hm
        · cases e; exact h2
        · exact i1 v dom hm
      · intro v w dom hv hw
        rcases List.mem_cons.1 hv with e | hv
        · cases e
          rcases List.mem_cons.1 hw with e | hw
          · cases e; rfl
          · exact absurd hw (h3 w)
        · rcases List.mem_cons.1 hw with e | hw
          · cases e; exact absurd hv (h3 v)
          · exact i2 v w dom hv hw
    | result u r =>
      have sub : ∀ x ∈ Spec.running (.result u r :: log), x ∈ Spec.running log := by
        intro x hx
        have hx : x ∈ (if r.last then (Spec.running log).filter (fun x => decide (x.1 ≠ u)) else Spec.running log) := hx
        split at hx
        · exact (List.mem_filter.1 hx).1
        · exact hx
      obtain ⟨i1, i2⟩ := ih h
      exact ⟨fun v dom hm => i1 v dom (sub _ hm), fun v w dom hv hw => i2 v w dom (sub _ hv) (sub _ hw)⟩
    | refused o l => exact ih h.1
    | _ => exact ih h

theorem fst_unique {l : List (Nat × Bytes)} (hn : (l.map (·.1)).Nodup) {u : Nat} {d e : Bytes} (h1 : (u, d) ∈ l) (h2 : (u, e) ∈ l) : d = e := by
  have := find_running hn h1
  rw [find_running hn h2] at this
  cases this; rfl

/-! ## The states of connections -/

theorem Conns.rest {cfg : Cfg} {t : Tool} (h : Conns cfg none t) (n : Nat) (l : Bytes) : (Spec.conn cfg n t.log).1 ≠ .asking l :=
  fun e => by cases h.asking n l e

/-- Nothing but the log and the queries matter to the connections. -/
theorem Conns.same {cfg : Cfg} {X : Option (Nat × Bytes)} {t t' : Tool} (h : Conns cfg X t) (h1 : t'.log = t.log) (h2 : t'.conns = t.conns)
    (h3 : ∀ c ∈ t.socks, ∃ c' ∈ t'.socks, c'.id = c.id ∧ c'.query = c.query) (h4 : ∀ c' ∈ t'.socks, ∃ c ∈ t.socks, c.id = c'.id) :
    Conns cfg X t' := by
  constructor
  · intro n
    have := h.fits n
    rw [h1]
    cases hs : (Spec.conn cfg n t.log).1 with
    | none =>
      rw [hs] at this
      show t'.conns ≤ n
      rw [h2]; exact this
    | over =>
      rw [hs] at this
      refine ⟨by rw [h2]; exact this.1, fun c hc => ?_⟩
      obtain ⟨c0, hc0, e⟩ := h4 c hc
      rw [← e]; exact this.2 c0 hc0
    | fresh =>
      rw [hs] at this
      obtain ⟨c, hc, e1, e2⟩ := this
      obtain ⟨c', hc', e3, e4⟩ := h3 c hc
      exact ⟨c', hc', e3.trans e1, e4.trans e2⟩
    | asking l =>
      rw [hs] at this
      obtain ⟨c, hc, e1, e2⟩ := this
      obtain ⟨c', hc', e3, e4⟩ := h3 c hc
      exact ⟨c', hc', e3.trans e1, e4.trans e2⟩
    | waiting u dom =>
      rw [hs] at this
      obtain ⟨⟨c, hc, e1, e2⟩, h5, h6⟩ := this
      obtain ⟨c', hc', e3, e4⟩ := h3 c hc
      exact ⟨⟨c', hc', e3.trans e1, e4.trans e2⟩, by rw [h1]; exact h5, h6⟩
  · rw [h1]; exact h.asking
  · rw [h1]; exact h.got

theorem told_conns {cfg : Cfg} {t t' : Tool} (hc : Core cfg [] t) (h : Conns cfg none t) (hd : Spec.Distinct t.log) {u : Nat} {dom : Bytes} {r : Result}
    (ht : Told cfg t t' u dom r) : Conns cfg none t' := by
  obtain ⟨hrun, ⟨l, hl1, hl2⟩, hgot, hsocks, hconns, -⟩ := ht
  obtain ⟨d1, d2⟩ := distinct_running hd
  obtain ⟨s1, -, -, s4, -, -⟩ := out_same (log := .result u r :: t.log) hl2 cfg
  have hconn : ∀ n, Spec.conn cfg n t'.log = ((Spec.next cfg n (Spec.conn cfg n t.log).1 (.result u r)).1,
      (Spec.conn cfg n t.log).2 ++ (Spec.next cfg n (Spec.conn cfg n t.log).1 (.result u r)).2) := by
    intro n; rw [hl1, s4]; rfl
  have hrun' : Spec.running t'.log = if r.last then (Spec.running t.log).filter (fun x => decide (x.1 ≠ u)) else Spec.running t.log := by
    rw [hl1, s1]; rfl
  have hkeep : ∀ c ∈ t.socks, c.query ≠ dom → c ∈ t'.socks := by
    intro c hm hq
    rw [hsocks]
    exact List.mem_filter.2 ⟨hm, by simp [hq]⟩
  have main : ∀ n, Fits t' n (Spec.conn cfg n t'.log).1 ∧ (∀ l, (Spec.conn cfg n t'.log).1 ≠ .asking l)
      ∧ Spec.got n t'.log = (Spec.conn cfg n t'.log).2 := by
    intro n
    have hf := h.fits n
    rw [hconn, hgot, h.got n]
    cases hs : (Spec.conn cfg n t.log).1 with
    | none =>
      rw [hs] at hf
      have : asksFor dom t.socks n = false := asksFor_none (fun c hm e => by
        have := hc.ids.2 c hm
        have hf : t.conns ≤ n := hf
        omega) dom
      rw [this]
      exact ⟨by show t'.conns ≤ n; rw [hconns]; exact hf, fun l e => (by cases e), rfl⟩
    | over =>
      rw [hs] at hf
      rw [asksFor_none hf.2 dom]
      refine ⟨⟨by rw [hconns]; exact hf.1, fun c hm => ?_⟩, fun l e => (by cases e), rfl⟩
      rw [hsocks] at hm
      exact hf.2 c (List.mem_filter.1 hm).1
    | fresh =>
      rw [hs] at hf
      obtain ⟨c, hm, e1, e2⟩ := hf
      have hq : c.query ≠ dom := by rw [e2]; exact fun e => d1 u dom hrun e.symm
      have : asksFor dom t.socks n = false := by rw [← e1, asksFor_mem hc.ids.1 hm]; simpa using hq
      rw [this]
      exact ⟨⟨c, hkeep c hm hq, e1, e2⟩, fun l e => (by cases e), rfl⟩
    | asking l => exact absurd hs (h.rest n l)
    | waiting v dom' =>
      rw [hs] at hf
      obtain ⟨⟨c, hm, e1, e2⟩, hr, hne⟩ := hf
      have hask : asksFor dom t.socks n = decide (dom' = dom) := by rw [← e1, asksFor_mem hc.ids.1 hm, e2]
      rw [hask]
      dsimp only [Spec.next]
      by_cases e : u = v
      · subst e
        have : dom' = dom := fst_unique hc.nodup hr hrun
        subst this
        rw [if_pos rfl]
        cases hl : r.last with
        | false =>
          refine ⟨⟨⟨c, ?_, e1, e2⟩, ?_, hne⟩, fun l e => (by cases e), by simp [response]⟩
          · rw [hsocks]; exact List.mem_filter.2 ⟨hm, by simp [hl]⟩
          · rw [hrun', hl]; exact hrun
        | true =>
          refine ⟨⟨?_, fun c' hm' => ?_⟩, fun l e => (by cases e), by simp [response]⟩
          · have := hc.ids.2 c hm
            rw [hconns]; omega
          · rw [hsocks] at hm'
            obtain ⟨h1, h2⟩ := List.mem_filter.1 hm'
            intro e
            have := sock_unique hc.ids.1 h1 hm (e.trans e1.symm)
            subst this
            simp [hl, e2] at h2
      · rw [if_neg e]
        have hdd : dom' ≠ dom := by
          rintro rfl
          exact e (d2 u v dom' hrun hr)
        refine ⟨⟨⟨c, hkeep c hm (by rw [e2]; exact hdd), e1, e2⟩, ?_, hne⟩, fun l e => (by cases e), by simp [hdd]⟩
        rw [hrun']
        split
        · exact List.mem_filter.2 ⟨hr, by simpa using fun e' : v = u => e e'.symm⟩
        · exact hr
  exact ⟨fun n => (main n).1, fun n l e => absurd e ((main n).2.1 l), fun n => (main n).2.2⟩

/-- A query begins. -/
theorem began_conns {cfg : Cfg} {t t' : Tool} (hc : Core cfg [] t) (o : Option Nat) (line : Bytes)
    (h : Conns cfg (o.map (fun n => (n, line))) t) (ho : ∀ n, o = some n → (Spec.conn cfg n t.log).1 = .asking line)
    (hd : Spec.Distinct t'.log) (hb : Began cfg t t' o line) : Conns cfg none t' := by
  have hX : ∀ n l, (Spec.conn cfg n t.log).1 = .asking l → o = some n ∧ l = line := by
    intro n l hs
    have := h.asking n l hs
    cases o with
    | none => cases this
    | some m => cases this; exact ⟨rfl, rfl⟩
  cases hb with
  | refused hlog hgot hsocks hconns _ =>
    obtain ⟨l, hl1, hl2⟩ := hlog
    obtain ⟨s1, -, -, s4, -, s6⟩ := out_same (log := .refused o line :: t.log) hl2 cfg
    rw [hl1] at hd
    obtain ⟨hd0, hne, hnr⟩ := s6.1 hd
    have hconn : ∀ n, Spec.conn cfg n t'.log = ((Spec.next cfg n (Spec.conn cfg n t.log).1 (.refused o line)).1,
        (Spec.conn cfg n t.log).2 ++ (Spec.next cfg n (Spec.conn cfg n t.log).1 (.refused o line)).2) := by
      intro n; rw [hl1, s4]; rfl
    have hrun' : Spec.running t'.log = Spec.running t.log := by rw [hl1, s1]; rfl
    have hkeep : ∀ c ∈ t.socks, c.query ≠ Spec.domain line → c ∈ t'.socks := by
      intro c hm hq
      rw [hsocks]
      exact List.mem_filter.2 ⟨hm, by simp [hq]⟩
    have main : ∀ n, Fits t' n (Spec.conn cfg n t'.log).1 ∧ (∀ l, (Spec.conn cfg n t'.log).1 ≠ .asking l)
        ∧ Spec.got n t'.log = (Spec.conn cfg n t'.log).2 := by
      intro n
      have hf := h.fits n
      rw [hconn, hgot, h.got n]
      cases hs : (Spec.conn cfg n t.log).1 with
      | none =>
        rw [hs] at hf
        rw [asksFor_none (fun c hm e => by
          have := hc.ids.2 c hm
          have hf : t.conns ≤ n := hf
          omega)]
        exact ⟨by show t'.conns ≤ n; rw [hconns]; exact hf, fun l e => (by cases e), rfl⟩
      | over =>
        rw [hs] at hf
        rw [asksFor_none hf.2]
        refine ⟨⟨by rw [hconns]; exact hf.1, fun c hm => ?_⟩, fun l e => (by cases e), rfl⟩
        rw [hsocks] at hm
        exact hf.2 c (List.mem_filter.1 hm).1
      | fresh =>
        rw [hs] at hf
        obtain ⟨c, hm, e1, e2⟩ := hf
        have hq : c.query ≠ Spec.domain line := by rw [e2]; exact fun e => hne e.symm
        have : asksFor (Spec.domain line) t.socks n = false := by rw [← e1, asksFor_mem hc.ids.1 hm]; simpa using hq
        rw [this]
        exact ⟨⟨c, hkeep c hm hq, e1, e2⟩, fun l e => (by cases e), rfl⟩
      | asking l =>
        obtain ⟨rfl, rfl⟩ := hX n l hs
        rw [hs] at hf
        obtain ⟨c, hm, e1, e2⟩ := hf
        have hask : asksFor (Spec.domain l) t.socks n = true := by rw [← e1, asksFor_mem hc.ids.1 hm, e2]; simp
        rw [hask]
        dsimp only [Spec.next]
        rw [if_pos ⟨rfl, rfl⟩]
        refine ⟨⟨?_, fun c' hm' => ?_⟩, fun l e => (by cases e), rfl⟩
        · have := hc.ids.2 c hm
          rw [hconns]; omega
        · rw [hsocks] at hm'
          obtain ⟨h1, h2⟩ := List.mem_filter.1 hm'
          intro e
          have := sock_unique hc.ids.1 h1 hm (e.trans e1.symm)
          subst this
          simp [e2] at h2
      | waiting v dom' =>
        rw [hs] at hf
        obtain ⟨⟨c, hm, e1, e2⟩, hr, hne'⟩ := hf
        have hdd : dom' ≠ Spec.domain line := by
          rintro rfl
          exact hnr v hr
        have hask : asksFor (Spec.domain line) t.socks n = false := by rw [← e1, asksFor_mem hc.ids.1 hm, e2]; simpa using hdd
        rw [hask]
        exact ⟨⟨⟨c, hkeep c hm (by rw [e2]; exact hdd), e1, e2⟩, by rw [hrun']; exact hr, hne'⟩, fun l e => (by cases e), rfl⟩
    exact ⟨fun n => (main n).1, fun n l e => absurd e ((main n).2.1 l), fun n => (main n).2.2⟩
  | started u q mn to hlog hgot hsocks hconns _ =>
    rw [hlog] at hd
    obtain ⟨hd0, hne, hnr⟩ := hd
    have hconn : ∀ n, Spec.conn cfg n t'.log = ((Spec.next cfg n (Spec.conn cfg n t.log).1 (.started o line u q mn to)).1,
        (Spec.conn cfg n t.log).2 ++ (Spec.next cfg n (Spec.conn cfg n t.log).1 (.started o line u q mn to)).2) := by
      intro n; rw [hlog]; rfl
    have hrun' : Spec.running t'.log = (u, Spec.domain line) :: Spec.running t.log := by rw [hlog]; rfl
    have main : ∀ n, Fits t' n (Spec.conn cfg n t'.log).1 ∧ (∀ l, (Spec.conn cfg n t'.log).1 ≠ .asking l)
        ∧ Spec.got n t'.log = (Spec.conn cfg n t'.log).2 := by
      intro n
      have hf := h.fits n
      rw [hconn, hgot, h.got n]
      cases hs : (Spec.conn cfg n t.log).1 with
      | none =>
        rw [hs] at hf
        exact ⟨by show t'.conns ≤ n; rw [hconns]; exact hf, fun l e => (by cases e), (List.append_nil _).symm⟩
      | over =>
        rw [hs] at hf
        exact ⟨⟨by rw [hconns]; exact hf.1, by rw [hsocks]; exact hf.2⟩, fun l e => (by cases e), (List.append_nil _).symm⟩
      | fresh =>
        rw [hs] at hf
        exact ⟨by show ∃ c ∈ t'.socks, _; rw [hsocks]; exact hf, fun l e => (by cases e), (List.append_nil _).symm⟩
      | asking l =>
        obtain ⟨rfl, rfl⟩ := hX n l hs
        rw [hs] at hf
        dsimp only [Spec.next]
        rw [if_pos ⟨rfl, rfl⟩]
        refine ⟨⟨by rw [hsocks]; exact hf, by rw [hrun']; exact List.mem_cons_self, hne⟩, fun l e => (by cases e), (List.append_nil _).symm⟩
      | waiting v dom' =>
        rw [hs] at hf
        exact ⟨⟨by rw [hsocks]; exact hf.1, by rw [hrun']; exact List.mem_cons_of_mem _ hf.2.1, hf.2.2⟩, fun l e => (by cases e),
          (List.append_nil _).symm⟩
    exact ⟨fun n => (main n).1, fun n l e => absurd e ((main n).2.1 l), fun n => (main n).2.2⟩

end Verif.Tool
