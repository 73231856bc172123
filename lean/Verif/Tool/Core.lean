import Verif.Tool.Lemmas
/-!
# Queries, lookups and stdout
-/
namespace Verif.Tool
open Verif Verif.Mslookup

/-- The line that announces the query of a connection. -/
def announce (o : Option Nat) (line : Bytes) : Bytes := if o.isSome then b "query: " ++ line ++ [10] else []

def header (cfg : Cfg) : List Bytes := if !cfg.json && cfg.headers then [csvHeaders] else []

/-- The entries about queries are right. -/
def Right (cfg : Cfg) (c : Client.Client) : Obs → Prop
  | .started _ l u q mn to => Spec.Asks cfg l q mn to
      ∧ ∃ h, Client.Obs.issued h mn (if to = 0 then (if mn = 0 then 1000 else mn) else to) ∈ Client.Spec.hist u c.log
  | .refused _ l => ¬ ∃ q mn to, Spec.Asks cfg l q mn to
  | _ => True

/-- A lookup has no results before it was started. -/
def Order : List Obs → Prop
  | [] => True
  | .started _ _ u _ _ _ :: log => Order log ∧ Spec.results u log = []
  | _ :: log => Order log

theorem order_out {l log : List Obs} (hl : ∀ o ∈ l, IsOut o) (h : Order log) : Order (l ++ log) := by
  induction l with
  | nil => exact h
  | cons o l ih =>
    have := ih (fun x hx => hl x (List.mem_cons_of_mem _ hx))
    have ho := hl o List.mem_cons_self
    cases o <;> first | exact this | exact ho.elim

/-- What holds of the program, whatever its users do; `pend` is still to be printed. -/
structure Core (cfg : Cfg) (pend : Bytes) (t : Tool) : Prop where
  rest : Client.Early t.client
  live : live t.client = ((Spec.running t.log).map (·.1)).reverse
  queries : t.queries = (Spec.running t.log).map (fun x => { text := x.2, handle := x.1 + 1 })
  handled : t.handled = Spec.answered t.log
  results : ∀ u, Spec.results u t.log = Spec.callbacksOf (Client.Spec.hist u t.client.log)
  printed : Spec.printed t.log ++ pend = Spec.lines (header cfg ++ Spec.toPrint cfg t.log)
  ids : (t.socks.map (·.id)).Nodup ∧ ∀ c ∈ t.socks, c.id < t.conns
  right : ∀ o ∈ t.log, Right cfg t.client o
  order : Order t.log

theorem Core.nodup {cfg : Cfg} {pend : Bytes} {t : Tool} (h : Core cfg pend t) : ((Spec.running t.log).map (·.1)).Nodup := by
  have := h.rest.inv.nodup
  have e : t.client.reqs.map (·.uid) = _ := h.live
  rw [e] at this
  exact List.pairwise_reverse.1 this |>.imp (fun h => h.symm)

theorem Right.mono {cfg : Cfg} {c c' : Client.Client} (h : c.log <:+ c'.log) {o : Obs} (hr : Right cfg c o) : Right cfg c' o := by
  cases o with
  | started o l u q mn to =>
    obtain ⟨h1, n, h2⟩ := hr
    exact ⟨h1, n, (Client.hist_suffix h u).subset h2⟩
  | refused o l => exact hr
  | _ => trivial

/-! ## Lists of lookups -/

theorem find_running {l : List (Nat × Bytes)} (hn : (l.map (·.1)).Nodup) {u : Nat} {dom : Bytes} (h : (u, dom) ∈ l) :
    l.find? (fun x => decide (x.1 = u)) = some (u, dom) := by
  induction l with
  | nil => cases h
  | cons x l ih =>
    rw [List.map_cons, List.nodup_cons] at hn
    rw [List.find?_cons]
    rcases List.mem_cons.1 h with rfl | h
    · simp
    · have : x.1 ≠ u := by
        rintro rfl
        exact hn.1 (List.mem_map.2 ⟨(x.1, dom), h, rfl⟩)
      simp only [this, decide_false]
      exact ih hn.2 h

theorem find_queries {l : List (Nat × Bytes)} (hn : (l.map (·.1)).Nodup) {u : Nat} {dom : Bytes} (h : (u, dom) ∈ l) :
    (l.map (fun x => ({ text := x.2, handle := x.1 + 1 } : Qry))).find? (·.handle == u + 1) = some { text := dom, handle := u + 1 } := by
  rw [List.find?_map]
  have : ((fun q : Qry => q.handle == u + 1) ∘ fun x : Nat × Bytes => ({ text := x.2, handle := x.1 + 1 } : Qry))
      = (fun x => decide (x.1 = u)) := by
    funext x
    simp only [Function.comp]
    by_cases e : x.1 = u <;> simp [e]
  rw [this, find_running hn h]; rfl

theorem erase_queries {l : List (Nat × Bytes)} (hn : (l.map (·.1)).Nodup) (u : Nat) :
    (l.map (fun x => ({ text := x.2, handle := x.1 + 1 } : Qry))).eraseP (·.handle == u + 1)
      = (l.filter (fun x => decide (x.1 ≠ u))).map (fun x => { text := x.2, handle := x.1 + 1 }) := by
  induction l with
  | nil => rfl
  | cons x l ih =>
    rw [List.map_cons, List.nodup_cons] at hn
    rw [List.map_cons, List.filter_cons]
    by_cases e : x.1 = u
    · rw [List.eraseP_cons_of_pos (by simp [e]), if_neg (by simp [e])]
      have : l.filter (fun x => decide (x.1 ≠ u)) = l := by
        rw [List.filter_eq_self]
        intro y hy
        have : y.1 ≠ u := by
          rintro rfl
          exact hn.1 (e ▸ List.mem_map_of_mem (f := (·.1)) hy)
        simpa using this
      rw [this]
    · rw [List.eraseP_cons_of_neg (by simp [e]), if_pos (by simp [e]), List.map_cons, ih hn.2]

theorem filter_fst (l : List (Nat × Bytes)) (u : Nat) : (l.filter (fun x => decide (x.1 ≠ u))).map (·.1) = (l.map (·.1)).filter (fun v => decide (v ≠ u)) := by
  induction l with
  | nil => rfl
  | cons x l ih =>
    rw [List.map_cons, List.filter_cons, List.filter_cons]
    by_cases e : x.1 = u
    · rw [if_neg (by simp [e]), if_neg (by simp [e]), ih]
    · rw [if_pos (by simp [e]), if_pos (by simp [e]), List.map_cons, ih]

theorem lines_append (l l' : List Bytes) : Spec.lines (l ++ l') = Spec.lines l ++ Spec.lines l' := List.flatMap_append

/-! ## Results of lookups -/

/-- What a result does to the connections. -/
structure Told (cfg : Cfg) (t t' : Tool) (u : Nat) (dom : Bytes) (r : Result) : Prop where
  run : (u, dom) ∈ Spec.running t.log
  log : ∃ l, t'.log = l ++ .result u r :: t.log ∧ ∀ o ∈ l, IsOut o
  got : ∀ n, Spec.got n t'.log = Spec.got n t.log ++ if asksFor dom t.socks n then response (fmt cfg dom (some r)) r.last else []
  socks : t'.socks = t.socks.filter (fun x => !(r.last && x.query == dom))
  conns : t'.conns = t.conns
  exited : t'.exited = t.exited

theorem resultCb_killed {cfg : Cfg} (t : Tool) (x : Nat × Nat × Result) (h : t.killed = true) : (resultCb cfg t x).killed = true := by
  unfold resultCb
  split
  · exact h
  · dsimp only
    split
    · exact respond_killed (by rw [emit_killed]; exact h) _ _
    · exact respond_killed (by rw [emit_killed]; exact h) _ _

theorem moved_killed {cfg : Cfg} {t : Tool} (c : Client.Client) (h : t.killed = true) : (t.moved cfg c).killed = true :=
  foldl_killed (resultCb_killed (cfg := cfg)) _ h

theorem moved_core {cfg : Cfg} {t : Tool} (h : Core cfg [] t) {c' : Client.Client} (hm : Moved t.client c') (hr : Client.Early c')
    (hlog : t.client.log <:+ c'.log) (hk : (t.moved cfg c').killed = false) :
    Core cfg [] (t.moved cfg c')
    ∧ (t.moved cfg c' = { t with client := c' } ∨ ∃ u dom r, Told cfg t (t.moved cfg c') u dom r) := by
  have hk0 : t.killed = false := not_killed (moved_killed c') hk
  unfold Tool.moved at hk ⊢
  rcases hm.callbacks (Keyed.of h.rest.inv) with ⟨e1, e2, e3⟩ | ⟨u, r, e1, e2, e3, e4⟩
  · rw [e1, List.foldl_nil]
    exact ⟨⟨hr, by rw [← h.live]; exact e2, h.queries, h.handled, fun u => by rw [h.results]; exact (e3 u).symm, h.printed, h.ids,
      fun o ho => (h.right o ho).mono hlog, h.order⟩, .inl rfl⟩
  · rw [e1, List.foldl_cons, List.foldl_nil] at hk ⊢
    have hrun : ∃ dom, (u, dom) ∈ Spec.running t.log := by
      rw [h.live, List.mem_reverse] at e2
      obtain ⟨x, hx, rfl⟩ := List.mem_map.1 e2
      exact ⟨x.2, hx⟩
    obtain ⟨dom, hrun⟩ := hrun
    have hfind : ({ t with client := c' } : Tool).queries.find? (·.handle == u + 1) = some { text := dom, handle := u + 1 } := by
      show t.queries.find? _ = _
      rw [h.queries]
      exact find_queries h.nodup hrun
    unfold resultCb at hk ⊢
    rw [hfind] at hk ⊢
    dsimp only at hk ⊢
    rw [emit_log (t := { t with client := c' }) hk0] at hk ⊢
    generalize ht1 : ({ t with client := c', log := .result u r :: t.log } : Tool) = t1 at *
    have ht1' : t1 = { t with client := c', log := .result u r :: t.log } := ht1.symm
    have hk1 : (respond cfg t1 dom (some r)).killed = false := by
      split at hk <;> exact hk
    have hn1 : (t1.socks.map (·.id)).Nodup := by rw [ht1']; exact h.ids.1
    obtain ⟨w1, w2, w3⟩ := respond_spec hn1 hk1
    obtain ⟨l, hl1, hl2⟩ := w1.log
    have hl1 : (respond cfg t1 dom (some r)).log = l ++ (.result u r :: t.log) := by rw [hl1, ht1']
    obtain ⟨s1, s2, s3, s4, s5, s6⟩ := out_same (log := .result u r :: t.log) hl2 cfg
    generalize hT : (if r.last = true then { respond cfg t1 dom (some r) with
        queries := (respond cfg t1 dom (some r)).queries.eraseP (fun x => x.handle == u + 1) } else respond cfg t1 dom (some r)) = T at *
    have f1 : T.log = l ++ (.result u r :: t.log) := by subst hT; split <;> exact hl1
    have f2 : T.client = c' := by subst hT; split <;> exact w1.client.trans (by rw [ht1'])
    have f3 : T.socks = t.socks.filter (fun x => !(r.last && x.query == dom)) := by
      have : T.socks = (respond cfg t1 dom (some r)).socks := by subst hT; split <;> rfl
      rw [this, w2, ht1']; rfl
    have f4 : T.conns = t.conns := by subst hT; split <;> exact w1.conns.trans (by rw [ht1'])
    have f5 : T.exited = t.exited := by subst hT; split <;> exact w1.exited.trans (by rw [ht1'])
    have f6 : T.handled = if r.last then t.handled + 1 else t.handled := by
      have : T.handled = (respond cfg t1 dom (some r)).handled := by subst hT; split <;> rfl
      rw [this, w3, ht1']; rfl
    have f7 : T.queries = (if r.last then t.queries.eraseP (fun x => x.handle == u + 1) else t.queries) := by
      have hq : (respond cfg t1 dom (some r)).queries = t.queries := w1.queries.trans (by rw [ht1'])
      subst hT
      split
      · dsimp only; rw [hq]
      · exact hq
    have hrun' : Spec.running T.log = if r.last then (Spec.running t.log).filter (fun x => decide (x.1 ≠ u)) else Spec.running t.log := by
      rw [f1, s1]; rfl
    refine ⟨⟨by rw [f2]; exact hr, ?_, ?_, ?_, ?_, ?_, ?_, ?_, ?_⟩, .inr ⟨u, dom, r, hrun, ⟨l, f1, hl2⟩, ?_, f3, f4, f5⟩⟩
    · rw [f2, e3, hrun', h.live]
      split
      · rw [filter_fst, List.filter_reverse]
      · rfl
    · rw [f7, hrun', h.queries]
      split
      · exact erase_queries h.nodup u
      · rfl
    · rw [f6, f1, s2, h.handled]; rfl
    · intro v
      rw [f1, s3, f2, e4, ← h.results v]
      show (if u = v then Spec.results v t.log ++ [r] else Spec.results v t.log) = _
      by_cases e : v = u
      · rw [if_pos e, if_pos e.symm]
      · rw [if_neg e, if_neg (fun e' => e e'.symm), List.append_nil]
    · have hp : Spec.printed T.log = Spec.printed t.log ++ (fmt cfg dom (some r) ++ [10]) := by
        have : T.log = (respond cfg t1 dom (some r)).log := by rw [f1, hl1]
        rw [this, w1.printed, ht1']; rfl
      have htp : Spec.toPrint cfg T.log = Spec.toPrint cfg t.log ++ [fmt cfg dom (some r)] := by
        rw [f1, s5, Spec.toPrint]
        congr 1
        show (match (Spec.running t.log).find? (fun x => decide (x.1 = u)) with | some x => [fmt cfg x.2 (some r)] | none => []) = _
        rw [find_running h.nodup hrun]
      rw [hp, htp, List.append_nil, ← List.append_assoc (header cfg), lines_append, ← h.printed, List.append_nil]
      congr 1
      show _ = Spec.lines [_]
      simp [Spec.lines]
    · rw [f3, f4]
      exact ⟨(List.filter_sublist.map _).nodup h.ids.1, fun c hc => h.ids.2 c (List.mem_filter.1 hc).1⟩
    · intro o ho
      rw [f1] at ho
      rw [f2]
      rcases List.mem_append.1 ho with ho | ho
      · have := hl2 o ho
        cases o <;> first | exact this.elim | trivial
      · rcases List.mem_cons.1 ho with rfl | ho
        · trivial
        · exact (h.right o ho).mono hlog
    · rw [f1]
      exact order_out hl2 h.order
    · intro n
      have : T.log = (respond cfg t1 dom (some r)).log := by rw [f1, hl1]
      rw [this, w1.got, ht1']
      show Spec.got n (.result u r :: t.log) ++ _ = _
      rw [Spec.got, show Spec.gets n (.result u r) = [] from rfl, List.append_nil]
      rfl

/-! ## Queries -/

/-- What happens to a query. -/
inductive Began (cfg : Cfg) (t t' : Tool) (o : Option Nat) (line : Bytes) : Prop
  | refused : (∃ l, t'.log = l ++ .refused o line :: t.log ∧ ∀ o ∈ l, IsOut o) →
      (∀ n, Spec.got n t'.log = Spec.got n t.log
        ++ if asksFor (Spec.domain line) t.socks n then response (fmt cfg (Spec.domain line) none) true else []) →
      t'.socks = t.socks.filter (fun x => !(x.query == Spec.domain line)) → t'.conns = t.conns → t'.exited = t.exited → Began cfg t t' o line
  | started (u : Nat) (q : Query) (mn to : Nat) : t'.log = .started o line u q mn to :: t.log →
      (∀ n, Spec.got n t'.log = Spec.got n t.log) → t'.socks = t.socks → t'.conns = t.conns → t'.exited = t.exited → Began cfg t t' o line

theorem refuse_killed {cfg : Cfg} {t : Tool} (h : t.killed = true) (o : Option Nat) (line : Bytes) : (refuse cfg t o line).killed = true :=
  respond_killed (by rw [emit_killed]; exact h) _ _

theorem startQuery_killed {cfg : Cfg} {t : Tool} (h : t.killed = true) (o : Option Nat) (line : Bytes) :
    (startQuery cfg t o line).killed = true := by
  unfold startQuery
  split
  · exact refuse_killed h o line
  · dsimp only
    split
    · exact refuse_killed (moved_killed _ h) o line
    · rw [emit_killed]; exact moved_killed _ h

theorem startQuery_uids (cfg : Cfg) (t : Tool) (o : Option Nat) (line : Bytes) (q : Query) (mn to : Nat)
    (h : readQuery cfg line = some (q, mn, to)) (hc : callbacks t.client (Client.request (Client.react {} 0) (fun _ => []) t.client q mn to).2 = [])
    (h0 : (Client.request (Client.react {} 0) (fun _ => []) t.client q mn to).1 ≠ 0) :
    startQuery cfg t o line = ({ t with
      client := (Client.request (Client.react {} 0) (fun _ => []) t.client q mn to).2,
      queries := { text := (parts line).2, handle := (Client.request (Client.react {} 0) (fun _ => []) t.client q mn to).1 } :: t.queries } : Tool).emit
        (.started o line t.client.uids q mn to) := by
  unfold startQuery
  rw [h]
  dsimp only
  rw [if_neg h0]
  unfold Tool.moved
  rw [hc]; rfl

theorem startQuery_core {cfg : Cfg} {t : Tool} (h : Core cfg [] t) (o : Option Nat) (line : Bytes)
    (hm : (startQuery cfg t o line).client.uids ≤ Client.MAX) (hk : (startQuery cfg t o line).killed = false) :
    Core cfg (announce o line) (startQuery cfg t o line) ∧ Began cfg t (startQuery cfg t o line) o line := by
  have hk0 : t.killed = false := not_killed (fun h => startQuery_killed h o line) hk
  have hann : (if o.isSome = true then [b "query: " ++ line] else []).flatMap (fun s : Bytes => s ++ [10]) = announce o line := by
    unfold announce
    split
    · simp
    · rfl
  cases hq : readQuery cfg line with
  | none =>
    have hdef : startQuery cfg t o line = refuse cfg t o line := by unfold startQuery; rw [hq]
    rw [hdef] at hk ⊢
    unfold refuse at hk ⊢
    rw [emit_log hk0, parts_eq] at hk ⊢
    generalize ht1 : ({ t with log := .refused o line :: t.log } : Tool) = t1 at hk ⊢
    have ht1' := ht1.symm
    have hn1 : (t1.socks.map (·.id)).Nodup := by rw [ht1']; exact h.ids.1
    obtain ⟨w1, w2, w3⟩ := respond_spec hn1 hk
    obtain ⟨l, hl1, hl2⟩ := w1.log
    have hl1 : (respond cfg t1 (Spec.domain line) none).log = l ++ (.refused o line :: t.log) := by rw [hl1, ht1']
    obtain ⟨s1, s2, s3, s4, s5, s6⟩ := out_same (log := .refused o line :: t.log) hl2 cfg
    have f2 : (respond cfg t1 (Spec.domain line) none).client = t.client := w1.client.trans (by rw [ht1'])
    have f3 : (respond cfg t1 (Spec.domain line) none).socks = t.socks.filter (fun x => !(x.query == Spec.domain line)) := by
      rw [w2, ht1']; rfl
    have f4 : (respond cfg t1 (Spec.domain line) none).conns = t.conns := w1.conns.trans (by rw [ht1'])
    refine ⟨⟨by rw [f2]; exact h.rest, ?_, ?_, ?_, ?_, ?_, ?_, ?_, ?_⟩, .refused ⟨l, hl1, hl2⟩ ?_ f3 f4 (w1.exited.trans (by rw [ht1']))⟩
    · rw [f2, hl1, s1]; exact h.live
    · rw [w1.queries, ht1']
      show t.queries = _
      rw [show (respond cfg { t with log := .refused o line :: t.log } (Spec.domain line) none).log = _ from ht1' ▸ hl1, s1]
      exact h.queries
    · rw [w3, hl1, s2, ht1']
      show t.handled + 1 = Spec.answered t.log + 1
      rw [h.handled]
    · intro u
      rw [hl1, s3, f2]; exact h.results u
    · rw [w1.printed, hl1, s5, ht1']
      show (Spec.printed t.log ++ _) ++ _ = Spec.lines (header cfg ++ (Spec.toPrint cfg t.log ++ (fmt cfg (Spec.domain line) none :: _)))
      rw [← List.append_assoc (header cfg), lines_append, ← h.printed, List.append_nil, List.append_assoc]
      congr 1
      show _ = ((fmt cfg (Spec.domain line) none) ++ [10]) ++ (if o.isSome = true then [b "query: " ++ line] else []).flatMap (fun s : Bytes => s ++ [10])
      rw [hann]
    · rw [f3, f4]
      exact ⟨(List.filter_sublist.map _).nodup h.ids.1, fun c hc => h.ids.2 c (List.mem_filter.1 hc).1⟩
    · intro x hx
      rw [f2]
      rw [hl1] at hx
      rcases List.mem_append.1 hx with hx | hx
      · have := hl2 x hx
        cases x <;> first | exact this.elim | trivial
      · rcases List.mem_cons.1 hx with rfl | hx
        · rintro ⟨q, mn, to, ha⟩
          rw [readQuery_asks.2 ha] at hq
          cases hq
        · exact h.right x hx
    · rw [hl1]
      exact order_out hl2 h.order
    · intro n
      rw [w1.got, ht1']
      show Spec.got n (.refused o line :: t.log) ++ _ = _
      rw [Spec.got, show Spec.gets n (.refused o line) = [] from rfl, List.append_nil]
      rfl
  | some p =>
    obtain ⟨q, mn, to⟩ := p
    have hv := readQuery_valid hq
    obtain ⟨r1, r2, r3, r4⟩ := request_new h.rest.inv hv mn to
    obtain ⟨c1, c2⟩ := request_callbacks h.rest.inv hv mn to
    have hdef := startQuery_uids cfg t o line q mn to hq c1 (by rw [r1]; omega)
    rw [hdef, emit_log (by exact hk0)] at hm hk ⊢
    dsimp only at hm
    have hR : Client.Early (Client.step {} 0 t.client (.act (.request q mn to))) := Client.early_step h.rest _ hm
    refine ⟨⟨hR, ?_, ?_, h.handled, ?_, ?_, h.ids, ?_, ⟨h.order, ?_⟩⟩, .started t.client.uids q mn to rfl (fun n => List.append_nil _) rfl rfl rfl⟩
    · dsimp only
      rw [r3, h.live]
      show _ = (t.client.uids :: (Spec.running t.log).map (·.1)).reverse
      rw [List.reverse_cons]
    · dsimp only
      rw [r1, h.queries, parts_eq]
      rfl
    · intro u
      dsimp only
      rw [c2]
      exact h.results u
    · show Spec.printed t.log ++ _ = Spec.lines (header cfg ++ (Spec.toPrint cfg t.log ++ (if o.isSome = true then [b "query: " ++ line] else [])))
      rw [← List.append_assoc (header cfg), lines_append, ← h.printed, List.append_nil]
      congr 1
      exact hann.symm
    · intro x hx
      rcases List.mem_cons.1 hx with rfl | hx
      · refine ⟨readQuery_asks.1 hq, t.client.uids + 1, ?_⟩
        dsimp only
        rw [r4, Client.hist_same]
        exact List.mem_cons_self
      · refine (h.right x hx).mono ?_
        dsimp only
        rw [r4]
        exact List.suffix_cons _ _
    · rw [h.results, h.rest.inv.fresh _ (Nat.le_refl _)]
      rfl

end Verif.Tool
