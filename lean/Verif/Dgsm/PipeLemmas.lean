import Verif.Dgsm.Pipe
import Verif.Dgsm.Lemmas
/-!
# What the example programs read
-/
namespace Verif.Dgsm
open Verif Verif.Mslookup Verif.Tool Verif.Sys

/-! ## The lookup of one query -/

theorem program_pipe (env : Env) (q : Bytes) (hq : ∀ u, q ≠ 45 :: u) (turns : List (List Tool.Ev)) :
    program env [b "-f", b "json", q] turns = some (run (cfgOf env) [q] turns) := by
  have hc : Start.Cmdline Start.lookupDoc false [b "-f", b "json", q] [⟨b "format", some (b "json")⟩] [q] :=
    .next (fs := []) (d := { short := some 102, long := b "format", arg := true }) (c := 102) (by intro d hd; cases hd)
      (by decide +kernel) rfl rfl (.word rfl (.inr hq) .nil)
  unfold program Start.lookupMain
  rw [Start.lookup_agree.reads hc]
  rfl

theorem start_any (env : Env) {line : Bytes} {q : Query} {mn to : Nat} (hr : readQuery (cfgOf env) line = some (q, mn, to))
    (hv : (serviceValid q.service && idValid q.id) = true) : One (.started none line 0 q mn to) (start (cfgOf env) [line]) := by
  unfold start
  dsimp only
  rw [List.foldl_cons, List.foldl_nil, if_neg (by simp [cfgOf])]
  unfold startQuery
  rw [hr]
  dsimp only
  have hreq : ∃ c : Client.Client, Client.request (Client.react {} 0) (fun _ => []) ({} : Client.Client) q mn to = (1, c) ∧ c.uids = 1
      ∧ ∃ o, c.log = [(0, .issued 1 mn o)] := by
    unfold Client.request
    have hv' : (!serviceValid q.service || !idValid q.id) = false := by
      rw [Bool.and_eq_true] at hv
      simp [hv.1, hv.2]
    rw [hv', if_neg Bool.false_ne_true]
    exact ⟨_, rfl, rfl, _, rfl⟩
  obtain ⟨c, e, hu, o, hl⟩ := hreq
  rw [e]
  dsimp only
  have hm : (({} : Tool).moved (cfgOf env) c) = { ({} : Tool) with client := c } := by
    unfold Tool.moved callbacks
    rw [hl]
    rfl
  rw [hm, if_neg (by decide)]
  refine ⟨rfl, rfl, hu, ⟨[], rfl, fun _ h => by cases h⟩, fun h => by cases h⟩

theorem run_any (env : Env) {line : Bytes} {q : Query} {mn to : Nat} (hr : readQuery (cfgOf env) line = some (q, mn, to))
    (hv : (serviceValid q.service && idValid q.id) = true) (turns : List (List Tool.Ev)) (ht : Spec.Lookup turns) :
    One (.started none line 0 q mn to) (run (cfgOf env) [line] turns) := by
  unfold run
  have h := start_any env hr hv
  generalize start (cfgOf env) [line] = t at h
  induction turns generalizing t with
  | nil => exact h
  | cons evs turns ih => exact ih (fun x hx => ht x (by simp [hx])) _ (h.turn _ (ht evs (by simp)))

theorem prints_all (cfg : Tool.Cfg) {line : Bytes} {q : Query} {mn to : Nat} (l : List Tool.Obs) (hl : ∀ o ∈ l, Later o) :
    ((∀ r ∈ Tool.Spec.results 0 (l ++ [.started none line 0 q mn to]), r.last = false) →
      Tool.Spec.running (l ++ [.started none line 0 q mn to]) = [(0, Tool.Spec.domain line)]
      ∧ Tool.Spec.toPrint cfg (l ++ [.started none line 0 q mn to])
        = (Tool.Spec.results 0 (l ++ [.started none line 0 q mn to])).map (fun r => fmt cfg (Tool.Spec.domain line) (some r)))
    ∧ ∀ rs r, (∀ x ∈ rs, Result.last x = false) → r.last = true → Tool.Spec.results 0 (l ++ [.started none line 0 q mn to]) = rs ++ [r] →
      Tool.Spec.running (l ++ [.started none line 0 q mn to]) = []
      ∧ Tool.Spec.toPrint cfg (l ++ [.started none line 0 q mn to]) = (rs ++ [r]).map (fun r => fmt cfg (Tool.Spec.domain line) (some r)) := by
  induction l with
  | nil => exact ⟨fun _ => ⟨rfl, rfl⟩, fun rs r _ _ h => by simp [Tool.Spec.results] at h⟩
  | cons o l ih =>
    obtain ⟨i1, i2⟩ := ih (fun x hx => hl x (by simp [hx]))
    rw [List.cons_append]
    generalize l ++ [Tool.Obs.started none line 0 q mn to] = L at i1 i2 ⊢
    rcases hl o (by simp) with ⟨u, r, rfl⟩ | ⟨s, rfl⟩ | rfl
    · by_cases hu : u = 0
      · subst hu
        have e : Tool.Spec.results 0 (.result 0 r :: L) = Tool.Spec.results 0 L ++ [r] := by rw [Tool.Spec.results, if_pos rfl]
        rw [e]
        refine ⟨fun h => ?_, ?_⟩
        · obtain ⟨j1, j2⟩ := i1 (fun x hx => h x (by simp [hx]))
          have hr : ¬ (r.last = true) := by rw [h r (by simp)]; exact Bool.false_ne_true
          refine ⟨?_, ?_⟩
          · rw [Tool.Spec.running, if_neg hr, j1]
          · rw [Tool.Spec.toPrint, j2, Tool.Spec.prints, j1, List.map_append]; rfl
        · intro rs r' hrs hr' h
          obtain ⟨e1, e2⟩ := List.append_inj' h rfl
          cases e2
          obtain ⟨j1, j2⟩ := i1 (fun x hx => hrs x (e1 ▸ hx))
          refine ⟨?_, ?_⟩
          · rw [Tool.Spec.running, if_pos hr', j1]; rfl
          · rw [Tool.Spec.toPrint, j2, Tool.Spec.prints, j1, List.map_append, e1]; rfl
      · have e : Tool.Spec.results 0 (.result u r :: L) = Tool.Spec.results 0 L := by rw [Tool.Spec.results, if_neg hu]
        have hu' : ¬ (0 = u) := fun h => hu h.symm
        rw [e]
        refine ⟨fun h => ?_, fun rs r' hrs hr' h => ?_⟩
        · obtain ⟨j1, j2⟩ := i1 h
          refine ⟨?_, ?_⟩
          · rw [Tool.Spec.running, j1]
            split
            · simp [hu']
            · rfl
          · rw [Tool.Spec.toPrint, j2, Tool.Spec.prints, j1]
            simp [hu']
        · obtain ⟨j1, j2⟩ := i2 rs r' hrs hr' h
          refine ⟨?_, ?_⟩
          · rw [Tool.Spec.running, j1]
            split <;> rfl
          · rw [Tool.Spec.toPrint, j2, Tool.Spec.prints, j1]
            exact List.append_nil _
    · refine ⟨fun h => ?_, fun rs r' hrs hr' h => ?_⟩
      · obtain ⟨j1, j2⟩ := i1 h
        exact ⟨j1, by rw [Tool.Spec.toPrint, j2]; exact List.append_nil _⟩
      · obtain ⟨j1, j2⟩ := i2 rs r' hrs hr' h
        exact ⟨j1, by rw [Tool.Spec.toPrint, j2]; exact List.append_nil _⟩
    · refine ⟨fun h => ?_, fun rs r' hrs hr' h => ?_⟩
      · obtain ⟨j1, j2⟩ := i1 h
        exact ⟨j1, by rw [Tool.Spec.toPrint, j2]; exact List.append_nil _⟩
      · obtain ⟨j1, j2⟩ := i2 rs r' hrs hr' h
        exact ⟨j1, by rw [Tool.Spec.toPrint, j2]; exact List.append_nil _⟩

/-! ## The results of one lookup -/

open Client.Spec

theorem callbacks_mem {t : List Client.Obs} {r : Result} : r ∈ Tool.Spec.callbacksOf t ↔ Client.Obs.cb r ∈ t := by
  induction t with
  | nil => exact ⟨fun h => (by cases h), fun h => (by cases h)⟩
  | cons o t ih => cases o <;> simp [Tool.Spec.callbacksOf, ih, or_comm]

/-- Only the last of the callbacks says that it is the last. -/
theorem callbacks_last {t : List Client.Obs} (hok : Ok t) :
    (¬ Ended t ∧ ∀ r ∈ Tool.Spec.callbacksOf t, r.last = false)
    ∨ (Ended t ∧ ∃ rs r, Tool.Spec.callbacksOf t = rs ++ [r] ∧ r.last = true ∧ ∀ x ∈ rs, Result.last x = false) := by
  have hE : ∀ t, Ended t ↔ ∃ r ∈ Tool.Spec.callbacksOf t, r.last = true := fun t =>
    ⟨fun ⟨r, h, hl⟩ => ⟨r, callbacks_mem.2 h, hl⟩, fun ⟨r, h, hl⟩ => ⟨r, callbacks_mem.1 h, hl⟩⟩
  induction t with
  | nil => exact .inl ⟨fun ⟨r, h, _⟩ => (by cases h), fun r h => (by cases h)⟩
  | cons o t ih =>
    obtain ⟨ok, ha⟩ := hok
    have same : Tool.Spec.callbacksOf (o :: t) = Tool.Spec.callbacksOf t →
        (¬ Ended (o :: t) ∧ ∀ r ∈ Tool.Spec.callbacksOf (o :: t), r.last = false)
        ∨ (Ended (o :: t) ∧ ∃ rs r, Tool.Spec.callbacksOf (o :: t) = rs ++ [r] ∧ r.last = true ∧ ∀ x ∈ rs, Result.last x = false) := by
      intro e
      rw [hE, e, ← hE]
      exact ih ok
    cases o with
    | cb r =>
      have hopen : Open t := ha.1
      rcases ih ok with ⟨h1, h2⟩ | ⟨h1, -⟩
      · cases hl : r.last with
        | false =>
          refine .inl ⟨?_, ?_⟩
          · rw [hE]
            rintro ⟨x, hx, hx2⟩
            rw [Tool.Spec.callbacksOf, List.mem_append, List.mem_singleton] at hx
            rcases hx with hx | rfl
            · exact Bool.false_ne_true ((h2 x hx).symm.trans hx2)
            · exact Bool.false_ne_true (hl.symm.trans hx2)
          · intro x hx
            rw [Tool.Spec.callbacksOf, List.mem_append, List.mem_singleton] at hx
            rcases hx with hx | rfl
            · exact h2 x hx
            · exact hl
        | true => exact .inr ⟨⟨r, List.mem_cons_self, hl⟩, _, r, rfl, hl, h2⟩
      · exact absurd h1 hopen.2.1
    | issued a c d => exact same rfl
    | rx a => exact same rfl
    | tick => exact same rfl
    | cancel => exact same rfl

/-- What was reported had arrived, and got younger and younger. -/
theorem reported_facts {t : List Client.Obs} (hok : Ok t) :
    (∀ y ∈ reported t, ∃ x ∈ arrived t, Same y x) ∧ (reported t).Pairwise (fun a c => a.age < c.age) := by
  induction t with
  | nil => exact ⟨fun y h => (by cases h), .nil⟩
  | cons o t ih =>
    obtain ⟨ok, ha⟩ := hok
    obtain ⟨i1, i2⟩ := ih ok
    cases o with
    | cb r =>
      have ea : arrived (Client.Obs.cb r :: t) = arrived t := rfl
      rw [ea]
      by_cases hr : r.rc = .result
      · have er : reported (Client.Obs.cb r :: t) = r :: reported t := by rw [reported, if_pos hr]
        rw [er]
        obtain ⟨⟨x, hx, hs⟩, hy, -⟩ := ha.2.1 hr
        refine ⟨fun y h => ?_, List.pairwise_cons.2 ⟨hy, i2⟩⟩
        rcases List.mem_cons.1 h with rfl | h
        · exact ⟨x, hx.1, hs⟩
        · exact i1 y h
      · have er : reported (Client.Obs.cb r :: t) = reported t := by rw [reported, if_neg hr]
        rw [er]
        exact ⟨i1, i2⟩
    | rx a =>
      refine ⟨fun y h => ?_, i2⟩
      obtain ⟨x, hx, hs⟩ := i1 y h
      refine ⟨x, ?_, hs⟩
      rw [arrived]
      split
      · exact List.mem_cons_of_mem _ hx
      · exact hx
    | issued a c d => exact ⟨i1, i2⟩
    | tick => exact ⟨i1, i2⟩
    | cancel => exact ⟨i1, i2⟩

/-- When a lookup has ended, the last address that was reported is the youngest that arrived. -/
theorem ended_best {t : List Client.Obs} (hok : Ok t) (he : Ended t) :
    (arrived t = [] ∧ reported t = []) ∨ ∃ y ys x, reported t = y :: ys ∧ Best x (arrived t) ∧ Same y x := by
  induction t with
  | nil => obtain ⟨r, h, _⟩ := he; cases h
  | cons o t ih =>
    obtain ⟨ok, ha⟩ := hok
    have back : (∀ r, o ≠ .cb r) → Ended t := by
      intro ho
      obtain ⟨r, h, hl⟩ := he
      rcases List.mem_cons.1 h with e | h
      · exact absurd e.symm (ho r)
      · exact ⟨r, h, hl⟩
    cases o with
    | cb r =>
      have hopen : Open t := ha.1
      have hl : r.last = true := by
        obtain ⟨r', h, hl⟩ := he
        rcases List.mem_cons.1 h with e | h
        · cases e; exact hl
        · exact absurd ⟨r', h, hl⟩ hopen.2.1
      obtain ⟨f1, f2⟩ := reported_facts ok
      have ea : arrived (Client.Obs.cb r :: t) = arrived t := rfl
      rw [ea]
      by_cases hr : r.rc = .result
      · have er : reported (Client.Obs.cb r :: t) = r :: reported t := by rw [reported, if_pos hr]
        obtain ⟨⟨x, hx, hs⟩, -⟩ := ha.2.1 hr
        exact .inr ⟨r, _, x, er, hx, hs⟩
      · have er : reported (Client.Obs.cb r :: t) = reported t := by rw [reported, if_neg hr]
        rw [er]
        rcases ha.2.2.2.1 hl with h | ⟨-, h⟩ | ⟨-, x, hx, y, hy, hs⟩
        · exact absurd h hr
        · refine .inl ⟨h, ?_⟩
          cases hc : reported t with
          | nil => rfl
          | cons y ys =>
            obtain ⟨x, hx, -⟩ := f1 y (by rw [hc]; exact List.mem_cons_self)
            rw [h] at hx; cases hx
        · right
          cases hc : reported t with
          | nil => rw [hc] at hy; cases hy
          | cons z zs =>
            rw [hc] at hy f2
            refine ⟨z, zs, x, rfl, hx, ?_⟩
            rcases List.mem_cons.1 hy with rfl | hy
            · exact hs
            · have h1 := (List.pairwise_cons.1 f2).1 y hy
              obtain ⟨w, hw, hws⟩ := f1 z (by rw [hc]; exact List.mem_cons_self)
              have h2 := hx.2 w hw
              have h3 : y.age = x.age := hs.2.2
              have h4 : z.age = w.age := hws.2.2
              omega
    | rx a => exact absurd (back (fun r h => by cases h)) (show Open t from ha).2.1
    | tick => exact absurd (back (fun r h => by cases h)) (show Open t from ha.1).2.1
    | issued a c d =>
      obtain ⟨rfl, -⟩ : t = [] ∧ a ≠ 0 := ha
      obtain ⟨r, h, _⟩ := back (fun r h => by cases h)
      cases h
    | cancel => exact ih ok (back (fun r h => by cases h))

/-! ## The loop over the lines -/

theorem readLines_one (acc s t : Bytes) (h : (10 : UInt8) ∉ s) : readLines acc (s ++ 10 :: t) = (acc ++ s ++ [10]) :: readLines [] t := by
  induction s generalizing acc with
  | nil => rw [List.nil_append, readLines, if_pos rfl, List.append_nil]
  | cons c s ih =>
    rw [List.cons_append, readLines, if_neg (fun e => h (by rw [e]; exact List.mem_cons_self)), ih _ (fun hm => h (List.mem_cons_of_mem _ hm))]
    simp

theorem readLines_all (ls : List Bytes) (h : ∀ l ∈ ls, (10 : UInt8) ∉ l) : readLines [] (Tool.Spec.lines ls) = ls.map (· ++ [10]) := by
  induction ls with
  | nil => rfl
  | cons l ls ih =>
    have e : Tool.Spec.lines (l :: ls) = l ++ 10 :: Tool.Spec.lines ls := by simp [Tool.Spec.lines]
    rw [e, readLines_one [] l _ (h l List.mem_cons_self), ih (fun x hx => h x (List.mem_cons_of_mem _ hx))]
    rfl

/-- The value after the last result with an address. -/
def lastResult {α : Type} (f : Result → α) (a : α) (rs : List Result) : α := rs.foldl (fun a r => if r.rc = .result then f r else a) a

theorem lastResult_reported {α : Type} (f : Result → α) (a : α) (t : List Client.Obs) :
    lastResult f a (Tool.Spec.callbacksOf t) = match reported t with | [] => a | y :: _ => f y := by
  induction t with
  | nil => rfl
  | cons o t ih =>
    cases o with
    | cb r =>
      rw [Tool.Spec.callbacksOf, lastResult, List.foldl_append, List.foldl_cons, List.foldl_nil]
      by_cases hr : r.rc = .result
      · rw [if_pos hr, reported, if_pos hr]
      · rw [if_neg hr, reported, if_neg hr]
        exact ih
    | issued _ _ _ => exact ih
    | rx _ => exact ih
    | tick => exact ih
    | cancel => exact ih

theorem answer_result (cfg : Tool.Cfg) (text : Bytes) (r : Result) :
    ∃ l, Tool.Spec.answer cfg text (some r) = .obj l ∧ isResult (.obj l) = decide (r.rc = .result) := by
  have e1 : (b "query" == b "result") = false := by decide +kernel
  have e3 : (b "last" == b "result") = false := by decide +kernel
  have e4 : (b "age" == b "result") = false := by decide +kernel
  have e5 : (b "v4" == b "result") = false := by decide +kernel
  have e6 : (b "v6" == b "result") = false := by decide +kernel
  have k1 : (b "none" == b "result") = false := by decide +kernel
  have k2 : (b "not-found" == b "result") = false := by decide +kernel
  refine ⟨_, rfl, ?_⟩
  unfold isResult getItem Tool.Spec.addrJson
  cases hr : r.rc with
  | result =>
    by_cases h4 : r.v4.nonzero = true
    · by_cases h6 : r.v6.nonzero = true
      · simp [h4, h6, List.find?, e1, e3, e4, e5, e6, Tool.Spec.kind]
      · simp [h4, h6, List.find?, e1, e3, e4, e5, Tool.Spec.kind]
    · by_cases h6 : r.v6.nonzero = true
      · simp [h4, h6, List.find?, e1, e3, e4, e6, Tool.Spec.kind]
      · simp [h4, h6, List.find?, e1, e3, e4, Tool.Spec.kind]
  | none => simp [List.find?, e1, e3, e4, Tool.Spec.kind, k1]
  | notFound => simp [List.find?, e1, e3, e4, Tool.Spec.kind, k2]

theorem pipeLoop_all (cfg : Tool.Cfg) (text : Bytes) (line : Result → Bytes) (rs : List Result)
    (h : ∀ r ∈ rs, (ascii (line r)).bind loads = some (Tool.Spec.answer cfg text (some r))) (j : Tool.Spec.Json) :
    pipeLoop j (rs.map line) = some (lastResult (fun r => Tool.Spec.answer cfg text (some r)) j rs) := by
  induction rs generalizing j with
  | nil => rfl
  | cons r rs ih =>
    obtain ⟨l, e1, e2⟩ := answer_result cfg text r
    rw [List.map_cons, pipeLoop, h r List.mem_cons_self, e1]
    dsimp only
    rw [ih (fun x hx => h x (List.mem_cons_of_mem _ hx)), e2, lastResult, lastResult, List.foldl_cons, e1]
    by_cases hr : r.rc = .result <;> simp [hr]

end Verif.Dgsm
