import Verif.Dgsm.Model
import Verif.Dgsm.Spec
import Verif.Tool.Props
import Verif.Start.Props5
/-!
# A lookup for a script
-/
namespace Verif.Dgsm
open Verif Verif.Mslookup Verif.Tool Verif.Sys

/-! ## The program that is run -/

/-- The options the scripts use. -/
def cfgOf (env : Env) : Tool.Cfg := { json := true, headers := true, daemon := false, minDelay := 1000, timeout := 1000, ip := env.ipText }

theorem program_eq (env : Env) (ws : List Bytes) (q : Bytes) (hq : ∀ u, q ≠ 45 :: u) (turns : List (List Tool.Ev))
    (hw : ws = [q, b "-f", b "json"]) : program env ws turns = some (run (cfgOf env) [q] turns) := by
  have hc : Start.Cmdline Start.lookupDoc false ws [⟨b "format", some (b "json")⟩] [q] := by
    rw [hw]
    exact .word rfl (.inr hq) (.next (fs := []) (d := { short := some 102, long := b "format", arg := true }) (c := 102) (by intro d hd; cases hd)
      (by decide +kernel) rfl rfl .nil)
  unfold program Start.lookupMain
  rw [Start.lookup_agree.reads hc]
  rfl

theorem query_word (service id : Bytes) (h : service.head? = some 115) : ∀ u, queryStr service id ≠ 45 :: u := by
  intro u e
  cases service with
  | nil => cases h
  | cons c s => cases h; unfold queryStr at e; cases e

/-- The query of a script for a telephone number. -/
def queryOf (service id : Bytes) : Query := { service := service, id := .msisdn id }

theorem read_query (env : Env) {service id : Bytes} (hs : service = b "sip.voice" ∨ service = b "smpp.sms") (hn : Spec.Number id) :
    readQuery (cfgOf env) (queryStr service id) = some (queryOf service id, 1000, 1000) ∧ Tool.Spec.domain (queryStr service id) = queryStr service id
    ∧ Tool.Spec.Plain (queryStr service id) := by
  obtain ⟨n1, n2, n3⟩ := hn
  have hdig : ∀ c ∈ id, c ≠ 64 ∧ 32 ≤ c ∧ c ≤ 126 ∧ c ≠ 34 ∧ c ≠ 92 := by
    intro c hc
    obtain ⟨h1, h2⟩ := n3 c hc
    have h1 : 48 ≤ c.toNat := h1
    have h2 : c.toNat ≤ 57 := h2
    have ne : ∀ y : UInt8, 57 < y.toNat ∨ y.toNat < 48 → c ≠ y := by intro y hy e; subst e; omega
    refine ⟨ne 64 (by decide), ?_, ?_, ne 34 (by decide), ne 92 (by decide)⟩
    · show 32 ≤ c.toNat; omega
    · show c.toNat ≤ 126; omega
  have hsv : (∀ c ∈ service, c ≠ 64 ∧ 32 ≤ c ∧ c ≤ 126 ∧ c ≠ 34 ∧ c ≠ 92) ∧ service.length ≤ 9 ∧ 1 ≤ service.length := by
    rcases hs with e | e <;> rw [e] <;> decide +kernel
  have hms : (∀ c ∈ b "msisdn", c ≠ 64 ∧ 32 ≤ c ∧ c ≤ 126 ∧ c ≠ 34 ∧ c ≠ 92) ∧ (b "msisdn").length = 6 := by decide +kernel
  have hall : ∀ c ∈ queryStr service id, c ≠ 64 ∧ 32 ≤ c ∧ c ≤ 126 ∧ c ≠ 34 ∧ c ≠ 92 := by
    intro c hc
    have hdot : (46 : UInt8) ≠ 64 ∧ (32 : UInt8) ≤ 46 ∧ (46 : UInt8) ≤ 126 ∧ (46 : UInt8) ≠ 34 ∧ (46 : UInt8) ≠ 92 := by decide
    unfold queryStr at hc
    rw [List.mem_append, List.mem_cons, List.mem_append, List.mem_cons] at hc
    rcases hc with h | h | h | h | h
    · exact hsv.1 c h
    · rw [h]; exact hdot
    · exact hdig c h
    · rw [h]; exact hdot
    · exact hms.1 c h
  have hat : (64 : UInt8) ∉ queryStr service id := fun h => (hall _ h).1 rfl
  have hdom : Tool.Spec.domain (queryStr service id) = queryStr service id := by unfold Tool.Spec.domain; rw [if_neg hat]
  refine ⟨readQuery_asks.2 ⟨queryStr service id, b "msisdn", .plain _ hat, ?_, ⟨⟨hsv.2.2, Nat.le_trans hsv.2.1 (by decide)⟩, n3, n1, n2⟩, rfl, ?_⟩, hdom,
    fun c hc => (hall c hc).2⟩
  · unfold queryStr
    simp only [List.length_append, List.length_cons, hms.2]
    have := hsv.2.1
    omega
  · show Mslookup.Spec.SameUpToCase (b "msisdn") (typeName (.msisdn id))
    have : typeName (.msisdn id) = b "msisdn" := by
      show typeName (.msisdn []) = b "msisdn"
      decide +kernel
    rw [this]
    exact Mslookup.Props.caseEq_same (by decide +kernel)

/-! ## Its run -/

/-- What is recorded after the start. -/
def Later (o : Tool.Obs) : Prop := (∃ u r, o = .result u r) ∨ (∃ s, o = .stdout s) ∨ o = .exit

/-- Nothing but the lookup happens. -/
structure One (s : Tool.Obs) (t : Tool) : Prop where
  killed : t.killed = false
  socks : t.socks = []
  uids : t.client.uids = 1
  log : ∃ l, t.log = l ++ [s] ∧ ∀ o ∈ l, Later o
  exited : t.exited = true → .exit ∈ t.log

theorem One.emit {s : Tool.Obs} {t : Tool} (h : One s t) {o : Tool.Obs} (ho : Later o) : One s (t.emit o) := by
  unfold Tool.emit
  rw [h.killed, if_neg Bool.false_ne_true]
  obtain ⟨l, e, hl⟩ := h.log
  refine ⟨rfl, h.socks, h.uids, ⟨o :: l, by rw [e]; rfl, ?_⟩, fun hx => List.mem_cons_of_mem _ (h.exited hx)⟩
  intro x hx
  rcases List.mem_cons.1 hx with e | hx
  · rw [e]; exact ho
  · exact hl x hx

theorem One.respond {s : Tool.Obs} {t : Tool} (h : One s t) (cfg : Tool.Cfg) (text : Bytes) (r : Option Result) : One s (respond cfg t text r) := by
  have h1 : One s (t.print (fmt cfg text r)) := h.emit (.inr (.inl ⟨_, rfl⟩))
  unfold Tool.respond
  dsimp only
  rw [h1.socks, List.foldl_nil]
  split
  · exact ⟨h1.killed, h1.socks, h1.uids, h1.log, h1.exited⟩
  · exact h1

theorem One.resultCb {s : Tool.Obs} {t : Tool} (h : One s t) (cfg : Tool.Cfg) (x : Nat × Nat × Result) : One s (resultCb cfg t x) := by
  unfold Tool.resultCb
  split
  · exact h
  · rename_i q _
    have h1 := (h.emit (o := .result x.1 x.2.2) (.inl ⟨_, _, rfl⟩)).respond cfg q.text (some x.2.2)
    dsimp only
    split
    · exact ⟨h1.killed, h1.socks, h1.uids, h1.log, h1.exited⟩
    · exact h1

theorem One.moved {s : Tool.Obs} {t : Tool} (h : One s t) (cfg : Tool.Cfg) (c : Client.Client) (hc : c.uids = 1) : One s (t.moved cfg c) := by
  unfold Tool.moved
  have h1 : One s { t with client := c } := ⟨h.killed, h.socks, hc, h.log, h.exited⟩
  generalize ({ t with client := c } : Tool) = t' at h1
  induction callbacks t.client c generalizing t' with
  | nil => exact h1
  | cons x l ih => exact ih _ (h1.resultCb cfg x)

theorem sendResult_uids0 (c : Client.Client) (r : Client.Req) (f : Bool) : (Client.sendResult (Client.react {} 0) c r f).uids = c.uids := by
  unfold Client.sendResult Client.react
  dsimp only
  split
  · unfold Client.Client.drop
    split <;> rfl
  · rfl

theorem rxResult_uids0 (c : Client.Client) (h : Nat) (res : Result) : (Client.rxResult (Client.react {} 0) c h res).uids = c.uids := by
  unfold Client.rxResult
  split
  · rfl
  · dsimp only
    split
    · rfl
    · split
      · rfl
      · split
        · rw [sendResult_uids0]; rfl
        · split
          · rfl
          · rw [sendResult_uids0]; rfl

theorem setTimer_uids0 (c : Client.Client) (u ms : Nat) : (Client.setTimer c u ms).uids = c.uids := by
  unfold Client.setTimer
  split <;> rfl

theorem timeoutCb_uids0 (c : Client.Client) (u : Nat) : (Client.timeoutCb (Client.react {} 0) c u).uids = c.uids := by
  unfold Client.timeoutCb
  split
  · rfl
  · dsimp only
    split
    · split
      · rw [sendResult_uids0]; rfl
      · rw [setTimer_uids0]
        split
        · rw [sendResult_uids0]; rfl
        · rfl
    · rw [sendResult_uids0]; rfl

theorem One.step {s : Tool.Obs} {t : Tool} (h : One s t) (cfg : Tool.Cfg) {e : Tool.Ev} (he : (∃ h r, e = .rx h r) ∨ ∃ u, e = .timeout u) :
    One s (step cfg t e) := by
  unfold Tool.step
  split
  · exact h
  · rcases he with ⟨hd, r, rfl⟩ | ⟨u, rfl⟩
    · exact h.moved cfg _ ((rxResult_uids0 _ _ _).trans h.uids)
    · exact h.moved cfg _ ((timeoutCb_uids0 _ _).trans h.uids)

theorem One.turn {s : Tool.Obs} {t : Tool} (h : One s t) (cfg : Tool.Cfg) {evs : List Tool.Ev} (he : ∀ e ∈ evs, (∃ h r, e = .rx h r) ∨ ∃ u, e = .timeout u) :
    One s (turn cfg t evs) := by
  have h1 : One s (evs.foldl (Tool.step cfg) t) := by
    induction evs generalizing t with
    | nil => exact h
    | cons e evs ih => exact ih (h.step cfg (he e (by simp))) (fun x hx => he x (by simp [hx]))
  unfold Tool.turn
  dsimp only
  split
  · have h2 := h1.emit (o := .exit) (.inr (.inr rfl))
    unfold finish
    dsimp only
    rw [h2.socks, List.foldl_nil]
    refine ⟨h2.killed, h2.socks, h2.uids, h2.log, fun _ => ?_⟩
    show Tool.Obs.exit ∈ ((evs.foldl (Tool.step cfg) t).emit .exit).log
    unfold Tool.emit
    rw [h1.killed, if_neg Bool.false_ne_true]
    exact List.mem_cons_self
  · exact h1

theorem start_one (env : Env) {line : Bytes} {q : Query} (hr : readQuery (cfgOf env) line = some (q, 1000, 1000))
    (hv : (serviceValid q.service && idValid q.id) = true) : One (.started none line 0 q 1000 1000) (start (cfgOf env) [line]) := by
  unfold start
  dsimp only
  rw [List.foldl_cons, List.foldl_nil, if_neg (by simp [cfgOf])]
  unfold startQuery
  rw [hr]
  dsimp only
  have hreq : ∃ c : Client.Client, Client.request (Client.react {} 0) (fun _ => []) ({} : Client.Client) q 1000 1000 = (1, c) ∧ c.uids = 1
      ∧ ∃ o, c.log = [(0, .issued 1 1000 o)] := by
    unfold Client.request
    have hv' : (!serviceValid q.service || !idValid q.id) = false := by
      rw [Bool.and_eq_true] at hv
      simp [hv.1, hv.2]
    rw [hv', if_neg Bool.false_ne_true]
    exact ⟨_, rfl, rfl, _, rfl⟩
  obtain ⟨c, e, hu, o, hl⟩ := hreq
  rw [e]
  dsimp only
  have hm : (({} : Tool).moved (cfgOf env) c) = { ({} : Tool) with client := c } := by
    unfold Tool.moved callbacks
    rw [hl]
    rfl
  rw [hm, if_neg (by decide)]
  refine ⟨rfl, rfl, hu, ⟨[], rfl, fun _ h => by cases h⟩, fun h => by cases h⟩

theorem run_one (env : Env) {line : Bytes} {q : Query} (hr : readQuery (cfgOf env) line = some (q, 1000, 1000))
    (hv : (serviceValid q.service && idValid q.id) = true) (turns : List (List Tool.Ev)) (ht : Spec.Lookup turns) :
    One (.started none line 0 q 1000 1000) (run (cfgOf env) [line] turns) := by
  unfold run
  have h := start_one env hr hv
  generalize start (cfgOf env) [line] = t at h
  induction turns generalizing t with
  | nil => exact h
  | cons evs turns ih => exact ih (fun x hx => ht x (by simp [hx])) _ (h.turn _ (ht evs (by simp)))

/-! ## What it prints -/

theorem later_prints (cfg : Tool.Cfg) {line : Bytes} {q : Query} {mn to : Nat} (l : List Tool.Obs) (hl : ∀ o ∈ l, Later o) :
    (Tool.Spec.results 0 (l ++ [.started none line 0 q mn to]) = [] →
      Tool.Spec.running (l ++ [.started none line 0 q mn to]) = [(0, Tool.Spec.domain line)] ∧ Tool.Spec.toPrint cfg (l ++ [.started none line 0 q mn to]) = [])
    ∧ ∀ r, r.last = true → Tool.Spec.results 0 (l ++ [.started none line 0 q mn to]) = [r] →
      Tool.Spec.running (l ++ [.started none line 0 q mn to]) = []
      ∧ Tool.Spec.toPrint cfg (l ++ [.started none line 0 q mn to]) = [fmt cfg (Tool.Spec.domain line) (some r)] := by
  induction l with
  | nil => exact ⟨fun _ => ⟨rfl, rfl⟩, fun r _ h => by cases h⟩
  | cons o l ih =>
    obtain ⟨i1, i2⟩ := ih (fun x hx => hl x (by simp [hx]))
    rw [List.cons_append]
    generalize l ++ [Tool.Obs.started none line 0 q mn to] = L at i1 i2 ⊢
    rcases hl o (by simp) with ⟨u, r, rfl⟩ | ⟨s, rfl⟩ | rfl
    · by_cases hu : u = 0
      · subst hu
        have e : Tool.Spec.results 0 (.result 0 r :: L) = Tool.Spec.results 0 L ++ [r] := by rw [Tool.Spec.results, if_pos rfl]
        refine ⟨fun h => by rw [e] at h; simp at h, ?_⟩
        intro r' hr' h
        rw [e] at h
        have h0 : Tool.Spec.results 0 L = [] := by
          cases hh : Tool.Spec.results 0 L with
          | nil => rfl
          | cons a t => rw [hh] at h; simp at h
        rw [h0] at h
        cases h
        obtain ⟨j1, j2⟩ := i1 h0
        refine ⟨?_, ?_⟩
        · rw [Tool.Spec.running, if_pos hr', j1]; rfl
        · rw [Tool.Spec.toPrint, j2, Tool.Spec.prints, j1]; rfl
      · have e : Tool.Spec.results 0 (.result u r :: L) = Tool.Spec.results 0 L := by rw [Tool.Spec.results, if_neg hu]
        have hu' : ¬ (0 = u) := fun h => hu h.symm
        rw [e]
        refine ⟨fun h => ?_, fun r' hr' h => ?_⟩
        · obtain ⟨j1, j2⟩ := i1 h
          refine ⟨?_, ?_⟩
          · rw [Tool.Spec.running, j1]
            split
            · simp [hu']
            · rfl
          · rw [Tool.Spec.toPrint, j2, Tool.Spec.prints, j1]
            simp [hu']
        · obtain ⟨j1, j2⟩ := i2 r' hr' h
          refine ⟨?_, ?_⟩
          · rw [Tool.Spec.running, j1]
            split <;> rfl
          · rw [Tool.Spec.toPrint, j2, Tool.Spec.prints, j1]
            rfl
    · refine ⟨fun h => ?_, fun r' hr' h => ?_⟩
      · obtain ⟨j1, j2⟩ := i1 h
        exact ⟨j1, by rw [Tool.Spec.toPrint, j2]; rfl⟩
      · obtain ⟨j1, j2⟩ := i2 r' hr' h
        exact ⟨j1, by rw [Tool.Spec.toPrint, j2]; rfl⟩
    · refine ⟨fun h => ?_, fun r' hr' h => ?_⟩
      · obtain ⟨j1, j2⟩ := i1 h
        exact ⟨j1, by rw [Tool.Spec.toPrint, j2]; rfl⟩
      · obtain ⟨j1, j2⟩ := i2 r' hr' h
        exact ⟨j1, by rw [Tool.Spec.toPrint, j2]; rfl⟩

/-! ## One result -/

open Client.Spec in
theorem tick_counts {l : List Client.Obs} (hl : Client.Obs.tick ∈ l) : expiries l ≠ 0 := by
  induction l with
  | nil => cases hl
  | cons x l ih =>
    cases x with
    | tick => exact Nat.succ_ne_zero _
    | issued a c d => exact ih (by simpa using hl)
    | rx a => exact ih (by simpa using hl)
    | cancel => exact ih (by simpa using hl)
    | cb a => exact ih (by simpa using hl)

open Client.Spec in
/-- A lookup the minimum wait of which is not shorter than its timeout has one callback, the last one. -/
theorem one_callback {t : List Client.Obs} (hok : Ok t) {h mn to : Nat} (hi : Client.Obs.issued h mn to ∈ t) (hmn : mn ≠ 0) (hp : phases mn to = 1) :
    (Tool.Spec.callbacksOf t = [] ∧ reported t = [])
    ∨ ∃ r, Tool.Spec.callbacksOf t = [r] ∧ r.last = true ∧ Ended t
        ∧ ((arrived t = [] ∧ r.rc = .notFound) ∨ (r.rc = .result ∧ ∃ x, Best x (arrived t) ∧ Same r x)) := by
  induction t with
  | nil => cases hi
  | cons o t ih =>
    obtain ⟨ok, ha⟩ := hok
    cases o with
    | issued a c d =>
      obtain ⟨rfl, -⟩ : t = [] ∧ a ≠ 0 := ha
      exact .inl ⟨rfl, rfl⟩
    | rx res =>
      have hi : Client.Obs.issued h mn to ∈ t := by simpa using hi
      have ha : Open t := ha
      rcases ih ok hi with ⟨h1, h2⟩ | ⟨r, -, -, h3, -⟩
      · exact .inl ⟨h1, h2⟩
      · exact absurd h3 ha.2.1
    | tick =>
      have hi : Client.Obs.issued h mn to ∈ t := by simpa using hi
      have ha : Open t := ha.1
      rcases ih ok hi with ⟨h1, h2⟩ | ⟨r, -, -, h3, -⟩
      · exact .inl ⟨h1, h2⟩
      · exact absurd h3 ha.2.1
    | cancel =>
      have hi : Client.Obs.issued h mn to ∈ t := by simpa using hi
      rcases ih ok hi with ⟨h1, h2⟩ | ⟨r, h1, h2, ⟨r', h3, h4⟩, h5⟩
      · exact .inl ⟨h1, h2⟩
      · exact .inr ⟨r, h1, h2, ⟨r', List.mem_cons_of_mem _ h3, h4⟩, h5⟩
    | cb r =>
      have hi : Client.Obs.issued h mn to ∈ t := by simpa using hi
      obtain ⟨a1, a2, a3, a4, a5⟩ := ha
      rcases ih ok hi with ⟨h1, h2⟩ | ⟨r, -, -, h3, -⟩
      · have hlast : r.last = true := by
          cases hl : r.last with
          | true => rfl
          | false =>
            obtain ⟨b1, b2, h', mn', to', b3, b4⟩ := a3 hl
            obtain ⟨-, rfl, rfl⟩ := Client.issued_unique ok hi b3
            rw [hp] at b4
            rcases (a2 b1).2.2 with e | ⟨h'', to'', e⟩ | e
            · exact absurd e b2
            · obtain ⟨-, e0, -⟩ := Client.issued_unique ok hi e
              exact absurd e0 hmn
            · exact absurd (Nat.lt_one_iff.1 b4) (tick_counts e)
        refine .inr ⟨r, by rw [Tool.Spec.callbacksOf, h1]; rfl, hlast, ⟨r, List.mem_cons_self, hlast⟩, ?_⟩
        rcases a4 hlast with e | ⟨e1, e2⟩ | ⟨-, x, -, y, hy, -⟩
        · exact .inr ⟨e, (a2 e).1⟩
        · exact .inl ⟨e2, e1⟩
        · rw [h2] at hy; cases hy
      · exact absurd h3 a1.2.1

end Verif.Dgsm
