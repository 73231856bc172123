import Verif.Dgsm.PipeLemmas
import Verif.Dgsm.Props
/-!
# C85: programs written after the examples get the best result
-/
namespace Verif.Dgsm
open Verif Verif.Mslookup Verif.Tool Verif.Sys

theorem const_no_lf : (10 : UInt8) ∉ b "{\"query\": \"" ∧ (10 : UInt8) ∉ b "\"" ∧ (10 : UInt8) ∉ b ", \"result\": \"" ∧ (10 : UInt8) ∉ b ", \"last\": "
    ∧ (10 : UInt8) ∉ b "true" ∧ (10 : UInt8) ∉ b "false" ∧ (10 : UInt8) ∉ b ", \"age\": " ∧ (10 : UInt8) ∉ b "}" ∧ (10 : UInt8) ∉ b ", \""
    ∧ (10 : UInt8) ∉ b "\": [\"" ∧ (10 : UInt8) ∉ b "\", \"" ∧ (10 : UInt8) ∉ b "\"]" ∧ (10 : UInt8) ∉ b "v4" ∧ (10 : UInt8) ∉ b "v6"
    ∧ ∀ c, (10 : UInt8) ∉ rcName c := by
  refine ⟨?_, ?_, ?_, ?_, ?_, ?_, ?_, ?_, ?_, ?_, ?_, ?_, ?_, ?_, ?_⟩
  all_goals first
    | decide +kernel
    | (intro c; cases c <;> decide +kernel)

theorem dec_no_lf (n : Nat) : (10 : UInt8) ∉ Mdns.dec n := by
  obtain ⟨-, h2, -⟩ := Mdns.decGo_spec 10 n
  intro h
  exact absurd (h2 10 h).1 (by decide)

theorem plain_no_lf {s : Bytes} (h : Tool.Spec.Plain s) : (10 : UInt8) ∉ s := fun hm => absurd (h 10 hm).1 (by decide)

theorem fmt_no_lf {cfg : Tool.Cfg} (hj : cfg.json = true) (hip : Tool.Spec.IpText cfg) {text : Bytes} (ht : Tool.Spec.Plain text) (r : Result) :
    (10 : UInt8) ∉ fmt cfg text (some r) := by
  obtain ⟨c1, c2, c3, c4, c5, c6, c7, c8, c9, c10, c11, c12, c13, c14, c15⟩ := const_no_lf
  have ha : ∀ k a, (10 : UInt8) ∉ k → (10 : UInt8) ∉ jsonAddr cfg k a := by
    intro k a hk
    unfold jsonAddr
    split
    · simp only [List.mem_append, not_or]
      exact ⟨⟨⟨⟨⟨⟨c9, hk⟩, c10⟩, plain_no_lf (hip a).2⟩, c11⟩, dec_no_lf _⟩, c12⟩
    · exact List.not_mem_nil
  unfold fmt
  rw [hj, if_pos rfl]
  intro hm
  have hm := List.mem_of_mem_take hm
  refine (?_ : (10 : UInt8) ∉ jsonText cfg text (some r)) hm
  unfold jsonText
  simp only [List.mem_append, not_or]
  refine ⟨⟨⟨⟨c1, plain_no_lf ht⟩, c2⟩, ⟨⟨⟨⟨⟨⟨c3, c15 _⟩, c2⟩, c4⟩, ?_⟩, c7⟩, dec_no_lf _⟩, ?_⟩, c8⟩
  · split
    · exact c5
    · exact c6
  · split
    · rw [List.mem_append, not_or]
      exact ⟨ha _ _ c13, ha _ _ c14⟩
    · exact List.not_mem_nil

/-- **C85.** The example that runs the program gives, when the program has ended, the youngest result that arrived for
the query, with all that is known about it, and says that nothing was found if none arrived.

Missing: for a text that is no query it may wait for ever (`c85_hang_violated`). -/
theorem c85_pipe_partial (env : Env) (hip : Tool.Spec.IpText (cfgOf env)) (text : Bytes) (htext : ∀ u, text ≠ 45 :: u) (q : Query) (mn to : Nat)
    (ha : Tool.Spec.Asks (cfgOf env) text q mn to) (hpl : Tool.Spec.Plain (Tool.Spec.domain text)) (turns : List (List Tool.Ev))
    (ht : Spec.Lookup turns) (t : Tool) (hp : program env [b "-f", b "json", text] turns = some t)
    (hage : Spec.Ages (Client.Spec.hist 0 t.client.log)) (j : Option Tool.Spec.Json) (hj : queryPipe env text turns = some j) :
    (Client.Spec.arrived (Client.Spec.hist 0 t.client.log) = [] ∧ j = some notFound)
    ∨ ∃ x r, Client.Spec.Best x (Client.Spec.arrived (Client.Spec.hist 0 t.client.log)) ∧ r.rc = .result ∧ Client.Spec.Same r x
        ∧ j = some (Tool.Spec.answer (cfgOf env) (Tool.Spec.domain text) (some r)) := by
  have hp0 := hp
  rw [program_pipe env text htext turns] at hp
  cases hp
  have hr := readQuery_asks.2 ha
  have hv : (serviceValid q.service && idValid q.id) = true := by
    have h := readQuery_valid hr
    cases h1 : serviceValid q.service <;> cases h2 : idValid q.id <;> simp_all
  have h1 := run_any env hr hv turns ht
  unfold queryPipe at hj
  rw [hp0] at hj
  dsimp only at hj
  generalize hT : run (cfgOf env) [text] turns = T at h1 hj hage
  cases hx : T.exited with
  | false => rw [hx] at hj; simp at hj
  | true =>
    rw [hx, if_pos rfl] at hj
    cases hj
    have hu : T.client.uids ≤ 4294967294 := by rw [h1.uids]; decide
    subst hT
    obtain ⟨r1, -, r3⟩ := Tool.Props.c66_results_partial (cfgOf env) [text] turns hu h1.killed 0
    have r4 := Tool.Props.c66_stdout_partial (cfgOf env) [text] turns hu h1.killed
    have hne : turns ≠ [] := by
      intro e
      rw [e] at hx
      have : (start (cfgOf env) [text]).exited = false := (start_exited _ _).1
      exact Bool.false_ne_true (this.symm.trans hx)
    have hend := ((Tool.Props.c67_exit_partial (cfgOf env) [text] turns hne hu h1.killed).1.1 (h1.exited hx)).2.2
    generalize run (cfgOf env) [text] turns = T at h1 hx hu r1 r3 r4 hend hage ⊢
    obtain ⟨l, el, hl⟩ := h1.log
    obtain ⟨p1, p2⟩ := prints_all (cfgOf env) l hl (line := text) (q := q) (mn := mn) (to := to)
    rw [← el] at p1 p2
    have hE : Client.Spec.Ended (Client.Spec.hist 0 T.client.log)
        ∧ Tool.Spec.toPrint (cfgOf env) T.log
          = (Tool.Spec.callbacksOf (Client.Spec.hist 0 T.client.log)).map (fun r => fmt (cfgOf env) (Tool.Spec.domain text) (some r)) := by
      rcases callbacks_last r3 with ⟨-, h⟩ | ⟨h, rs, r, e, h2, h3⟩
      · have := (p1 (by rw [r1]; exact h)).1
        rw [hend] at this
        cases this
      · refine ⟨h, ?_⟩
        rw [(p2 rs r h3 h2 (r1.trans e)).2, e]
    have hout : pipeLoop notFound (readLines [] (Tool.Spec.printed T.log))
        = some (lastResult (fun r => Tool.Spec.answer (cfgOf env) (Tool.Spec.domain text) (some r)) notFound
            (Tool.Spec.callbacksOf (Client.Spec.hist 0 T.client.log))) := by
      rw [r4]
      have e0 : (if (!(cfgOf env).json && (cfgOf env).headers) = true then [csvHeaders] else ([] : List Bytes)) = [] := rfl
      rw [e0, List.nil_append, hE.2, readLines_all, List.map_map]
      · refine pipeLoop_all (cfgOf env) _ _ _ ?_ _
        intro r hr
        have hra : r.age < 2 ^ 32 := hage r (.inr (callbacks_mem.1 hr))
        have htx := Tool.Props.c68_json_partial (cfgOf env) rfl hip text q mn to ha hpl r hra
        have h10 : Tool.Spec.Blank [10] := by intro c hc; rw [List.mem_singleton] at hc; exact .inr (.inr (.inl hc))
        show (ascii (fmt (cfgOf env) (Tool.Spec.domain text) (some r) ++ [10])).bind loads = _
        generalize fmt (cfgOf env) (Tool.Spec.domain text) (some r) = s at htx
        rw [ascii_all (low_append (text_low htx) (low_one (by decide))), Option.bind_some]
        exact loads_text htx h10
      · intro s hs
        obtain ⟨r, -, rfl⟩ := List.mem_map.1 hs
        exact fmt_no_lf rfl hip hpl r
    rw [hout, lastResult_reported]
    rcases ended_best r3 hE.1 with ⟨h1, h2⟩ | ⟨y, ys, x, h1, h2, h3⟩
    · rw [h2]
      exact .inl ⟨h1, rfl⟩
    · rw [h1]
      refine .inr ⟨x, y, h2, ?_, h3, rfl⟩
      have : ∀ t : List Client.Obs, ∀ z ∈ Client.Spec.reported t, Result.rc z = .result := by
        intro t z hz
        induction t with
        | nil => cases hz
        | cons o t ih =>
          cases o with
          | cb r =>
            rw [Client.Spec.reported] at hz
            split at hz
            · rcases List.mem_cons.1 hz with rfl | hz
              · assumption
              · exact ih hz
            · exact ih hz
          | issued _ _ _ => exact ih hz
          | rx _ => exact ih hz
          | tick => exact ih hz
          | cancel => exact ih hz
      exact this _ y (by rw [h1]; exact List.mem_cons_self)

end Verif.Dgsm
