import Verif.Dgsm.PipeProps
/-!
# C85: the example that uses the socket
-/
namespace Verif.Dgsm
open Verif Verif.Mslookup Verif.Tool Verif.Sys

/-! ## Specification -/

/-- The other end of connection `n` sends one packet only, and does not hang up; the program does not end. -/
def Spec.Patient (n : Nat) (log : List Tool.Obs) : Prop :=
  (log.filter (fun o => match o with | .asked m _ => m == n | _ => false)).length ≤ 1 ∧ Tool.Obs.ended n ∉ log ∧ Tool.Obs.exit ∉ log

/-! ## What the connection gets -/

theorem Spec.Patient.tail {n : Nat} {o : Tool.Obs} {log : List Tool.Obs} (h : Spec.Patient n (o :: log)) : Spec.Patient n log := by
  refine ⟨?_, fun hm => h.2.1 (List.mem_cons_of_mem _ hm), fun hm => h.2.2 (List.mem_cons_of_mem _ hm)⟩
  exact Nat.le_trans ((List.sublist_cons_self o log).filter _).length_le h.1

theorem Spec.Patient.once {n : Nat} {d d' : Bytes} {log : List Tool.Obs} (h : Spec.Patient n (.asked n d :: log)) : Tool.Obs.asked n d' ∉ log := by
  intro hm
  have h1 := h.1
  rw [List.filter_cons, if_pos (by simp), List.length_cons] at h1
  have : Tool.Obs.asked n d' ∈ log.filter (fun o => match o with | .asked m _ => m == n | _ => false) := List.mem_filter.2 ⟨hm, by simp⟩
  have := List.length_pos_of_mem this
  omega

theorem Spec.Patient.same {n : Nat} {d d' : Bytes} {log : List Tool.Obs} (h : Spec.Patient n log) (h1 : Tool.Obs.asked n d ∈ log)
    (h2 : Tool.Obs.asked n d' ∈ log) : d = d' := by
  induction log with
  | nil => cases h1
  | cons o log ih =>
    rcases List.mem_cons.1 h1 with rfl | h1'
    · rcases List.mem_cons.1 h2 with e | h2'
      · cases e; rfl
      · exact absurd h2' h.once
    · rcases List.mem_cons.1 h2 with rfl | h2'
      · exact absurd h1' h.once
      · exact ih h.tail h1' h2'

/-- The lines of the results. -/
def resultLines (cfg : Tool.Cfg) (line : Bytes) (rs : List Result) : List Tool.Spec.Out :=
  rs.map fun r => Tool.Spec.Out.line (fmt cfg (Tool.Spec.domain line) (some r))

/-- What a patient connection has got. -/
def Told1 (cfg : Tool.Cfg) (n : Nat) (P : List Tool.Obs) : Tool.Spec.Conn → List Tool.Spec.Out → Prop
  | .none, out => out = []
  | .fresh, out => out = [.line csvHeaders]
  | .asking l, out => out = [.line csvHeaders] ∧ ∃ d, Tool.Obs.asked n d ∈ P ∧ Tool.Spec.lineIn d = some l
  | .waiting u dom, out => ∃ l q mn to d, Tool.Obs.asked n d ∈ P ∧ Tool.Spec.lineIn d = some l ∧ Tool.Obs.started (some n) l u q mn to ∈ P
      ∧ dom = Tool.Spec.domain l ∧ out = .line csvHeaders :: resultLines cfg l (Tool.Spec.results u P)
  | .over, out => ∃ d, Tool.Obs.asked n d ∈ P ∧ ((Tool.Spec.lineIn d = none ∧ out = [.line csvHeaders, .close])
      ∨ (∃ l, Tool.Spec.lineIn d = some l ∧ Tool.Obs.refused (some n) l ∈ P)
      ∨ ∃ l u q mn to rs r, Tool.Spec.lineIn d = some l ∧ Tool.Obs.started (some n) l u q mn to ∈ P ∧ rs ++ [r] <+: Tool.Spec.results u P
        ∧ r.last = true ∧ out = .line csvHeaders :: (resultLines cfg l (rs ++ [r]) ++ [.close]))

theorem results_cons (u : Nat) (o : Tool.Obs) (P : List Tool.Obs) : Tool.Spec.results u P <+: Tool.Spec.results u (o :: P) := by
  cases o with
  | result v r =>
    rw [Tool.Spec.results]
    split
    · exact List.prefix_append _ _
    · exact List.prefix_refl _
  | _ => exact List.prefix_refl _

/-- Entries that do not concern the connection. -/
theorem Told1.skip {cfg : Tool.Cfg} {n : Nat} {P : List Tool.Obs} {s : Tool.Spec.Conn} {out : List Tool.Spec.Out} (h : Told1 cfg n P s out)
    (o : Tool.Obs) (ho : ∀ u dom r, s = .waiting u dom → o ≠ .result u r) : Told1 cfg n (o :: P) s out := by
  cases s with
  | none => exact h
  | fresh => exact h
  | asking l => exact ⟨h.1, h.2.imp fun d hd => ⟨List.mem_cons_of_mem _ hd.1, hd.2⟩⟩
  | waiting u dom =>
    obtain ⟨l, q, mn, to, d, h1, h2, h3, h4, h5⟩ := h
    refine ⟨l, q, mn, to, d, List.mem_cons_of_mem _ h1, h2, List.mem_cons_of_mem _ h3, h4, ?_⟩
    have : Tool.Spec.results u (o :: P) = Tool.Spec.results u P := by
      cases o with
      | result v r =>
        rw [Tool.Spec.results, if_neg]
        rintro rfl
        exact ho v dom r rfl rfl
      | _ => rfl
    rw [this]
    exact h5
  | over =>
    obtain ⟨d, h1, h⟩ := h
    refine ⟨d, List.mem_cons_of_mem _ h1, ?_⟩
    rcases h with h | ⟨l, h2, h3⟩ | ⟨l, u, q, mn, to, rs, r, h2, h3, h4, h5, h6⟩
    · exact .inl h
    · exact .inr (.inl ⟨l, h2, List.mem_cons_of_mem _ h3⟩)
    · exact .inr (.inr ⟨l, u, q, mn, to, rs, r, h2, List.mem_cons_of_mem _ h3, h4.trans (results_cons _ _ _), h5, h6⟩)

theorem told_conn (cfg : Tool.Cfg) (hj : cfg.json = false) (hh : cfg.headers = true) (n : Nat) (P : List Tool.Obs) (ho : Order P) (hp : Spec.Patient n P) :
    Told1 cfg n P (Tool.Spec.conn cfg n P).1 (Tool.Spec.conn cfg n P).2 := by
  induction P with
  | nil => rfl
  | cons o P ih =>
    have hoP : Order P := by
      cases o with
      | started _ _ _ _ _ _ => exact ho.1
      | _ => exact ho
    have ih := ih hoP hp.tail
    show Told1 cfg n (o :: P) (Tool.Spec.next cfg n (Tool.Spec.conn cfg n P).1 o).1
      ((Tool.Spec.conn cfg n P).2 ++ (Tool.Spec.next cfg n (Tool.Spec.conn cfg n P).1 o).2)
    generalize (Tool.Spec.conn cfg n P).2 = out at ih ⊢
    generalize (Tool.Spec.conn cfg n P).1 = s at ih ⊢
    have plain : (∀ u dom r, s = .waiting u dom → o ≠ .result u r) → Tool.Spec.next cfg n s o = (s, []) →
        Told1 cfg n (o :: P) (Tool.Spec.next cfg n s o).1 (out ++ (Tool.Spec.next cfg n s o).2) := by
      intro h1 h2
      rw [h2]
      dsimp only
      rw [List.append_nil]
      exact ih.skip o h1
    cases o with
    | line m x => cases s <;> exact plain (fun _ _ _ _ h => by cases h) rfl
    | closed m => cases s <;> exact plain (fun _ _ _ _ h => by cases h) rfl
    | stdout x => cases s <;> exact plain (fun _ _ _ _ h => by cases h) rfl
    | exit => exact absurd List.mem_cons_self hp.2.2
    | ended m =>
      have hm : m ≠ n := by
        rintro rfl
        exact hp.2.1 List.mem_cons_self
      refine plain (fun _ _ _ _ h => by cases h) ?_
      cases s <;> (dsimp only [Tool.Spec.next]; rw [if_neg (fun h => hm h.1)])
    | accepted m =>
      cases s with
      | none =>
        by_cases hm : m = n
        · dsimp only [Tool.Spec.next]
          rw [if_pos hm, hj, hh]
          cases ih
          exact rfl
        · refine plain (fun _ _ _ h => by cases h) ?_
          dsimp only [Tool.Spec.next]
          rw [if_neg hm]
      | _ => exact plain (fun _ _ _ _ h => by cases h) rfl
    | refused x l' =>
      cases s with
      | asking l =>
        by_cases hx : x = some n ∧ l' = l
        · obtain ⟨rfl, rfl⟩ := hx
          have e : Tool.Spec.next cfg n (.asking l') (.refused (some n) l')
              = (.over, [.line (fmt cfg (Tool.Spec.domain l') Option.none), .close]) := by
            dsimp only [Tool.Spec.next]
            rw [if_pos ⟨rfl, rfl⟩]
          rw [e]
          obtain ⟨-, d, h1, h2⟩ := ih
          exact ⟨d, List.mem_cons_of_mem _ h1, .inr (.inl ⟨l', h2, List.mem_cons_self⟩)⟩
        · refine plain (fun _ _ _ _ h => by cases h) ?_
          cases x with
          | none => rfl
          | some m =>
            dsimp only [Tool.Spec.next]
            rw [if_neg (fun h => hx ⟨by rw [h.1], h.2⟩)]
      | _ => exact plain (fun _ _ _ _ h => by cases h) rfl
    | started x l' u q mn to =>
      cases s with
      | asking l =>
        by_cases hx : x = some n ∧ l' = l
        · obtain ⟨rfl, rfl⟩ := hx
          have e : Tool.Spec.next cfg n (.asking l') (.started (some n) l' u q mn to) = (.waiting u (Tool.Spec.domain l'), []) := by
            dsimp only [Tool.Spec.next]
            rw [if_pos ⟨rfl, rfl⟩]
          rw [e]
          obtain ⟨h0, d, h1, h2⟩ := ih
          refine ⟨l', q, mn, to, d, List.mem_cons_of_mem _ h1, h2, List.mem_cons_self, rfl, ?_⟩
          have : Tool.Spec.results u (.started (some n) l' u q mn to :: P) = [] := ho.2
          rw [this, h0]
          rfl
        · refine plain (fun _ _ _ _ h => by cases h) ?_
          cases x with
          | none => rfl
          | some m =>
            dsimp only [Tool.Spec.next]
            rw [if_neg (fun h => hx ⟨by rw [h.1], h.2⟩)]
      | _ => exact plain (fun _ _ _ _ h => by cases h) rfl
    | asked m d =>
      by_cases hm : m = n
      · subst hm
        cases s with
        | none => exact plain (fun _ _ _ h => by cases h) rfl
        | fresh =>
          cases hl : Tool.Spec.lineIn d with
          | none =>
            have e : Tool.Spec.next cfg m .fresh (.asked m d) = (.over, [.close]) := by
              dsimp only [Tool.Spec.next]
              rw [if_pos rfl, hl]
            rw [e]
            cases ih
            exact ⟨d, List.mem_cons_self, .inl ⟨hl, rfl⟩⟩
          | some l =>
            have e : Tool.Spec.next cfg m .fresh (.asked m d) = (.asking l, []) := by
              dsimp only [Tool.Spec.next]
              rw [if_pos rfl, hl]
            rw [e]
            cases ih
            exact ⟨rfl, d, List.mem_cons_self, hl⟩
        | asking l => obtain ⟨-, d', h, -⟩ := ih; exact absurd h hp.once
        | waiting u dom => obtain ⟨_, _, _, _, d', h, -⟩ := ih; exact absurd h hp.once
        | over => obtain ⟨d', h, -⟩ := ih; exact absurd h hp.once
      · refine plain (fun _ _ _ _ h => by cases h) ?_
        cases s with
        | fresh => dsimp only [Tool.Spec.next]; rw [if_neg hm]
        | waiting u dom => dsimp only [Tool.Spec.next]; rw [if_neg hm]
        | _ => rfl
    | result v r =>
      cases s with
      | waiting u dom =>
        by_cases hv : v = u
        · subst hv
          obtain ⟨l, q, mn, to, d, h1, h2, h3, h4, h5⟩ := ih
          have er : Tool.Spec.results v (.result v r :: P) = Tool.Spec.results v P ++ [r] := by rw [Tool.Spec.results, if_pos rfl]
          cases hl : r.last with
          | false =>
            have e : Tool.Spec.next cfg n (.waiting v dom) (.result v r) = (.waiting v dom, [.line (fmt cfg dom (some r))]) := by
              dsimp only [Tool.Spec.next]
              rw [if_pos rfl, hl]
              rfl
            rw [e]
            refine ⟨l, q, mn, to, d, List.mem_cons_of_mem _ h1, h2, List.mem_cons_of_mem _ h3, h4, ?_⟩
            rw [er, h5, h4]
            unfold resultLines
            rw [List.map_append]
            rfl
          | true =>
            have e : Tool.Spec.next cfg n (.waiting v dom) (.result v r) = (.over, [.line (fmt cfg dom (some r)), .close]) := by
              dsimp only [Tool.Spec.next]
              rw [if_pos rfl, hl]
              rfl
            rw [e]
            refine ⟨d, List.mem_cons_of_mem _ h1, .inr (.inr ⟨l, v, q, mn, to, Tool.Spec.results v P, r, h2, List.mem_cons_of_mem _ h3, ?_, hl, ?_⟩)⟩
            · rw [er]; exact List.prefix_refl _
            · rw [h5, h4]
              unfold resultLines
              rw [List.map_append]
              simp
        · refine plain (fun u' dom' r' h => ?_) ?_
          · cases h
            intro e
            cases e
            exact hv rfl
          · dsimp only [Tool.Spec.next]; rw [if_neg hv]
      | _ => exact plain (fun _ _ _ h => by cases h) rfl

/-! ## What the script makes of it -/

theorem dictGet_column (line name : Bytes) : dictGet csvHeaders line name = Tool.Spec.column name line := by
  have hn : (Tool.Spec.columns csvHeaders).Nodup := by decide +kernel
  unfold dictGet Tool.Spec.column
  generalize Tool.Spec.columns csvHeaders = ks at hn
  generalize Tool.Spec.columns line = vs
  congr 1
  induction ks generalizing vs with
  | nil => rfl
  | cons k ks ih =>
    cases vs with
    | nil => rfl
    | cons v vs =>
      rw [List.zip_cons_cons, List.reverse_cons, List.find?_append, ih (List.nodup_cons.1 hn).2, List.find?_cons]
      by_cases hk : k = name
      · have : List.find? (fun x => decide (x.1 = name)) (ks.zip vs) = none := by
          rw [List.find?_eq_none]
          intro x hx
          have hm := (List.of_mem_zip (a := x.1) (b := x.2) hx).1
          have : x.1 ≠ name := by
            intro e
            rw [e, ← hk] at hm
            exact (List.nodup_cons.1 hn).1 hm
          simp [this]
        rw [this]
        simp [hk]
      · have e : (k == name) = false := beq_eq_false_iff_ne.2 hk
        simp [hk, List.find?_cons, e]

theorem socketLoop_all (cfg : Tool.Cfg) (line : Bytes) (rs : List Result)
    (h : ∀ r ∈ rs, (dictGet csvHeaders (fmt cfg (Tool.Spec.domain line) (some r)) (b "result") = some (b "result")) ↔ r.rc = .result)
    (a : Option Bytes) (tail : List Tool.Spec.Out) :
    socketLoop csvHeaders a (resultLines cfg line rs ++ tail)
      = socketLoop csvHeaders (lastResult (fun r => some (fmt cfg (Tool.Spec.domain line) (some r))) a rs) tail := by
  induction rs generalizing a with
  | nil => rfl
  | cons r rs ih =>
    show socketLoop csvHeaders a (.line (fmt cfg (Tool.Spec.domain line) (some r)) :: (resultLines cfg line rs ++ tail)) = _
    rw [socketLoop, ih (fun x hx => h x (List.mem_cons_of_mem _ hx))]
    have hr := h r List.mem_cons_self
    show _ = socketLoop csvHeaders (List.foldl _ (if r.rc = .result then _ else a) rs) tail
    by_cases e : r.rc = .result
    · rw [if_pos e, if_pos (hr.2 e)]; rfl
    · rw [if_neg e, if_neg (fun h => e (hr.1 h))]; rfl

theorem reported_result (t : List Client.Obs) : ∀ z ∈ Client.Spec.reported t, Result.rc z = .result := by
  intro z hz
  induction t with
  | nil => cases hz
  | cons o t ih =>
    cases o with
    | cb r =>
      rw [Client.Spec.reported] at hz
      split at hz
      · rcases List.mem_cons.1 hz with rfl | hz
        · assumption
        · exact ih hz
      · exact ih hz
    | issued _ _ _ => exact ih hz
    | rx _ => exact ih hz
    | tick => exact ih hz
    | cancel => exact ih hz

/-- **C85.** The example that uses the socket gives, once the program has closed the connection, the youngest result that arrived for
its query, and says that nothing was found if none arrived.  Its answer has the address of that result.

Missing: the program has to send the headers, else the example waits for ever (`c85_headers_violated`); as C66 requires, nobody
asks for the same domain string at the same time, and there are fewer than 2³² lookups; the query has no tab. -/
theorem c85_socket_partial (cfg : Tool.Cfg) (hj : cfg.json = false) (hh : cfg.headers = true) (hip : Tool.Spec.IpText cfg) (args : List Bytes)
    (turns : List (List Tool.Ev)) (hu : (run cfg args turns).client.uids ≤ 4294967294) (hk : (run cfg args turns).killed = false)
    (hd : Tool.Spec.Distinct (run cfg args turns).log) (n : Nat) (hp : Spec.Patient n (run cfg args turns).log) (d line : Bytes) (q : Query) (mn to : Nat)
    (hasked : Tool.Obs.asked n d ∈ (run cfg args turns).log) (hline : Tool.Spec.lineIn d = some line) (ha : Tool.Spec.Asks cfg line q mn to)
    (htab : (9 : UInt8) ∉ Tool.Spec.domain line) (j : Option (Bytes × Bytes)) (hq : querySocket (Tool.Spec.got n (run cfg args turns).log) = some j) :
    ∃ u, Tool.Obs.started (some n) line u q mn to ∈ (run cfg args turns).log
      ∧ ((Client.Spec.arrived (Client.Spec.hist u (run cfg args turns).client.log) = [] ∧ j = none)
        ∨ ∃ x r names l, Client.Spec.Best x (Client.Spec.arrived (Client.Spec.hist u (run cfg args turns).client.log)) ∧ r.rc = .result
          ∧ Client.Spec.Same r x ∧ j = some (names, l)
          ∧ dictGet names l (b "query") = some (Tool.Spec.domain line) ∧ dictGet names l (b "age") = some (Mdns.dec r.age)
          ∧ dictGet names l (b "v4_ip") = some (if r.v4.nonzero = true then cfg.ip r.v4 else [])
          ∧ dictGet names l (b "v4_port") = some (if r.v4.nonzero = true then Mdns.dec r.v4.port else [])
          ∧ dictGet names l (b "v6_ip") = some (if r.v6.nonzero = true then cfg.ip r.v6 else [])
          ∧ dictGet names l (b "v6_port") = some (if r.v6.nonzero = true then Mdns.dec r.v6.port else [])) := by
  have h1 := Tool.Props.c66_results_partial cfg args turns hu hk
  have h2 := Tool.Props.c66_query_partial cfg args turns hu hk
  have h3 := (Tool.Props.c66_delivery_partial cfg args turns hu hk hd n)
  have h4 := told_conn cfg hj hh n _ (run_good cfg args turns hu hk).1.order hp
  rw [h3.1] at hq
  generalize run cfg args turns = T at *
  generalize (Tool.Spec.conn cfg n T.log).2 = out at h4 hq
  have nolines : ∀ l rs a, socketLoop csvHeaders a (resultLines cfg l rs) = none := by
    intro l rs
    induction rs with
    | nil => intro a; rfl
    | cons r rs ih => intro a; exact ih _
  cases hs : (Tool.Spec.conn cfg n T.log).1 with
  | none => rw [hs] at h4; cases h4; cases hq
  | fresh => rw [hs] at h4; cases h4; cases hq
  | asking l => exact absurd hs (h3.2.1 l)
  | waiting u dom =>
    rw [hs] at h4
    obtain ⟨l, _, _, _, _, _, _, _, _, rfl⟩ := h4
    rw [querySocket, nolines] at hq
    cases hq
  | over =>
    rw [hs] at h4
    obtain ⟨d', e1, e2⟩ := h4
    cases hp.same hasked e1
    rcases e2 with ⟨e, -⟩ | ⟨l, e, e'⟩ | ⟨l, u, q', mn', to', rs, r, e, e3, e4, e5, rfl⟩
    · rw [hline] at e; cases e
    · rw [hline] at e; cases e
      exact absurd ⟨q, mn, to, ha⟩ (h2.2 _ _ e')
    · rw [hline] at e; cases e
      have hsame : (q', mn', to') = (q, mn, to) := by
        have a1 := readQuery_asks.2 (h2.1 _ _ _ _ _ _ e3).1
        have a2 := readQuery_asks.2 ha
        exact Option.some.inj (a1.symm.trans a2)
      cases hsame
      refine ⟨u, e3, ?_⟩
      obtain ⟨r1, -, r3⟩ := h1 u
      rw [r1] at e4
      have hcol := fun r => Tool.Props.c68_csv_partial cfg hj hip line q mn to ha htab r
      have hall : rs ++ [r] = Tool.Spec.callbacksOf (Client.Spec.hist u T.client.log) ∧ Client.Spec.Ended (Client.Spec.hist u T.client.log) := by
        rcases callbacks_last r3 with ⟨-, h⟩ | ⟨h, rs', r', c1, c2, c3⟩
        · exact absurd (h r (e4.subset (by simp))) (by rw [e5]; decide)
        · refine ⟨?_, h⟩
          obtain ⟨z, hz⟩ := e4
          rcases List.eq_nil_or_concat z with rfl | ⟨z', y, rfl⟩
          · rw [← hz, List.append_nil]
          · rw [c1, List.concat_eq_append, ← List.append_assoc] at hz
            obtain ⟨hz, -⟩ := List.append_inj' hz rfl
            exact absurd (c3 r (by rw [← hz]; simp)) (by rw [e5]; decide)
      rw [hall.1, querySocket, socketLoop_all, socketLoop, lastResult_reported] at hq
      · rcases ended_best r3 hall.2 with ⟨b1, b2⟩ | ⟨y, ys, x, b1, b2, b3⟩
        · rw [b2] at hq
          exact .inl ⟨b1, (Option.some.inj hq).symm⟩
        · rw [b1] at hq
          have hy := reported_result _ y (by rw [b1]; exact List.mem_cons_self)
          obtain ⟨k1, -, -, k4, k5, k6, k7, k8, -⟩ := hcol y
          refine .inr ⟨x, y, _, _, b2, hy, b3, (Option.some.inj hq).symm, ?_⟩
          simp only [dictGet_column]
          simp only [hy, true_and] at k5 k6 k7 k8
          exact ⟨k1, k4, k5, k6, k7, k8⟩
      · intro x _
        rw [dictGet_column, (hcol x).2.1]
        cases x.rc with
        | result => exact ⟨fun _ => rfl, fun _ => rfl⟩
        | none => exact ⟨fun h => absurd h (by decide +kernel), fun h => by cases h⟩
        | notFound => exact ⟨fun h => absurd h (by decide +kernel), fun h => by cases h⟩

/-! ## Examples -/

/-- A daemon that sends the headers. -/
def exCfg : Tool.Cfg := { ip := Tool.Props.exIp, daemon := true }

/-- A query on a connection, two results and the timer. -/
def exSocket : List (List Tool.Ev) :=
  [[.accept true], [.packet 0 (b "1000-5000@sip.voice.49123.msisdn")], [.rx 1 (Tool.Props.exAddr 7 false)], [.rx 1 (Tool.Props.exAddr 3 false)],
   [.timeout 0], [.timeout 0]]

/-- The hypotheses of `c85_socket_partial` can be met; the younger of two results is given. -/
example : (run exCfg [] exSocket).client.uids ≤ 4294967294 ∧ (run exCfg [] exSocket).killed = false ∧ Tool.Spec.Distinct (run exCfg [] exSocket).log
    ∧ Spec.Patient 0 (run exCfg [] exSocket).log
    ∧ Tool.Obs.asked 0 (b "1000-5000@sip.voice.49123.msisdn") ∈ (run exCfg [] exSocket).log
    ∧ Tool.Spec.lineIn (b "1000-5000@sip.voice.49123.msisdn") = some (b "1000-5000@sip.voice.49123.msisdn")
    ∧ (querySocket (Tool.Spec.got 0 (run exCfg [] exSocket).log)).map (·.map fun x => (dictGet x.1 x.2 (b "v4_ip"), dictGet x.1 x.2 (b "age")))
      = some (some (some (b "1.2.3.4"), some (b "3")))
    ∧ querySocket (Tool.Spec.got 0 (run exCfg [] (exSocket.take 4)).log) = none := by
  refine ⟨by decide +kernel, by decide +kernel, by decide +kernel, ⟨by decide +kernel, by decide +kernel, by decide +kernel⟩, by decide +kernel,
    by decide +kernel, by decide +kernel, by decide +kernel⟩

example : ∃ q mn to, Tool.Spec.Asks exCfg (b "1000-5000@sip.voice.49123.msisdn") q mn to := by
  have h : (readQuery exCfg (b "1000-5000@sip.voice.49123.msisdn")).isSome = true := by decide +kernel
  obtain ⟨⟨q, mn, to⟩, h⟩ := Option.isSome_iff_exists.1 h
  exact ⟨q, mn, to, readQuery_asks.1 h⟩

/-- The example that runs the program: the hypotheses of `c85_pipe_partial` can be met. -/
example : (queryPipe exEnv (b "sip.voice.49123.msisdn") exTurns).map (·.map fun j => (isResult j, match getItem (b "age") j with | some (.num n) => n | _ => 0))
      = some (some (true, 3))
    ∧ (queryPipe exEnv (b "sip.voice.49123.msisdn") [[.timeout 0]]).map (·.map isResult) = some (some false)
    ∧ (queryPipe exEnv (b "sip.voice.49123.msisdn") (exTurns.take 2)).isNone = true := by
  decide +kernel

/-! ## Violations -/

/-- C85 is violated: for a text that is no query the first example waits for ever.  The program has refused the query and stays
in its main loop without a timer or a connection. -/
theorem c85_hang_violated : ∃ text : Bytes, (queryPipe exEnv text []).isNone = true
    ∧ ∃ t, program exEnv [b "-f", b "json", text] [] = some t ∧ t.client.reqs = [] ∧ t.socks = [] ∧ t.exited = false ∧ t.handled = 1 :=
  ⟨b "49123", by decide +kernel, _, program_pipe exEnv (b "49123") (fun u h => by
    have h1 : (b "49123").head? = some 45 := by rw [h]; rfl
    exact absurd h1 (by decide +kernel)) [], by decide +kernel, by decide +kernel, by decide +kernel, by decide +kernel⟩

/-- C85 is violated: if the program was told to leave out the headers, or to use JSON, it says nothing to whoever connects, and the second
example waits for the headers before it asks. -/
theorem c85_headers_violated : ∀ cfg ∈ [{ exCfg with headers := false }, { exCfg with json := true }],
    Tool.Spec.got 0 (run cfg [] [[.accept true]]).log = [] ∧ querySocket (Tool.Spec.got 0 (run cfg [] [[.accept true]]).log) = none
    ∧ (Tool.Spec.conn cfg 0 (run cfg [] [[.accept true]]).log).1 = .fresh := by
  intro cfg h
  rcases List.mem_cons.1 h with rfl | h
  · decide +kernel
  · cases List.mem_singleton.1 h
    decide +kernel

end Verif.Dgsm
