import Verif.Tool.Run
import Verif.Tool.Format
/-!
# C66 to C68: the lookup program

`run cfg args turns` is any run of osmo-mslookup-client: any queries on its command line, any
connections, packets, results of the mDNS method and timeouts, in any order.  `log` is all that
happened.
-/
namespace Verif.Tool.Props
open Verif Verif.Mslookup Verif.Tool Verif.Sys

/-! ## C66 -/

/-- C66: what each connection has got is what it has to get: the headers, then every result of the
lookup for its own query, up to the last one, which ends the connection; or an error, which ends
it too.  No query stays without a lookup or an error.

Missing: this is so as long as no two queries with the same domain string are under way at the same
time and nobody asks for the empty one (`c66_shared_violated`, `c66_empty_violated`), and the
process is not killed because it writes to a connection that has been closed at the other end
(`c66_killed_violated`); the lookup client has handles for 2^32 - 2 lookups (C43). -/
theorem c66_delivery_partial (cfg : Cfg) (args : List Bytes) (turns : List (List Ev))
    (hu : (run cfg args turns).client.uids ≤ 4294967294) (hk : (run cfg args turns).killed = false)
    (hd : Spec.Distinct (run cfg args turns).log) (n : Nat) :
    Spec.got n (run cfg args turns).log = (Spec.conn cfg n (run cfg args turns).log).2
    ∧ (∀ line, (Spec.conn cfg n (run cfg args turns).log).1 ≠ .asking line)
    ∧ (∀ u dom, (Spec.conn cfg n (run cfg args turns).log).1 = .waiting u dom → (u, dom) ∈ Spec.running (run cfg args turns).log) := by
  have h := (run_good cfg args turns hu hk).2.1 hd
  refine ⟨h.got n, h.rest n, fun u dom e => ?_⟩
  have := h.fits n
  rw [e] at this
  exact this.2.1

/-- C66: a lookup is started for a query as it is written, with its minimum delay and timeout; only
other lines are refused. -/
theorem c66_query_partial (cfg : Cfg) (args : List Bytes) (turns : List (List Ev))
    (hu : (run cfg args turns).client.uids ≤ 4294967294) (hk : (run cfg args turns).killed = false) :
    (∀ o line u q mn to, Obs.started o line u q mn to ∈ (run cfg args turns).log → Spec.Asks cfg line q mn to
      ∧ ∃ h, Client.Obs.issued h mn (if to = 0 then (if mn = 0 then 1000 else mn) else to) ∈ Client.Spec.hist u (run cfg args turns).client.log)
    ∧ (∀ o line, Obs.refused o line ∈ (run cfg args turns).log → ¬ ∃ q mn to, Spec.Asks cfg line q mn to) := by
  have h := (run_good cfg args turns hu hk).1.right
  exact ⟨fun o line u q mn to hm => h _ hm, fun o line hm => h _ hm⟩

/-- C66: a lookup has no results before it was started. -/
theorem c66_order_partial (cfg : Cfg) (args : List Bytes) (turns : List (List Ev))
    (hu : (run cfg args turns).client.uids ≤ 4294967294) (hk : (run cfg args turns).killed = false)
    (l l' : List Obs) (o : Option Nat) (line : Bytes) (u : Nat) (q : Query) (mn to : Nat)
    (h : (run cfg args turns).log = l ++ .started o line u q mn to :: l') : Spec.results u l' = [] := by
  have ho := (run_good cfg args turns hu hk).1.order
  rw [h] at ho
  clear h
  induction l with
  | nil => exact ho.2
  | cons x l ih =>
    refine ih ?_
    cases x with
    | started _ _ _ _ _ _ => exact ho.1
    | _ => exact ho

/-- C66: the results are those of the lookup client: all of them, in their order, and a lookup is
running as long as it is under way there.  What happened to a lookup is as C43 and C44 say. -/
theorem c66_results_partial (cfg : Cfg) (args : List Bytes) (turns : List (List Ev))
    (hu : (run cfg args turns).client.uids ≤ 4294967294) (hk : (run cfg args turns).killed = false) (u : Nat) :
    Spec.results u (run cfg args turns).log = Spec.callbacksOf (Client.Spec.hist u (run cfg args turns).client.log)
    ∧ ((∃ dom, (u, dom) ∈ Spec.running (run cfg args turns).log) ↔ Client.Spec.Open (Client.Spec.hist u (run cfg args turns).client.log))
    ∧ Client.Spec.Ok (Client.Spec.hist u (run cfg args turns).client.log) := by
  have h := (run_good cfg args turns hu hk).1
  generalize run cfg args turns = t at h
  have hlive : (∃ dom, (u, dom) ∈ Spec.running t.log) ↔ u ∈ live t.client := by
    rw [h.live, List.mem_reverse, List.mem_map]
    exact ⟨fun ⟨d, hd⟩ => ⟨_, hd, rfl⟩, fun ⟨x, hx, e⟩ => ⟨x.2, by rw [← e]; exact hx⟩⟩
  refine ⟨h.results u, ?_, h.rest.inv.ok u⟩
  rw [hlive]
  constructor
  · intro hl
    obtain ⟨r, hr⟩ := req?_live.2 hl
    obtain ⟨hm, e⟩ := Client.req?_some hr
    obtain ⟨-, -, b3, b4⟩ := h.rest.inv.base r hm
    rw [e] at b3 b4
    exact ⟨⟨_, _, _, b3⟩, (h.rest.qt u r hr).1, b4⟩
  · rintro ⟨⟨h', mn, to, hi⟩, hE, hC⟩
    have hlt : u < t.client.uids := by
      apply Classical.byContradiction
      intro hn
      rw [h.rest.inv.fresh u (by omega)] at hi
      cases hi
    rcases h.rest.inv.known u hlt with hr | e | e
    · exact req?_live.1 hr
    · exact absurd e hE
    · exact absurd e hC

/-- C66: stdout gets the headers, every answer to a query of the command line or of a connection,
and every query of a connection. -/
theorem c66_stdout_partial (cfg : Cfg) (args : List Bytes) (turns : List (List Ev))
    (hu : (run cfg args turns).client.uids ≤ 4294967294) (hk : (run cfg args turns).killed = false) :
    Spec.printed (run cfg args turns).log
      = Spec.lines ((if !cfg.json && cfg.headers then [csvHeaders] else []) ++ Spec.toPrint cfg (run cfg args turns).log) := by
  have h := (run_good cfg args turns hu hk).1.printed
  rw [List.append_nil] at h
  exact h

/-! ## C67 -/

/-- C67: the program ends after a turn of its main loop, if it is not a daemon, as soon as a query
has been answered and no lookup is running; then all queries have been answered, also all those of
its command line.

Missing: with nothing but queries that are refused there is no turn to end, and the program waits
for ever (`c67_hang_violated`). -/
theorem c67_exit_partial (cfg : Cfg) (args : List Bytes) (turns : List (List Ev)) (ht : turns ≠ [])
    (hu : (run cfg args turns).client.uids ≤ 4294967294) (hk : (run cfg args turns).killed = false) :
    (.exit ∈ (run cfg args turns).log ↔ cfg.daemon = false ∧ Spec.answered (run cfg args turns).log ≠ 0 ∧ Spec.running (run cfg args turns).log = [])
    ∧ (.exit ∈ (run cfg args turns).log → Spec.answered (run cfg args turns).log = (Spec.queries (run cfg args turns).log).length)
    ∧ Spec.ofCommandLine (run cfg args turns).log = args := by
  obtain ⟨h1, h2⟩ := run_ended cfg args turns ht hu hk
  have h3 := (run_good cfg args turns hu hk).2.2
  refine ⟨h2.trans h1, fun he => ?_, h3.cmd⟩
  have := h3.count
  rw [((h2.trans h1).1 he).2.2] at this
  simpa using this

/-! ## C68 -/

theorem domain_length {cfg : Cfg} {line : Bytes} {q : Query} {mn to : Nat} (h : Spec.Asks cfg line q mn to) : (Spec.domain line).length < 128 := by
  obtain ⟨d, typ, h1, h2, -⟩ := h
  rw [← times_domain h1]; exact h2

/-- C68: a line about a result has, in CSV format, under each header what the header says.

Missing: if there is no address, one more column follows (`c68_columns_violated`); the query
must have no tab in it. -/
theorem c68_csv_partial (cfg : Cfg) (hc : cfg.json = false) (hip : Spec.IpText cfg) (line : Bytes) (q : Query) (mn to : Nat)
    (ha : Spec.Asks cfg line q mn to) (htab : (9 : UInt8) ∉ Spec.domain line) (r : Result) :
    (let s := fmt cfg (Spec.domain line) (some r)
     Spec.column (b "query") s = some (Spec.domain line)
     ∧ Spec.column (b "result") s = some (Spec.kind r.rc)
     ∧ Spec.column (b "last") s = some (if r.last then b "last" else b "not-last")
     ∧ Spec.column (b "age") s = some (Mdns.dec r.age)
     ∧ Spec.column (b "v4_ip") s = some (if r.rc = .result ∧ r.v4.nonzero = true then cfg.ip r.v4 else [])
     ∧ Spec.column (b "v4_port") s = some (if r.rc = .result ∧ r.v4.nonzero = true then Mdns.dec r.v4.port else [])
     ∧ Spec.column (b "v6_ip") s = some (if r.rc = .result ∧ r.v6.nonzero = true then cfg.ip r.v6 else [])
     ∧ Spec.column (b "v6_port") s = some (if r.rc = .result ∧ r.v6.nonzero = true then Mdns.dec r.v6.port else [])
     ∧ (r.rc = .result → (Spec.columns s).length = (Spec.columns csvHeaders).length)) := by
  dsimp only
  have hlen := domain_length ha
  have hs : fmt cfg (Spec.domain line) (some r) = csvText cfg (Spec.domain line) (some r) := by
    unfold fmt
    rw [hc, if_neg (by simp), List.take_of_length_le]
    have := csvText_length hip (Spec.domain line) r
    omega
  have hcol := csvText_columns hip htab r
  have hh : Spec.columns csvHeaders = [b "query", b "result", b "last", b "age", b "v4_ip", b "v4_port", b "v6_ip", b "v6_port"] := by decide +kernel
  rw [hs, hh, hcol]
  unfold Spec.column
  rw [hh, hcol]
  have key : ∀ (x1 x2 x3 x4 x5 x6 x7 x8 : Bytes) (l : List Bytes),
      (let z := [b "query", b "result", b "last", b "age", b "v4_ip", b "v4_port", b "v6_ip", b "v6_port"].zip (x1 :: x2 :: x3 :: x4 :: x5 :: x6 :: x7 :: x8 :: l)
       let f := fun name => (z.find? (fun x => decide (x.1 = name))).map (·.2)
       f (b "query") = some x1 ∧ f (b "result") = some x2 ∧ f (b "last") = some x3 ∧ f (b "age") = some x4 ∧ f (b "v4_ip") = some x5
       ∧ f (b "v4_port") = some x6 ∧ f (b "v6_ip") = some x7 ∧ f (b "v6_port") = some x8) := by
    intro x1 x2 x3 x4 x5 x6 x7 x8 l
    have e : ([b "query", b "result", b "last", b "age", b "v4_ip", b "v4_port", b "v6_ip", b "v6_port"].Nodup) := by decide +kernel
    dsimp only [List.zip_cons_cons]
    simp only [List.nodup_cons, List.mem_cons, not_or] at e
    obtain ⟨⟨a1, a2, a3, a4, a5, a6, a7, -⟩, ⟨b2, b3, b4, b5, b6, b7, -⟩, ⟨c3, c4, c5, c6, c7, -⟩, ⟨d4, d5, d6, d7, -⟩, ⟨e5, e6, e7, -⟩, ⟨f6, f7, -⟩, ⟨g7, -⟩, -⟩ := e
    simp only [List.find?_cons, decide_true, Option.map_some, a1, a2, a3, a4, a5, a6, a7, b2, b3, b4, b5, b6, b7, c3, c4, c5, c6, c7, d4, d5, d6, d7,
      e5, e6, e7, f6, f7, g7, decide_false, and_self]
  by_cases hr : r.rc = .result
  · have e4 : addrColumns cfg r.v4 = [if r.rc = .result ∧ r.v4.nonzero = true then cfg.ip r.v4 else [],
        if r.rc = .result ∧ r.v4.nonzero = true then Mdns.dec r.v4.port else []] := by
      unfold addrColumns
      cases r.v4.nonzero <;> simp [hr]
    have e6 : addrColumns cfg r.v6 = [if r.rc = .result ∧ r.v6.nonzero = true then cfg.ip r.v6 else [],
        if r.rc = .result ∧ r.v6.nonzero = true then Mdns.dec r.v6.port else []] := by
      unfold addrColumns
      cases r.v6.nonzero <;> simp [hr]
    rw [if_pos hr, e4, e6]
    obtain ⟨k1, k2, k3, k4, k5, k6, k7, k8⟩ := key (Spec.domain line) (Spec.kind r.rc) (lastColumn r.last) (Mdns.dec r.age) (if r.rc = .result ∧ r.v4.nonzero = true then cfg.ip r.v4 else [])
      (if r.rc = .result ∧ r.v4.nonzero = true then Mdns.dec r.v4.port else []) (if r.rc = .result ∧ r.v6.nonzero = true then cfg.ip r.v6 else [])
      (if r.rc = .result ∧ r.v6.nonzero = true then Mdns.dec r.v6.port else []) []
    exact ⟨k1, k2, k3, k4, k5, k6, k7, k8, fun _ => rfl⟩
  · obtain ⟨k1, k2, k3, k4, k5, k6, k7, k8⟩ := key (Spec.domain line) (Spec.kind r.rc) (lastColumn r.last) (Mdns.dec r.age) [] [] [] [] [[]]
    have no : ∀ {p : Prop} [Decidable p] (x : Bytes), (if r.rc = .result ∧ p then x else []) = [] := fun x => if_neg (fun h => hr h.1)
    rw [if_neg hr, no, no, no, no]
    exact ⟨k1, k2, k3, k4, k5, k6, k7, k8, fun h => absurd h hr⟩

/-- C68: a line about an error names the query and has as many columns as the headers, unless it is
cut because it is too long. -/
theorem c68_csv_error_partial (cfg : Cfg) (hc : cfg.json = false) (text : Bytes) (htab : (9 : UInt8) ∉ text) (hl : text.length ≤ 1011) :
    Spec.columns (fmt cfg text none) = [text, b "ERROR", [], [], [], [], [], []] := by
  have e : (b "\tERROR\t\t\t\t\t\t").length = 12 := by decide +kernel
  unfold fmt
  rw [hc, if_neg (by simp), List.take_of_length_le, csvError_columns htab]
  show (text ++ b "\tERROR\t\t\t\t\t\t").length ≤ 1023
  rw [List.length_append, e]; omega

/-- C68: a line is, in JSON format, an object with the query and the result.

Missing: the query must have no characters in it that need escapes (`c68_json_violated`). -/
theorem c68_json_partial (cfg : Cfg) (hj : cfg.json = true) (hip : Spec.IpText cfg) (line : Bytes) (q : Query) (mn to : Nat)
    (ha : Spec.Asks cfg line q mn to) (hp : Spec.Plain (Spec.domain line)) (r : Result) (hr : r.age < 2 ^ 32) :
    Spec.Text (Spec.answer cfg (Spec.domain line) (some r)) (fmt cfg (Spec.domain line) (some r)) := by
  have hlen := domain_length ha
  unfold fmt
  rw [hj, if_pos rfl, List.take_of_length_le]
  · exact json_text hip hp (some r) (fun x hx => by cases hx; exact hr)
  · have := jsonText_length hip (Spec.domain line) r
    omega

/-- C68: also a line about an error, unless it is cut because it is too long. -/
theorem c68_json_error_partial (cfg : Cfg) (hj : cfg.json = true) (hip : Spec.IpText cfg) (text : Bytes) (hp : Spec.Plain text) (hl : text.length ≤ 990) :
    Spec.Text (Spec.answer cfg text none) (fmt cfg text none) := by
  unfold fmt
  rw [hj, if_pos rfl, List.take_of_length_le]
  · exact json_text hip hp none (fun x hx => by cases hx)
  · have e1 : (b "{\"query\": \"").length = 11 := by decide +kernel
    have e2 : (b ", \"result\": \"ERROR\"").length = 19 := by decide +kernel
    have e3 : (b "\"").length = 1 := by decide +kernel
    have e4 : (b "}").length = 1 := by decide +kernel
    unfold jsonText
    dsimp only
    simp only [List.length_append, e1, e2, e3, e4]
    omega

/-- C68: ages and ports are written as decimal numbers. -/
theorem c68_decimal (n : Nat) (h : n < 2 ^ 32) : Spec.Decimal (Mdns.dec n) n := dec_decimal h

end Verif.Tool.Props
