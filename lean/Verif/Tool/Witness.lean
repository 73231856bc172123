import Verif.Tool.Props
/-!
# C66 to C68: examples and violations
-/
namespace Verif.Tool.Props
open Verif Verif.Mslookup Verif.Tool Verif.Sys

/-! ## Examples -/

def exIp : Addr → Bytes := fun a => if a.v6 then b "2001:db8::1" else b "1.2.3.4"

theorem exIpText : ∀ cfg : Cfg, cfg.ip = exIp → Spec.IpText cfg := by
  intro cfg h a
  rw [h]
  have h1 : (b "2001:db8::1").length ≤ 45 ∧ Spec.Plain (b "2001:db8::1") := by unfold Spec.Plain; decide +kernel
  have h2 : (b "1.2.3.4").length ≤ 45 ∧ Spec.Plain (b "1.2.3.4") := by unfold Spec.Plain; decide +kernel
  unfold exIp
  split
  · exact h1
  · exact h2

def exCfg : Cfg := { ip := exIp }
def exOnce : Cfg := { ip := exIp, daemon := false }
def exJson : Cfg := { ip := exIp, json := true }

def exSip : Bytes := b "500-1500@sip.voice.123.msisdn"
def exImsi : Bytes := b "sip.voice.901700000014701.IMSI"
def exAddr (age : Nat) (last : Bool) : Result := { rc := .result, v4 := { ip := 16909060, port := 5060 }, age := age, last := last }

/-- Two connections, the answers of which come in an order of their own. -/
def exTurns : List (List Ev) :=
  [[.accept true, .accept true], [.packet 0 (exSip ++ [10]), .packet 1 exImsi], [.rx 2 (exAddr 7 false), .timeout 0], [.rx 1 (exAddr 9 false)],
   [.packet 0 exImsi], [.timeout 1, .rx 1 (exAddr 0 false)]]

/-- The hypotheses of C66's theorems can be met: the lookup for connection 0 starts with a minimum
delay of 500 ms; it reports two results, and refuses another query in between. -/
example : (run exCfg [] exTurns).client.uids ≤ 4294967294 ∧ (run exCfg [] exTurns).killed = false ∧ Spec.Distinct (run exCfg [] exTurns).log
    ∧ Spec.got 0 (run exCfg [] exTurns).log = [.line csvHeaders, .line (b "sip.voice.123.msisdn\tresult\tnot-last\t9\t1.2.3.4\t5060\t\t"),
        .line (b "sip.voice.901700000014701.IMSI\tERROR\t\t\t\t\t\t"), .line (b "sip.voice.123.msisdn\tresult\tlast\t0\t1.2.3.4\t5060\t\t"), .close]
    ∧ Spec.got 1 (run exCfg [] exTurns).log = [.line csvHeaders, .line (b "sip.voice.901700000014701.IMSI\tresult\tlast\t7\t1.2.3.4\t5060\t\t"), .close]
    ∧ (∃ q, Obs.started (some 0) exSip 0 q 500 1500 ∈ (run exCfg [] exTurns).log)
    ∧ Spec.running (run exCfg [] (exTurns.take 4)).log = [(1, exImsi), (0, b "sip.voice.123.msisdn")]
    ∧ Spec.results 0 (run exCfg [] exTurns).log = [exAddr 9 false, exAddr 0 true] := by
  refine ⟨by decide +kernel, by decide +kernel, by decide +kernel, by decide +kernel, by decide +kernel,
    ⟨{ service := b "sip.voice", id := .msisdn (b "123") }, by decide +kernel⟩, by decide +kernel, by decide +kernel⟩

/-- A connection whose query cannot be read. -/
example : Spec.got 0 (run exCfg [] [[.accept true], [.packet 0 (b "sip.voice.12x.msisdn")]]).log
    = [.line csvHeaders, .line (b "sip.voice.12x.msisdn\tERROR\t\t\t\t\t\t"), .close] := by decide +kernel

/-- What is printed, and the end of the program: not before both queries are answered. -/
example : (run exOnce [exSip, exImsi] [[.rx 1 (exAddr 0 false)]]).exited = false
    ∧ (run exOnce [exSip, exImsi] [[.rx 1 (exAddr 0 false)], [.timeout 1]]).exited = true
    ∧ (run exOnce [exSip, exImsi] [[.rx 1 (exAddr 0 false)], [.timeout 1]]).killed = false
    ∧ .exit ∈ (run exOnce [exSip, exImsi] [[.rx 1 (exAddr 0 false)], [.timeout 1]]).log
    ∧ Spec.printed (run exOnce [exSip, exImsi] [[.rx 1 (exAddr 0 false)], [.timeout 1]]).log
      = csvHeaders ++ 10 :: (b "sip.voice.123.msisdn\tresult\tlast\t0\t1.2.3.4\t5060\t\t" ++ 10 ::
        (b "sip.voice.901700000014701.IMSI\tnot-found\tlast\t0\t\t\t\t\t" ++ [10])) := by
  decide +kernel

theorem exAsks (cfg : Cfg) (h1 : cfg.minDelay = 1000) (h2 : cfg.timeout = 1000) :
    Spec.Asks cfg exSip { service := b "sip.voice", id := .msisdn (b "123") } 500 1500
    ∧ Spec.Asks cfg exImsi { service := b "sip.voice", id := .imsi (b "901700000014701") } 1000 1000 := by
  obtain ⟨j, h, d, mn, to, ip⟩ := cfg
  cases h1; cases h2
  constructor
  · refine readQuery_asks.1 ?_
    show readQuery { ip := fun _ => [] } exSip = _
    decide +kernel
  · refine readQuery_asks.1 ?_
    show readQuery { ip := fun _ => [] } exImsi = _
    decide +kernel

/-- The hypotheses of C68's theorems can be met. -/
example : (9 : UInt8) ∉ Spec.domain exSip ∧ Spec.Plain (Spec.domain exSip) ∧ Spec.IpText exCfg ∧ Spec.IpText exJson
    ∧ fmt exJson (Spec.domain exSip) (some (exAddr 3 true))
      = b "{\"query\": \"sip.voice.123.msisdn\", \"result\": \"result\", \"last\": true, \"age\": 3, \"v4\": [\"1.2.3.4\", \"5060\"]}" := by
  refine ⟨by decide +kernel, by unfold Spec.Plain; decide +kernel, exIpText _ rfl, exIpText _ rfl, by decide +kernel⟩

/-! ## Violations -/

/-- C66 is violated: of two connections with the same query, both get the result of the lookup that
ends first, and are closed by it, although a lookup was started for each. -/
theorem c66_shared_violated : ∃ turns : List (List Ev), (run exCfg [] turns).client.uids ≤ 4294967294 ∧ (run exCfg [] turns).killed = false
    ∧ Spec.conn exCfg 1 (run exCfg [] turns).log = (.waiting 1 exImsi, [.line csvHeaders])
    ∧ Spec.got 1 (run exCfg [] turns).log = [.line csvHeaders, .line (fmt exCfg exImsi (some (exAddr 0 true))), .close] :=
  ⟨[[.accept true, .accept true], [.packet 0 exImsi], [.packet 1 exImsi], [.rx 1 (exAddr 0 false)]],
    by decide +kernel, by decide +kernel, by decide +kernel, by decide +kernel⟩

/-- C66 is violated: a query with the same domain string that is refused closes the connection of
the one that is under way. -/
theorem c66_refused_violated : ∃ turns : List (List Ev), (run exCfg [] turns).client.uids ≤ 4294967294 ∧ (run exCfg [] turns).killed = false
    ∧ Spec.conn exCfg 0 (run exCfg [] turns).log = (.waiting 0 exImsi, [.line csvHeaders])
    ∧ Spec.got 0 (run exCfg [] turns).log = [.line csvHeaders, .line (fmt exCfg exImsi none), .close] :=
  ⟨[[.accept true, .accept true], [.packet 0 exImsi], [.packet 1 (b "x@" ++ exImsi)]], by decide +kernel, by decide +kernel, by decide +kernel, by decide +kernel⟩

/-- C66 is violated: the answer to an empty query goes to connections that have not asked for
anything, and closes them. -/
theorem c66_empty_violated : ∃ turns : List (List Ev), (run exCfg [] turns).client.uids ≤ 4294967294 ∧ (run exCfg [] turns).killed = false
    ∧ Spec.conn exCfg 0 (run exCfg [] turns).log = (.fresh, [.line csvHeaders])
    ∧ Spec.got 0 (run exCfg [] turns).log = [.line csvHeaders, .line (b "\tERROR\t\t\t\t\t\t"), .close] :=
  ⟨[[.accept true, .accept true], [.packet 1 (b "5@")]], by decide +kernel, by decide +kernel, by decide +kernel, by decide +kernel⟩

/-- C66 is violated: the program is killed by SIGPIPE if a connection is closed at its other end
before its result arrives, while another connection waits for its own. -/
theorem c66_killed_violated : ∃ turns : List (List Ev), (run exCfg [] turns).client.uids ≤ 4294967294 ∧ Spec.Distinct (run exCfg [] turns).log
    ∧ (Spec.conn exCfg 1 (run exCfg [] turns).log).1 = .waiting 1 exImsi ∧ (run exCfg [] turns).killed = true :=
  ⟨[[.accept true, .accept true], [.packet 0 exSip, .packet 1 exImsi], [.hangup 0, .rx 1 (exAddr 0 false)]],
    by decide +kernel, by decide +kernel, by decide +kernel, by decide +kernel⟩

/-- C67 is violated: with only a query that is refused, the program waits in its main loop although
all queries are answered; there is no timer and no connection to wake it up. -/
theorem c67_hang_violated : ∃ arg : Bytes, Spec.answered (run exOnce [arg] []).log = 1 ∧ Spec.queries (run exOnce [arg] []).log = [(none, arg)]
    ∧ Spec.running (run exOnce [arg] []).log = [] ∧ .exit ∉ (run exOnce [arg] []).log
    ∧ (run exOnce [arg] []).client.reqs = [] ∧ (run exOnce [arg] []).socks = [] :=
  ⟨b "sip.voice.123", by decide +kernel, by decide +kernel, by decide +kernel, by decide +kernel, by decide +kernel, by decide +kernel⟩

/-- C68 is violated: whatever the query, a line without an address has nine columns, one more than
the headers. -/
theorem c68_columns_violated (cfg : Cfg) (hc : cfg.json = false) (hip : Spec.IpText cfg) (line : Bytes) (q : Query) (mn to : Nat)
    (ha : Spec.Asks cfg line q mn to) (htab : (9 : UInt8) ∉ Spec.domain line) (r : Result) (hr : r.rc ≠ .result) :
    (Spec.columns (fmt cfg (Spec.domain line) (some r))).length = 9 ∧ (Spec.columns csvHeaders).length = 8 := by
  have hlen := domain_length ha
  have hs : fmt cfg (Spec.domain line) (some r) = csvText cfg (Spec.domain line) (some r) := by
    unfold fmt
    rw [hc, if_neg (by simp), List.take_of_length_le]
    have := csvText_length hip (Spec.domain line) r
    omega
  refine ⟨?_, by decide +kernel⟩
  rw [hs, csvText_columns hip htab r, if_neg hr]
  rfl

example : (exAddr 0 true).rc = .result ∧ ({ rc := .notFound, last := true } : Result).rc ≠ .result := by decide +kernel

/-- The name of a service with quotes in it. -/
def exQuote : Bytes := b "x\", \"result\": \"y.1.msisdn"

/-- C68 is violated: a service may have quotes in its name, and then the line is an object with
another query in it and a result that nobody reported. -/
theorem c68_json_violated : ∃ (line : Bytes) (q : Query) (mn to : Nat), Spec.Asks exJson line q mn to
    ∧ Spec.domain line ≠ b "x"
    ∧ Spec.Text (.obj [(b "query", .str (b "x")), (b "result", .str (b "y.1.msisdn")), (b "result", .str (b "not-found")),
        (b "last", .bool true), (b "age", .num 0)]) (fmt exJson (Spec.domain line) (some { rc := .notFound, last := true })) := by
  refine ⟨exQuote, { service := b "x\", \"result\": \"y", id := .msisdn (b "1") }, 1000, 1000, readQuery_asks.1 (by decide +kernel), by decide +kernel, ?_⟩
  have p : ∀ s ∈ [b "query", b "result", b "last", b "age", b "x", b "y.1.msisdn", b "not-found"], Spec.Plain s := by
    unfold Spec.Plain; decide +kernel
  have hb : Spec.Blank [32] := by intro c hc; rw [List.mem_singleton] at hc; exact .inl hc
  have m1 := Spec.Members.one (b "query") (.str (b "x")) [32] _ (p _ (by simp)) hb (.str _ (p _ (by simp)))
  have m2 := Members.append m1 (p (b "result") (by simp)) (.str (b "y.1.msisdn") (p _ (by simp)))
  have m3 := Members.append m2 (p (b "result") (by simp)) (.str (b "not-found") (p _ (by simp)))
  have m4 := Members.append m3 (p (b "last") (by simp)) .true
  have m5 := Members.append m4 (p (b "age") (by simp)) (.num 0 _ (dec_decimal (by decide)))
  have := Spec.Text.obj _ _ m5
  have e : fmt exJson (Spec.domain exQuote) (some { rc := .notFound, last := true }) = 123 :: (34 :: (b "query" ++ 34 :: 58 :: ([32] ++ 34 :: (b "x" ++ [34])))
    ++ 44 :: 32 :: 34 :: (b "result" ++ 34 :: 58 :: 32 :: 34 :: (b "y.1.msisdn" ++ [34]))
    ++ 44 :: 32 :: 34 :: (b "result" ++ 34 :: 58 :: 32 :: 34 :: (b "not-found" ++ [34]))
    ++ 44 :: 32 :: 34 :: (b "last" ++ 34 :: 58 :: 32 :: b "true")
    ++ 44 :: 32 :: 34 :: (b "age" ++ 34 :: 58 :: 32 :: Mdns.dec 0) ++ [125]) := by decide +kernel
  rw [e]
  exact this

end Verif.Tool.Props
