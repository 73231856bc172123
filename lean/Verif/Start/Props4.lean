import Verif.Start.Lemmas
import Verif.Start.Send
import Verif.Tool.Text
import Verif.Mslookup.MdnsProps
/-!
# C74: osmo-mslookup-client
-/
namespace Verif.Start
open Verif Verif.Mslookup
open Verif.Tool.Spec (Number)

/-- The argument of an option is of the right kind: an IP address, a port, a number of milliseconds. -/
def ArgOk (isIp : Bytes → Bool) (i : Item) : Prop :=
  (i.name = b "mdns-ip" → isIp (i.arg.getD []) = true) ∧
  (i.name = b "mdns-port" → ∃ n, Number (i.arg.getD []) n ∧ 1 ≤ n ∧ n ≤ 65535) ∧
  (i.name = b "min-delay" → ∃ n, Number (i.arg.getD []) n) ∧
  (i.name = b "timeout" → ∃ n, Number (i.arg.getD []) n)

/-- The argument of an option given last, if given. -/
def lastArg? (name : Bytes) (is : List Item) : Option Bytes := if Given name is then some (lastArg name [] is) else none

/-- What osmo-mslookup-client takes from its options. -/
def lookupArgsOf (is : List Item) : LookupArgs where
  daemon := decide (Given (b "daemon") is)
  ip := lastArg (b "mdns-ip") (b "239.192.23.42") is
  port := (Mdns.decodeU32 (lastArg (b "mdns-port") (b "4266") is)).getD 0
  minDelay := (Mdns.decodeU32 (lastArg (b "min-delay") (b "1000") is)).getD 0
  timeout := (Mdns.decodeU32 (lastArg (b "timeout") (b "1000") is)).getD 0
  socket := lastArg? (b "socket") is
  format := lastArg? (b "format") is
  suffix := lastArg (b "mdns-domain-suffix") (b "mdns.osmocom.org") is
  headers := !decide (Given (b "no-csv-headers") is)
  send := decide (Given (b "send") is)
  quiet := decide (Given (b "quiet") is)

theorem lastArg?_snoc (name : Bytes) (is : List Item) (i : Item) :
    lastArg? name (is ++ [i]) = if i.name = name then some (i.arg.getD []) else lastArg? name is := by
  unfold lastArg?
  by_cases h : i.name = name
  · simp [given_snoc, lastArg_snoc, h]
  · simp [given_snoc, lastArg_snoc, h]

theorem lookupOptions_snoc (isIp : Bytes → Bool) (a : LookupArgs) (ts : List Tok) (t : Tok) :
    lookupOptions isIp a (ts ++ [t]) = match lookupOptions isIp a ts with
      | .go a' => lookupOption isIp a' t
      | .exit acts ok m => .exit acts ok m := by
  induction ts generalizing a with
  | nil => simp only [List.nil_append, lookupOptions]; cases lookupOption isIp a t <;> rfl
  | cons x ts ih =>
    simp only [List.cons_append, lookupOptions]
    cases lookupOption isIp a x with
    | go a' => exact ih a'
    | exit acts ok m => rfl

theorem lookup_option (isIp : Bytes → Bool) (is : List Item) (i : Item) (hi : ∃ d ∈ lookupDoc, d.long = i.name ∧ i.arg.isSome = d.arg)
    (hok : ArgOk isIp i) (hno : i.name ≠ b "help" ∧ i.name ≠ b "version") :
    lookupOption isIp (lookupArgsOf is) (lookupOpts.tok i) = .go (lookupArgsOf (is ++ [i])) := by
  obtain ⟨d, hd, h1, h2⟩ := hi
  obtain ⟨name, arg⟩ := i
  obtain ⟨k1, k2, k3, k4⟩ := hok
  dsimp only at h1 h2 k1 k2 k3 k4 hno
  subst h1
  simp only [n_help, n_version, n_mdns_ip, n_mdns_port, n_min_delay, n_timeout, ← Tool.decodeU32_number] at k1 k2 k3 k4 hno
  simp only [lookupDoc, List.mem_cons, List.not_mem_nil, or_false] at hd
  rcases hd with rfl | rfl | rfl | rfl | rfl | rfl | rfl | rfl | rfl | rfl | rfl | rfl | rfl
  case inr.inr.inr.inl =>
    cases arg with
    | none => simp at h2
    | some a =>
      have := k1 rfl
      simp at this
      simp [Opts.tok, lookupOpts, Long.tok, lookupOption, lookupArgsOf, lastArg_snoc, given_snoc, lastArg?_snoc, this,
        n_daemon, n_mdns_ip, n_mdns_port, n_min_delay, n_timeout, n_socket, n_format, n_mdns_domain_suffix, n_no_csv_headers, n_send, n_quiet]
  case inr.inr.inr.inr.inl =>
    cases arg with
    | none => simp at h2
    | some a =>
      obtain ⟨n, h, h'⟩ := k2 rfl
      simp at h h'
      simp [Opts.tok, lookupOpts, Long.tok, lookupOption, lookupArgsOf, lastArg_snoc, given_snoc, lastArg?_snoc, h, h',
        n_daemon, n_mdns_ip, n_mdns_port, n_min_delay, n_timeout, n_socket, n_format, n_mdns_domain_suffix, n_no_csv_headers, n_send, n_quiet]
  case inr.inr.inr.inr.inr.inr.inl =>
    cases arg with
    | none => simp at h2
    | some a =>
      obtain ⟨n, h⟩ := k3 rfl
      simp at h
      simp [Opts.tok, lookupOpts, Long.tok, lookupOption, lookupArgsOf, lastArg_snoc, given_snoc, lastArg?_snoc, h,
        n_daemon, n_mdns_ip, n_mdns_port, n_min_delay, n_timeout, n_socket, n_format, n_mdns_domain_suffix, n_no_csv_headers, n_send, n_quiet]
  case inr.inr.inr.inr.inr.inr.inr.inl =>
    cases arg with
    | none => simp at h2
    | some a =>
      obtain ⟨n, h⟩ := k4 rfl
      simp at h
      simp [Opts.tok, lookupOpts, Long.tok, lookupOption, lookupArgsOf, lastArg_snoc, given_snoc, lastArg?_snoc, h,
        n_daemon, n_mdns_ip, n_mdns_port, n_min_delay, n_timeout, n_socket, n_format, n_mdns_domain_suffix, n_no_csv_headers, n_send, n_quiet]
  all_goals
    cases arg with
    | none => first
      | (simp at h2; done)
      | (exact absurd rfl hno.1)
      | (exact absurd rfl hno.2)
      | (simp [Opts.tok, lookupOpts, Long.tok, lookupOption, lookupArgsOf, lastArg_snoc, given_snoc, lastArg?_snoc,
          n_daemon, n_mdns_ip, n_mdns_port, n_min_delay, n_timeout, n_socket, n_format, n_mdns_domain_suffix, n_no_csv_headers, n_send, n_quiet]; done)
    | some a => first
      | (simp at h2; done)
      | (simp [Opts.tok, lookupOpts, Long.tok, lookupOption, lookupArgsOf, lastArg_snoc, given_snoc, lastArg?_snoc,
          n_daemon, n_mdns_ip, n_mdns_port, n_min_delay, n_timeout, n_socket, n_format, n_mdns_domain_suffix, n_no_csv_headers, n_send, n_quiet]; done)

theorem lookup_options (isIp : Bytes → Bool) (is : List Item) (hp : Proper lookupDoc is) (hok : ∀ i ∈ is, ArgOk isIp i)
    (hno : ¬ (Given (b "help") is ∨ Given (b "version") is)) :
    lookupOptions isIp {} (is.map lookupOpts.tok) = .go (lookupArgsOf is) := by
  induction is using item_induction with
  | h0 =>
    show LParsed.go ({} : LookupArgs) = .go (lookupArgsOf [])
    decide +kernel
  | h1 is i ih =>
    rw [given_snoc, given_snoc] at hno
    have ih := ih (fun x hx => hp x (by simp [hx])) (fun x hx => hok x (by simp [hx]))
      (fun h => hno (h.elim (fun h => .inl (.inl h)) (fun h => .inr (.inl h))))
    rw [List.map_append, List.map_cons, List.map_nil, lookupOptions_snoc, ih]
    exact lookup_option isIp is i (hp i (by simp)) (hok i (by simp)) ⟨fun h => hno (.inl (.inr h)), fun h => hno (.inr (.inr h))⟩

/-- A number that is given last is one that was given. -/
theorem lastArg_number (name d : Bytes) (n0 : Nat) (h0 : Mdns.decodeU32 d = some n0) (is : List Item)
    (hp : ∀ i ∈ is, i.name = name → i.arg.isSome = true ∧ ∃ n, Number (i.arg.getD []) n) :
    ∃ n, Mdns.decodeU32 (lastArg name d is) = some n := by
  induction is using item_induction with
  | h0 => exact ⟨n0, h0⟩
  | h1 is i ih =>
    rw [lastArg_snoc]
    split
    · rename_i e
      obtain ⟨h, n, hn⟩ := hp i (by simp) e
      obtain ⟨a, ha⟩ := Option.isSome_iff_exists.1 h
      rw [ha] at hn ⊢
      exact ⟨n, Tool.decodeU32_number.2 hn⟩
    · exact ih (fun j hj => hp j (by simp [hj]))

theorem arg_some {is : List Item} (hp : Proper lookupDoc is) {name : Bytes} (hd : ∀ d ∈ lookupDoc, d.long = name → d.arg = true) :
    ∀ i ∈ is, i.name = name → i.arg.isSome = true := by
  intro i hi e
  obtain ⟨d, h1, h2, h3⟩ := hp i hi
  rw [h3]
  exact hd d h1 (h2.trans e)

/-- **C74.** osmo-mslookup-client does what its command line says, in any documented way of writing it
and in any order of the options.  It looks up each word that is not an option; format, headers, daemon
mode, delays, address, port, suffix and socket are those given last, or the documented defaults. -/
theorem c74_lookup (posix : Bool) (isIp : Bytes → Bool) (ipText : Sys.Addr → Bytes) (ws : List Bytes) (is : List Item) (ps : List Bytes)
    (hc : Cmdline lookupDoc posix ws is ps) (hok : ∀ i ∈ is, ArgOk isIp i)
    (hno : ¬ (Given (b "help") is ∨ Given (b "version") is) ∧ ¬ Given (b "send") is)
    (hq : ps ≠ [] ∨ Given (b "daemon") is)
    (ht : Given (b "daemon") is → ¬ Number (lastArg (b "timeout") (b "1000") is) 0)
    (hf : lastArg (b "format") (b "csv") is = b "csv" ∨ lastArg (b "format") (b "csv") is = b "json") :
    ∃ cfg port, lookupMain posix isIp ipText ws = .lookup cfg (lastArg (b "mdns-ip") (b "239.192.23.42") is) port
        (lastArg (b "mdns-domain-suffix") (b "mdns.osmocom.org") is) (lastArg? (b "socket") is) ps ∧
      (cfg.json = true ↔ lastArg (b "format") (b "csv") is = b "json") ∧
      (cfg.headers = true ↔ ¬ Given (b "no-csv-headers") is) ∧
      (cfg.daemon = true ↔ Given (b "daemon") is) ∧
      Number (lastArg (b "min-delay") (b "1000") is) cfg.minDelay ∧
      Number (lastArg (b "timeout") (b "1000") is) cfg.timeout ∧
      Number (lastArg (b "mdns-port") (b "4266") is) port ∧ cfg.ip = ipText := by
  have hp := hc.items
  have e := lookup_options isIp is hp hok hno.1
  obtain ⟨nt, et⟩ := lastArg_number (b "timeout") (b "1000") 1000 (by decide +kernel) is (fun i hi e =>
    ⟨arg_some hp (by decide +kernel) i hi e, (hok i hi).2.2.2 e⟩)
  obtain ⟨nd, ed⟩ := lastArg_number (b "min-delay") (b "1000") 1000 (by decide +kernel) is (fun i hi e =>
    ⟨arg_some hp (by decide +kernel) i hi e, (hok i hi).2.2.1 e⟩)
  obtain ⟨np, ep⟩ := lastArg_number (b "mdns-port") (b "4266") 4266 (by decide +kernel) is (fun i hi e =>
    ⟨arg_some hp (by decide +kernel) i hi e, (hok i hi).2.1 e |>.imp fun _ h => h.1⟩)
  have hfmt : lookupJson (lookupArgsOf is).format = some (decide (lastArg (b "format") (b "csv") is = b "json")) := by
    show lookupJson (lastArg? (b "format") is) = _
    unfold lastArg?
    split
    · rename_i hg
      have : lastArg (b "format") [] is = lastArg (b "format") (b "csv") is := by
        unfold lastArg
        cases hl : (is.filter (fun i => i.name == b "format")).getLast? with
        | none =>
          obtain ⟨i, hi, e⟩ := hg
          have : i ∈ is.filter (fun i => i.name == b "format") := by simp [hi, e]
          rw [List.getLast?_eq_none_iff.1 hl] at this
          cases this
        | some i =>
          have hm := List.mem_of_getLast? hl
          rw [List.mem_filter] at hm
          obtain ⟨a, ha⟩ := Option.isSome_iff_exists.1 (arg_some hp (by decide +kernel) i hm.1 (eq_of_beq hm.2))
          simp [ha]
      rw [this]
      rcases hf with h | h <;> (rw [h]; decide +kernel)
    · rename_i hg
      have : lastArg (b "format") (b "csv") is = b "csv" := by
        unfold lastArg
        have : is.filter (fun i => i.name == b "format") = [] := by
          rw [List.filter_eq_nil_iff]
          intro i hi e
          exact hg ⟨i, hi, eq_of_beq e⟩
        rw [this]; rfl
      rw [this]
      decide +kernel
  have hport : (lookupArgsOf is).port = np := by show (Mdns.decodeU32 _).getD 0 = _; rw [ep]; rfl
  have hdel : (lookupArgsOf is).minDelay = nd := by show (Mdns.decodeU32 _).getD 0 = _; rw [ed]; rfl
  have htim : (lookupArgsOf is).timeout = nt := by show (Mdns.decodeU32 _).getD 0 = _; rw [et]; rfl
  refine ⟨lookupCfg ipText (lookupArgsOf is) (decide (lastArg (b "format") (b "csv") is = b "json")), np, ?_, ?_, ?_, ?_, ?_, ?_, ?_, rfl⟩
  · unfold lookupMain
    rw [lookup_agree.reads hc]
    dsimp only
    rw [e]
    dsimp only
    rw [if_neg (show ¬ ((lookupArgsOf is).send = true) by simpa [lookupArgsOf] using hno.2)]
    rw [if_neg, if_neg, hfmt]
    · dsimp only
      rw [hport]
      rfl
    · rw [htim]
      intro h
      rw [Bool.and_eq_true] at h
      have h1 : Given (b "daemon") is := by simpa [lookupArgsOf] using h.1
      refine ht h1 (Tool.decodeU32_number.1 ?_)
      rw [et, eq_of_beq h.2]
    · intro h
      rw [Bool.and_eq_true] at h
      have h1 : ¬ Given (b "daemon") is := by simpa [lookupArgsOf] using h.1
      rcases hq with hq | hq
      · exact hq (List.isEmpty_iff.1 h.2)
      · exact h1 hq
  · show decide _ = true ↔ _
    simp
  · show (!decide _) = true ↔ _
    simp
  · show decide _ = true ↔ _
    simp
  · show Number _ (lookupArgsOf is).minDelay
    rw [hdel]; exact Tool.decodeU32_number.1 ed
  · show Number _ (lookupArgsOf is).timeout
    rw [htim]; exact Tool.decodeU32_number.1 et
  · exact Tool.decodeU32_number.1 ep

/-- **C74.** Whatever is on the command line: no lookup is started, and nothing is sent, unless the command
line is a documented one. -/
theorem c74_lookup_said (posix : Bool) (isIp : Bytes → Bool) (ipText : Sys.Addr → Bytes) (ws : List Bytes)
    (h : ∀ acts ok m, lookupMain posix isIp ipText ws ≠ .exit acts ok m) :
    ∃ is ps, Cmdline lookupDoc posix ws is ps := by
  refine Classical.byContradiction fun hn => ?_
  have hb : .bad ∈ (scan lookupOpts posix ws).1 := by
    refine Classical.byContradiction fun hb => hn ?_
    obtain ⟨is, hi⟩ := lookup_agree.said posix ws hb
    exact ⟨is, _, hi⟩
  have loop : ∀ (ts : List Tok), .bad ∈ ts → ∀ a, ∃ x y z, lookupOptions isIp a ts = .exit x y z := by
    intro ts
    induction ts with
    | nil => intro hb; cases hb
    | cons t ts ih =>
      intro hb a
      rw [lookupOptions]
      cases ho : lookupOption isIp a t with
      | exit x y z => exact ⟨x, y, z, rfl⟩
      | go a' =>
        rcases List.mem_cons.1 hb with rfl | hb
        · cases ho
        · exact ih hb a'
  obtain ⟨x, y, z, e⟩ := loop _ hb {}
  refine h x y z ?_
  unfold lookupMain
  rw [e]

end Verif.Start
