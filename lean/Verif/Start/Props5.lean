import Verif.Start.Props4
/-!
# C74: osmo-mslookup-client, `--send`, examples, and where it does not do what its command line says
-/
namespace Verif.Start
open Verif Verif.Mslookup
open Verif.Tool.Spec (Number)
open Verif.Mslookup.Mdns.Spec (Sendable)

/-- `Addresses addrOf l r`: the words `l` are addresses, each with its port, of which at most one is an IPv4
and at most one an IPv6 address, and `r` has them. -/
inductive Addresses (addrOf : Bytes → Option Sys.Addr) : List Bytes → Result → Prop
  | v4 {ip port : Bytes} {a : Sys.Addr} {n age : Nat} : addrOf ip = some a → a.v6 = false → Number port n → 1 ≤ n → n ≤ 65535 →
      Addresses addrOf [ip, port] { rc := .result, age := age, v4 := { a with port := n } }
  | v6 {ip port : Bytes} {a : Sys.Addr} {n age : Nat} : addrOf ip = some a → a.v6 = true → Number port n → 1 ≤ n → n ≤ 65535 →
      Addresses addrOf [ip, port] { rc := .result, age := age, v6 := { a with port := n } }
  | both {ip port ip' port' : Bytes} {a a' : Sys.Addr} {n n' age : Nat} : addrOf ip = some a → a.v6 = false → Number port n → 1 ≤ n →
      n ≤ 65535 → addrOf ip' = some a' → a'.v6 = true → Number port' n' → 1 ≤ n' → n' ≤ 65535 →
      Addresses addrOf [ip, port, ip', port'] { rc := .result, age := age, v4 := { a with port := n }, v6 := { a' with port := n' } }
  | both' {ip port ip' port' : Bytes} {a a' : Sys.Addr} {n n' age : Nat} : addrOf ip = some a → a.v6 = true → Number port n → 1 ≤ n →
      n ≤ 65535 → addrOf ip' = some a' → a'.v6 = false → Number port' n' → 1 ≤ n' → n' ≤ 65535 →
      Addresses addrOf [ip, port, ip', port'] { rc := .result, age := age, v4 := { a' with port := n' }, v6 := { a with port := n } }

/-- Addresses fit their family. -/
def AddrSane (addrOf : Bytes → Option Sys.Addr) : Prop :=
  ∀ s a, addrOf s = some a → a.ip < if a.v6 then 2 ^ 128 else 2 ^ 32

theorem sendAddr_some {addrOf : Bytes → Option Sys.Addr} {r : Result} {ip port : Bytes} {a : Sys.Addr} {n : Nat}
    (ha : addrOf ip = some a) (hn : Number port n) (h1 : 1 ≤ n) (h2 : n ≤ 65535) :
    sendAddr addrOf r (some ip) (some port) =
      some (if a.v6 then { r with v6 := { a with port := n } } else { r with v4 := { a with port := n } }) := by
  unfold sendAddr
  dsimp only [Option.getD_some]
  rw [Tool.decodeU32_number.2 hn]
  dsimp only
  rw [if_pos ⟨h1, h2⟩, ha]
  dsimp only
  split <;> rfl

theorem addresses_send {addrOf : Bytes → Option Sys.Addr} {l : List Bytes} {r : Result} (h : Addresses addrOf l r) (hs : AddrSane addrOf)
    (hage : r.age < 2 ^ 32) :
    Mdns.Spec.Answer r ∧ ∃ r', sendAddr addrOf { rc := .result, age := r.age } l[0]? l[1]? = some r' ∧
      sendAddr addrOf r' l[2]? l[3]? = some r := by
  cases h with
  | v4 ha hf hn h1 h2 =>
    have h := hs _ _ ha
    rw [hf] at h
    refine ⟨⟨hage, ⟨hf, by simpa using h, by dsimp only; omega⟩, ⟨.inl rfl, Nat.two_pow_pos _, Nat.zero_lt_succ _⟩, .inl ?_⟩, _, sendAddr_some ha hn h1 h2, ?_⟩
    · intro e; have := congrArg Sys.Addr.port e; dsimp only at this; omega
    · rw [hf]; rfl
  | v6 ha hf hn h1 h2 =>
    have h := hs _ _ ha
    rw [hf] at h
    refine ⟨⟨hage, ⟨rfl, Nat.two_pow_pos _, Nat.zero_lt_succ _⟩, ⟨.inr hf, by simpa using h, by dsimp only; omega⟩, .inr ?_⟩, _, sendAddr_some ha hn h1 h2, ?_⟩
    · intro e; have := congrArg Sys.Addr.port e; dsimp only at this; omega
    · rw [hf]; rfl
  | both ha hf hn h1 h2 ha' hf' hn' h1' h2' =>
    have h := hs _ _ ha
    have h' := hs _ _ ha'
    rw [hf] at h
    rw [hf'] at h'
    refine ⟨⟨hage, ⟨hf, by simpa using h, by dsimp only; omega⟩, ⟨.inr hf', by simpa using h', by dsimp only; omega⟩, .inl ?_⟩,
      _, sendAddr_some ha hn h1 h2, ?_⟩
    · intro e; have := congrArg Sys.Addr.port e; dsimp only at this; omega
    · refine (sendAddr_some ha' hn' h1' h2').trans ?_
      rw [hf, hf']; rfl
  | both' ha hf hn h1 h2 ha' hf' hn' h1' h2' =>
    have h := hs _ _ ha
    have h' := hs _ _ ha'
    rw [hf] at h
    rw [hf'] at h'
    refine ⟨⟨hage, ⟨hf', by simpa using h', by dsimp only; omega⟩, ⟨.inr hf, by simpa using h, by dsimp only; omega⟩, .inl ?_⟩,
      _, sendAddr_some ha hn h1 h2, ?_⟩
    · intro e; have := congrArg Sys.Addr.port e; dsimp only at this; omega
    · refine (sendAddr_some ha' hn' h1' h2').trans ?_
      rw [hf, hf']; rfl

/-- **C74.** `osmo-mslookup-client --send <query> <age> <ip> <port> …` sends one packet that everybody reads as
that result of that query. -/
theorem c74_send (addrOf : Bytes → Option Sys.Addr) (hs : AddrSane addrOf) (suffix : Bytes) (q : Query) (typ age : Bytes) (l : List Bytes) (r : Result)
    (hq : Sendable q suffix) (hl : suffix.length ≤ 80) (ht : Mslookup.Spec.SameUpToCase typ (typeName q.id))
    (hage : Number age r.age) (hr : Addresses addrOf l r) :
    ∃ d, doSend addrOf suffix ((q.service ++ 46 :: (idText q.id ++ 46 :: typ)) :: age :: l) = .ok d ∧
      Mdns.resultDecode d suffix = .ok (0, q, r) := by
  have hlt : r.age < 2 ^ 32 := by
    have := Mslookup.Props.decodeU32_le (Tool.decodeU32_number.2 hage)
    omega
  obtain ⟨h1, r', e1, e2⟩ := addresses_send hr hs hlt
  obtain ⟨d, hd⟩ := (Mslookup.Props.c46_fits 0 hq hl).2 r h1
  refine ⟨d, ?_, ?_⟩
  · unfold doSend
    dsimp only
    rw [Tool.parse_of hq.valid ht]
    dsimp only
    rw [Tool.decodeU32_number.2 hage]
    dsimp only
    rw [e1]
    dsimp only
    rw [e2]
    exact hd
  · rw [Mslookup.Props.c46_result_partial (by decide) hq h1 hd]
    cases hr <;> rfl

/-- **C74.** The command line with `--send` gets there. -/
theorem c74_send_said (posix : Bool) (isIp : Bytes → Bool) (ipText : Sys.Addr → Bytes) (ws : List Bytes) (is : List Item) (ps : List Bytes)
    (hc : Cmdline lookupDoc posix ws is ps) (hok : ∀ i ∈ is, ArgOk isIp i)
    (hno : ¬ (Given (b "help") is ∨ Given (b "version") is)) (hsend : Given (b "send") is) :
    ∃ a, lookupMain posix isIp ipText ws = .send a ps ∧ a.suffix = lastArg (b "mdns-domain-suffix") (b "mdns.osmocom.org") is ∧
      a.ip = lastArg (b "mdns-ip") (b "239.192.23.42") is ∧ Number (lastArg (b "mdns-port") (b "4266") is) a.port := by
  have hp := hc.items
  have e := lookup_options isIp is hp hok hno
  obtain ⟨np, ep⟩ := lastArg_number (b "mdns-port") (b "4266") 4266 (by decide +kernel) is (fun i hi e =>
    ⟨arg_some hp (by decide +kernel) i hi e, (hok i hi).2.1 e |>.imp fun _ h => h.1⟩)
  refine ⟨lookupArgsOf is, ?_, rfl, rfl, ?_⟩
  · unfold lookupMain
    rw [lookup_agree.reads hc]
    dsimp only
    rw [e]
    dsimp only
    rw [if_pos (show (lookupArgsOf is).send = true by simpa [lookupArgsOf] using hsend)]
  · show Number _ ((Mdns.decodeU32 _).getD 0)
    rw [ep]
    exact Tool.decodeU32_number.1 ep

/-! ## Examples -/

theorem sameSelf : ∀ s : Bytes, Mslookup.Spec.SameUpToCase s s
  | [] => trivial
  | _ :: s => ⟨.inl rfl, sameSelf s⟩

/-- Two texts and their addresses. -/
def exAddrOf (s : Bytes) : Option Sys.Addr :=
  if s = b "23.42.17.11" then some { ip := 388632843 }
  else if s = b "::42" then some { v6 := true, ip := 66 }
  else none

theorem exAddrOf_sane : AddrSane exAddrOf := by
  intro s a h
  unfold exAddrOf at h
  split at h
  · cases h; decide
  · split at h
    · cases h; decide
    · cases h

def exSent : Result where
  rc := .result
  age := 300
  v4 := { ip := 388632843, port := 99 }
  v6 := { v6 := true, ip := 66, port := 1234 }

example : ∃ d, doSend exAddrOf Mdns.defaultSuffix ((Mslookup.Props.exQuery.service ++ 46 :: (idText Mslookup.Props.exQuery.id ++ 46 :: typeName Mslookup.Props.exQuery.id)) ::
      b "300" :: ["::42", "1234", "23.42.17.11", "99"].map b) = .ok d ∧
    Mdns.resultDecode d Mdns.defaultSuffix = .ok (0, Mslookup.Props.exQuery, exSent) :=
  c74_send exAddrOf exAddrOf_sane Mdns.defaultSuffix Mslookup.Props.exQuery (typeName Mslookup.Props.exQuery.id) (b "300") (["::42", "1234", "23.42.17.11", "99"].map b)
    exSent Mslookup.Props.exSendable (by decide +kernel) (sameSelf _) (Tool.decodeU32_number.1 (by decide +kernel))
    (.both' (a := { v6 := true, ip := 66 }) (a' := { ip := 388632843 }) (by decide +kernel) rfl (Tool.decodeU32_number.1 (by decide +kernel)) (by decide) (by decide) (by decide +kernel) rfl
      (Tool.decodeU32_number.1 (by decide +kernel)) (by decide) (by decide))

/-- `osmo-mslookup-client 1000-@sip.voice.12345.msisdn -f json`, the example of the help text. -/
theorem ex_lookup : Cmdline lookupDoc false (["1000-@sip.voice.12345.msisdn", "-f", "json"].map b) [⟨b "format", some (b "json")⟩]
    [b "1000-@sip.voice.12345.msisdn"] := by
  have h : Cmdline lookupDoc false [b "-f", b "json"] [⟨b "format", some (b "json")⟩] [] :=
    .next (fs := []) (d := { short := some 102, long := b "format", arg := true }) (c := 102) (by intro d hd; cases hd)
      (by decide +kernel) rfl rfl .nil
  refine .word rfl (.inr ?_) h
  intro u e
  have h1 : (b "1000-@sip.voice.12345.msisdn").head? = some 49 := by decide +kernel
  rw [e] at h1
  simp at h1

example (ipText : Sys.Addr → Bytes) : ∃ cfg port, lookupMain false (fun _ => true) ipText (["1000-@sip.voice.12345.msisdn", "-f", "json"].map b)
      = .lookup cfg (b "239.192.23.42") port (b "mdns.osmocom.org") none [b "1000-@sip.voice.12345.msisdn"] ∧
    cfg.json = true ∧ cfg.daemon = false := by
  obtain ⟨cfg, port, h1, h2, _, h4, _⟩ := c74_lookup false (fun _ => true) ipText _ _ _ ex_lookup
    (by intro i hi; rw [List.mem_singleton.1 hi]
        refine ⟨fun h => rfl, ?_, ?_, ?_⟩ <;> (intro h; exact absurd h (by decide +kernel)))
    ⟨by decide +kernel, by decide +kernel⟩ (.inl (by decide)) (fun h => absurd h (by decide +kernel)) (.inr (by decide +kernel))
  refine ⟨cfg, port, ?_, h2.2 (by decide +kernel), ?_⟩
  · rw [h1]
    rw [show lastArg (b "mdns-ip") (b "239.192.23.42") [⟨b "format", some (b "json")⟩] = b "239.192.23.42" by decide +kernel,
      show lastArg (b "mdns-domain-suffix") (b "mdns.osmocom.org") [⟨b "format", some (b "json")⟩] = b "mdns.osmocom.org" by decide +kernel,
      show lastArg? (b "socket") [⟨b "format", some (b "json")⟩] = none by decide +kernel]
  · cases hd : cfg.daemon with
    | false => rfl
    | true => exact absurd (h4.1 hd) (by decide +kernel)

/-! ## Where the client does not do what its command line says -/

/-- **C74 violated**: a format that is not one of the two documented ones is not refused, if it is a beginning
of one: `-f j` and even an empty format give JSON. -/
theorem c74_format_violated : ∃ f, f ≠ b "csv" ∧ f ≠ b "json" ∧ ∀ isIp ipText query,
    (∀ u, query ≠ 45 :: u) → ∃ cfg ip port suffix, lookupMain false isIp ipText [b "-f", f, query]
      = .lookup cfg ip port suffix none [query] ∧ cfg.json = true := by
  refine ⟨[], by decide +kernel, by decide +kernel, ?_⟩
  intro isIp ipText query hq
  have hc : Cmdline lookupDoc false [b "-f", [], query] [⟨b "format", some []⟩] [query] :=
    .next (fs := []) (d := { short := some 102, long := b "format", arg := true }) (c := 102) (by intro d hd; cases hd)
      (by decide +kernel) rfl rfl (.word rfl (.inr hq) .nil)
  unfold lookupMain
  rw [lookup_agree.reads hc]
  exact ⟨lookupCfg ipText { format := some [] } true, _, _, _, by rfl, rfl⟩

/-- **C74 violated**: `--quiet` does not silence an error in the options before it. -/
theorem c74_quiet_violated : ∃ ws is, Cmdline lookupDoc false ws is [] ∧ Given (b "quiet") is ∧
    ∀ isIp ipText, lookupMain false isIp ipText ws = .exit [] false true := by
  refine ⟨[b "-T", b "x", b "-q"], [⟨b "timeout", some (b "x")⟩, ⟨b "quiet", none⟩], ?_, by decide +kernel, ?_⟩
  · exact .next (fs := []) (d := { short := some 84, long := b "timeout", arg := true }) (c := 84) (by intro d hd; cases hd)
      (by decide +kernel) rfl rfl (.flags (fs := [{ short := some 113, long := b "quiet" }]) (by simp) (by unfold Flags; decide +kernel) .nil)
  · intro isIp ipText
    have h : (scan lookupOpts false [b "-T", b "x", b "-q"]) = ([.opt 84 (some [120]), .opt 113 none], []) := by decide +kernel
    unfold lookupMain
    rw [h]
    rfl

/-- **C74 violated**: `--send` cannot be combined with `--daemon`, says the error message; the result is sent
nevertheless. -/
theorem c74_send_listening_violated : ∀ isIp ipText query,
    (∀ u, query ≠ 45 :: u) → ∃ a, lookupMain false isIp ipText [b "-Sd", query] = .send a [query] ∧ a.daemon = true := by
  intro isIp ipText query hq
  have hc : Cmdline lookupDoc false [b "-Sd", query] [⟨b "send", none⟩, ⟨b "daemon", none⟩] [query] :=
    .flags (fs := [{ short := some 83, long := b "send" }, { short := some 100, long := b "daemon" }]) (by simp)
      (by unfold Flags; decide +kernel) (.word rfl (.inr hq) .nil)
  unfold lookupMain
  rw [lookup_agree.reads hc]
  exact ⟨{ send := true, daemon := true }, by rfl, rfl⟩

/-- **C74 violated**: of two addresses of the same family, only the second is sent, without a message. -/
theorem c74_send_family_violated : ∃ (addrOf : Bytes → Option Sys.Addr) (d : Bytes) (q : Query) (r : Result), AddrSane addrOf ∧
    (addrOf (b "1.1.1.1")).isSome = true ∧ (addrOf (b "1.1.1.2")).isSome = true ∧ addrOf (b "1.1.1.1") ≠ addrOf (b "1.1.1.2") ∧
    doSend addrOf Mdns.defaultSuffix ((q.service ++ 46 :: (idText q.id ++ 46 :: typeName q.id)) :: b "1" :: ["1.1.1.1", "1", "1.1.1.2", "2"].map b)
      = .ok d ∧
    Mdns.resultDecode d Mdns.defaultSuffix = .ok (0, q, r) ∧ r.v6 = {} ∧ some r.v4.ip = (addrOf (b "1.1.1.2")).map (·.ip) := by
  let addrOf : Bytes → Option Sys.Addr := fun s => if s = b "1.1.1.1" then some { ip := 16843009 } else some { ip := 16843010 }
  have hs : AddrSane addrOf := by
    intro s a h
    simp only [addrOf] at h
    split at h <;> (cases h; decide)
  obtain ⟨d, h1, h2⟩ := c74_send addrOf hs Mdns.defaultSuffix Mslookup.Props.exQuery (typeName Mslookup.Props.exQuery.id) (b "1") (["1.1.1.2", "2"].map b)
    { rc := .result, age := 1, v4 := { ip := 16843010, port := 2 } } Mslookup.Props.exSendable (by decide +kernel) (sameSelf _)
    (Tool.decodeU32_number.1 (by decide +kernel))
    (.v4 (a := { ip := 16843010 }) (by decide +kernel) rfl (Tool.decodeU32_number.1 (by decide +kernel)) (by decide) (by decide))
  refine ⟨addrOf, d, Mslookup.Props.exQuery, _, hs, by decide +kernel, by decide +kernel, by decide +kernel, ?_, h2, rfl, by decide +kernel⟩
  rw [← h1]
  decide +kernel

end Verif.Start
