import Verif.Config.PdpProps

/-!
# C52: the port and the timeout that the commands set
-/

namespace Verif.Config
open Verif Verif.Sys Verif.Mslookup Verif.Mslookup.Mdns Verif.Config.Spec

/-- A UDP port. -/
def Port (n : Nat) : Prop := 1 ≤ n ∧ n ≤ 65535

/-- The ports of mDNS, and the timeout of a lookup in milliseconds, of a configuration. -/
structure MdnsSane (m : Msl) : Prop where
  srv : Port m.srv.addr.port
  cli : Port m.cli.addr.port
  timeout : 1 ≤ m.timeout ∧ m.timeout ≤ 100000

/-- What the commands can say about them. -/
def MslCmdOk : Cmd → Prop
  | .msMdns a => ∀ p, a.port = some p → Port p
  | .timeout t => 1 ≤ t ∧ t ≤ 100000
  | _ => True

theorem bindArgs_ok {e : Env} {ws : List Bytes} {a : MdnsConfig.BindArgs} (h : bindArgs e ws = some a) :
    ∀ p, a.port = some p → Port p := by
  unfold bindArgs at h
  split at h
  · cases h; intro p hp; cases hp
  · cases h; intro p hp; cases hp
  · obtain ⟨v, hv, rfl⟩ := Option.map_eq_some_iff.1 h
    intro p hp
    cases hp
    exact rangeVal_bounds hv
  · cases h

theorem parse_msl {e : Env} {n : Node} {ws : List Bytes} {c : Cmd} (h : parse e n ws = some c) : MslCmdOk c := by
  unfold parse at h
  split at h
  case h_2 =>
    unfold parseHlr parseNoHlr at h
    repeat' split at h
    all_goals first
      | (cases h; done)
      | (cases h; trivial)
      | (obtain ⟨v, hv, rfl⟩ := Option.map_eq_some_iff.1 h; trivial)
  case h_9 =>
    unfold parseMsl at h
    repeat' split at h
    all_goals first
      | (cases h; done)
      | (cases h; trivial)
      | (obtain ⟨v, hv, rfl⟩ := Option.map_eq_some_iff.1 h; exact rangeVal_bounds hv)
      | (obtain ⟨v, hv, rfl⟩ := Option.map_eq_some_iff.1 h; exact bindArgs_ok hv)
      | (obtain ⟨v, hv, rfl⟩ := Option.map_eq_some_iff.1 h; trivial)
  all_goals repeat' split at h
  all_goals first
    | (cases h; done)
    | (cases h; trivial)
    | (obtain ⟨v, hv, rfl⟩ := Option.map_eq_some_iff.1 h; trivial)

theorem bindHalf_port {a : MdnsConfig.BindArgs} {h : MdnsConfig.Half} (ha : ∀ p, a.port = some p → Port p)
    (hp : Port h.addr.port) : Port (bindHalf a h).2.addr.port := by
  have hd : Port (a.port.getD h.addr.port) := by
    cases hq : a.port with
    | none => exact hp
    | some p => exact ha p hq
  unfold bindHalf
  split
  · exact hp
  · rename_i x hx
    unfold MdnsConfig.BindArgs.addr at hx
    dsimp only at hx ⊢
    repeat' split at hx
    all_goals first
      | (cases hx; done)
      | (cases hx
         rename_i q _
         repeat' split at q
         all_goals first
           | (cases q; done)
           | (cases q; exact hd))

theorem execMsl_sane (n : Node) (s : St) {c : Cmd} (hc : MslCmdOk c) (hs : MdnsSane s.msl) :
    MdnsSane (execMsl n s c).2.2.msl := by
  unfold execMsl
  split
  all_goals try unfold svcCmd
  all_goals try dsimp only
  all_goals repeat' split
  all_goals first
    | exact hs
    | exact ⟨hs.srv, hs.cli, hs.timeout⟩
    | exact ⟨bindHalf_port hc hs.srv, hs.cli, hs.timeout⟩
    | exact ⟨hs.srv, bindHalf_port hc hs.cli, hs.timeout⟩
    | exact ⟨bindHalf_port hc hs.srv, bindHalf_port hc hs.cli, hs.timeout⟩
    | exact ⟨hs.srv, hs.cli, hc⟩

theorem exec_sane (file : Bool) (n : Node) (s : St) {c : Cmd} (hc : MslCmdOk c) (hs : MdnsSane s.msl) :
    MdnsSane (exec file n s c).2.2.msl := by
  cases c with
  | profile c =>
    unfold exec
    dsimp only
    split
    · exact hs
    · unfold createPdp
      split
      · rename_i h
        obtain ⟨j, _, hj⟩ := Option.map_eq_some_iff.1 h
        cases hj
        exact hs
      · exact hs
  | noProfile c =>
    unfold exec destroyPdp
    dsimp only
    split <;> exact hs
  | _ =>
    unfold exec
    try dsimp only
    repeat' split
    all_goals first
      | exact hs
      | exact execMsl_sane n s hc hs

/-- **C52.** Whatever commands were given, mDNS is configured for a UDP port from 1 to 65535, and lookups
for a timeout from 1 to 100000 milliseconds, as the commands announce; a command that says otherwise
changes nothing. -/
theorem c52_sane (e : Env) (h : List Input) : MdnsSane (config e h).msl := by
  unfold config
  have h0 : MdnsSane ({} : St).msl := ⟨by unfold Port; decide +kernel, by unfold Port; decide +kernel, by decide +kernel⟩
  generalize ({} : St) = s at h0 ⊢
  induction h generalizing s with
  | nil => exact h0
  | cons x h ih =>
    refine ih _ ?_
    unfold after
    split
    · exact h0
    · rename_i c hc
      exact exec_sane _ _ _ (parse_msl hc) h0

/-- **C52.** `mdns bind IP PORT` with any port from 1 to 65535, in the node `mslookup`: the server and the
client are configured for this address and port, and enabled; nothing else of mslookup changes. -/
theorem c52_bind (e : Env) (h : List Input) (file : Bool) (ip : Bytes) (v6 : Bool) (i p : Nat) (hp : Port p)
    (ha : e.ipParse ip = some (v6, i)) (hi : i ≠ 0) :
    (config e (h ++ [⟨.mslookup, file, [b "mdns", b "bind", ip, dec p]⟩])).msl =
      { (config e h).msl with
        srv := { (config e h).msl.srv with enable := true, mdns := true, addr := { v6 := v6, ip := i, port := p } }
        cli := { (config e h).msl.cli with enable := true, mdns := true, addr := { v6 := v6, ip := i, port := p } } } := by
  have hz : ({ v6 := v6, ip := i, port := p } : Addr).nonzero = true := by
    have : p ≠ 0 := by have := hp.1; omega
    simp [Addr.nonzero, hi, this]
  have k1 : Kw.of (b "mdns") = some .mdns := by decide +kernel
  have k2 : Kw.of (b "bind") = some .bind := by decide +kernel
  have hpar : parse e .mslookup [b "mdns", b "bind", ip, dec p] =
      some (.msMdns { ip := some (some (v6, i)), port := some p }) := by
    simp only [parse, parseMsl, k1, k2, bindArgs, rangeVal_dec hp.1 hp.2 (by have := hp.2; omega), ha, Option.map_some]
  unfold config
  rw [List.foldl_append, List.foldl_cons, List.foldl_nil]
  generalize h.foldl (after e) {} = s
  unfold after
  rw [hpar]
  simp only [exec, execMsl, bindHalf, MdnsConfig.BindArgs.addr, Option.getD_some, hz, if_true]

/-- **C52.** `timeout T` with any number from 1 to 100000 sets the timeout of lookups. -/
theorem c52_timeout (e : Env) (h : List Input) (file : Bool) (t : Nat) (ht : 1 ≤ t ∧ t ≤ 100000) :
    (config e (h ++ [⟨.client, file, [b "timeout", dec t]⟩])).msl = { (config e h).msl with timeout := t } := by
  have k1 : Kw.of (b "timeout") = some .timeout := by decide +kernel
  have hpar : parse e .client [b "timeout", dec t] = some (.timeout t) := by
    simp only [parse, parseMsl, k1, rangeVal_dec ht.1 ht.2 (by have := ht.2; omega), Option.map_some]
  unfold config
  rw [List.foldl_append, List.foldl_cons, List.foldl_nil]
  generalize h.foldl (after e) {} = s
  unfold after
  rw [hpar]
  simp only [exec, execMsl]

example : Port 65535 ∧ e0.ipParse (b "127.0.0.1") = some (false, 2130706433) ∧
    (config e0 [typed .mslookup ["mdns", "bind", "127.0.0.1", "5000"], typed .mslookup ["mdns", "bind", "127.0.0.1", "65536"],
      typed .client ["timeout", "0"]]).msl.srv.addr.port = 5000 := by unfold Port; decide +kernel

end Verif.Config
