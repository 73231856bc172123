import Verif.Mslookup.Base
/-!
# Starting and stopping mDNS: `mslookup_server_mdns_config_apply`, `dgsm_mdns_client_config_apply`
and the configuration commands that call them
-/
namespace Verif.Mslookup.MdnsConfig
open Verif Verif.Sys Verif.Mslookup

/-- The settings (`g_hlr->mslookup`, include/osmocom/hlr/hlr.h 92-131): `server.mdns` and
`client.mdns` are alike. -/
structure Half where
  enable : Bool := false
  mdns : Bool := false
  addr : Addr
  suffix : Bytes
deriving DecidableEq, Repr

/-- The state. -/
structure State where
  /-- `allow_startup` -/
  allow : Bool := false
  srv : Half
  cli : Half
  /-- `server.mdns.running`: its address and its own copy of the suffix -/
  srvRun : Option (Addr × Bytes) := none
  /-- numbers the strings that `client.mdns.domain_suffix` points to, in the order of their
  allocation -/
  cliString : Nat := 0
  /-- `client.mdns.running`: its address, the number of the string its `domain_suffix` points to,
  which is not a copy (mslookup_client_mdns.c 198), and what that string was -/
  cliRun : Option (Addr × Nat × Bytes) := none
  /-- memory was used after it was freed -/
  ub : Bool := false
deriving DecidableEq, Repr

def Half.on (h : Half) : Bool := h.enable && h.mdns

/-- The first part of mslookup_server_mdns_config_apply (mslookup_server_mdns.c 130-143). -/
def stopServer (s : State) : State :=
  match s.srvRun with
  | none => s
  | some (a, t) => if !(s.allow && s.srv.on) ∨ a ≠ s.srv.addr ∨ t ≠ s.srv.suffix then { s with srvRun := none } else s

/-- mslookup_server_mdns_config_apply (mslookup_server_mdns.c 124-161); `ok` says whether the
socket can be opened. -/
def applyServer (ok : Bool) (s : State) : State :=
  let s := stopServer s
  if (s.allow && s.srv.on) = true ∧ s.srvRun = none ∧ ok = true then { s with srvRun := some (s.srv.addr, s.srv.suffix) } else s

/-- The first part of dgsm_mdns_client_config_apply (dgsm.c 204-223).  Whether the suffix differs
cannot be told if the string has been freed. -/
def stopClient (s : State) : State :=
  match s.cliRun with
  | none => s
  | some (a, n, t) =>
    if !(s.allow && s.cli.on) ∨ a ≠ s.cli.addr then { s with cliRun := none }
    else if n ≠ s.cliString then { s with ub := true }
    else if t ≠ s.cli.suffix then { s with cliRun := none } else s

/-- dgsm_mdns_client_config_apply (dgsm.c 201-248). -/
def applyClient (ok : Bool) (s : State) : State :=
  let s := stopClient s
  if (s.allow && s.cli.on) = true ∧ s.cliRun = none ∧ ok = true then
    { s with cliRun := some (s.cli.addr, s.cliString, s.cli.suffix) }
  else s

/-- The arguments of `mdns bind [IP] [PORT]`: an IP address that cannot be parsed is `some none`. -/
structure BindArgs where
  ip : Option (Option (Bool × Nat)) := none
  port : Option Nat := none
deriving DecidableEq, Repr

/-- The address meant, given the current one (dgsm_vty.c 46-55, 66-75). -/
def BindArgs.addr (b : BindArgs) (cur : Addr) : Option Addr :=
  let port := b.port.getD cur.port
  let a : Option Addr := match b.ip with
    | none => some { cur with port := port }
    | some none => none
    | some (some (v6, ip)) => some { v6 := v6, ip := ip, port := port }
  match a with
  | none => none
  | some a => if a.nonzero then some a else none

/-- Commands (dgsm_vty.c), and dgsm_start() and dgsm_stop(). -/
inductive Cmd where
  | start
  | stop
  /-- `mdns bind [IP] [PORT]`, `mdns domain-suffix S`, `no mdns bind` in the node `mslookup` -/
  | bind (a : BindArgs)
  | suffix (t : Bytes)
  | noBind
  /-- `server`, `no server` -/
  | server
  | noServer
  /-- the same as above in the node `server` -/
  | serverBind (a : BindArgs)
  | serverSuffix (t : Bytes)
  | serverNoBind
  /-- `client`, `no client` -/
  | client
  | noClient
  /-- the same as above in the node `client` -/
  | clientBind (a : BindArgs)
  | clientSuffix (t : Bytes)
  | clientNoBind
deriving DecidableEq, Repr

/-- mslookup_server_mdns_bind (dgsm_vty.c 44-62). -/
def srvBind (ok : Bool) (a : BindArgs) (s : State) : State :=
  match a.addr s.srv.addr with
  | none => s
  | some a => applyServer ok { s with srv := { s.srv with addr := a, mdns := true, enable := true } }

/-- mslookup_client_mdns_to (dgsm_vty.c 64-82). -/
def cliBind (ok : Bool) (a : BindArgs) (s : State) : State :=
  match a.addr s.cli.addr with
  | none => s
  | some a => applyClient ok { s with cli := { s.cli with addr := a, mdns := true, enable := true } }

/-- osmo_talloc_replace_string() of the client's suffix frees the old string. -/
def setCliSuffix (t : Bytes) (s : State) : State :=
  { s with cli := { s.cli with suffix := t }, cliString := s.cliString + 1 }

def setSrvSuffix (t : Bytes) (s : State) : State := { s with srv := { s.srv with suffix := t } }

/-- The commands (dgsm_vty.c 93-188, 331-350, 370-398; dgsm.c 184-199); `ok1` and `ok2` say whether
the server's and the client's socket can be opened. -/
def step (s : State) : Cmd × Bool × Bool → State
  | (.start, ok1, ok2) => applyClient ok2 (applyServer ok1 { s with allow := true })
  | (.stop, ok1, ok2) => applyClient ok2 (applyServer ok1 { s with allow := false })
  | (.bind a, ok1, ok2) => cliBind ok2 a (srvBind ok1 a s)
  | (.suffix t, ok1, ok2) => applyClient ok2 (applyServer ok1 (setCliSuffix t (setSrvSuffix t s)))
  | (.noBind, ok1, ok2) =>
    applyClient ok2 (applyServer ok1 { s with srv := { s.srv with mdns := false }, cli := { s.cli with mdns := false } })
  | (.server, ok1, _) => applyServer ok1 { s with srv := { s.srv with enable := true } }
  | (.noServer, ok1, _) => applyServer ok1 { s with srv := { s.srv with enable := false } }
  | (.serverBind a, ok1, _) => srvBind ok1 a s
  | (.serverSuffix t, ok1, _) => applyServer ok1 (setSrvSuffix t s)
  | (.serverNoBind, ok1, _) => applyServer ok1 { s with srv := { s.srv with mdns := false } }
  | (.client, _, ok2) => applyClient ok2 { s with cli := { s.cli with enable := true } }
  | (.noClient, _, ok2) => applyClient ok2 { s with cli := { s.cli with enable := false } }
  | (.clientBind a, _, ok2) => cliBind ok2 a s
  | (.clientSuffix t, _, ok2) => applyClient ok2 (setCliSuffix t s)
  | (.clientNoBind, _, ok2) => applyClient ok2 { s with cli := { s.cli with mdns := false } }

/-- 239.192.23.42 port 4266 (mslookup_client_mdns.h; dgsm.c 178-181) and the default suffix
(hlr.c 779-780). -/
def init : State :=
  { srv := { addr := { ip := 4022343466, port := 4266 }, suffix := b "mdns.osmocom.org" }
    cli := { addr := { ip := 4022343466, port := 4266 }, suffix := b "mdns.osmocom.org" } }

def run (cs : List (Cmd × Bool × Bool)) : State := cs.foldl step init

/-! ## Specification -/

namespace Spec

/-- What the operator asked for: is the program up, and for the server and the client each the
settings made. -/
structure Wish where
  up : Bool := false
  srv : Half
  cli : Half
deriving DecidableEq, Repr

/-- `bind [IP] [PORT]`: what is not given stays as it is; an address that is no address, or
is not set, is refused. -/
def bindTo (a : BindArgs) (h : Half) : Half :=
  let on (x : Addr) : Half := if x.nonzero then { h with addr := x, mdns := true, enable := true } else h
  match a.ip, a.port with
  | none, none => on h.addr
  | none, some p => on ⟨h.addr.v6, h.addr.ip, p⟩
  | some none, _ => h
  | some (some (v6, ip)), none => on ⟨v6, ip, h.addr.port⟩
  | some (some (v6, ip)), some p => on ⟨v6, ip, p⟩

theorem bindTo_eq (a : BindArgs) (h : Half) : bindTo a h = match a.addr h.addr with
    | none => h
    | some a => { h with addr := a, mdns := true, enable := true } := by
  obtain ⟨i, p⟩ := a
  unfold bindTo BindArgs.addr
  rcases i with _ | _ | ⟨v6, ip⟩ <;> cases p <;> dsimp only [Option.getD] <;> (try split) <;> rfl

/-- A command changes the settings it names. -/
def wish (w : Wish) : Cmd → Wish
  | .start => { w with up := true }
  | .stop => { w with up := false }
  | .bind a => { w with srv := bindTo a w.srv, cli := bindTo a w.cli }
  | .suffix t => { w with srv := { w.srv with suffix := t }, cli := { w.cli with suffix := t } }
  | .noBind => { w with srv := { w.srv with mdns := false }, cli := { w.cli with mdns := false } }
  | .server => { w with srv := { w.srv with enable := true } }
  | .noServer => { w with srv := { w.srv with enable := false } }
  | .serverBind a => { w with srv := bindTo a w.srv }
  | .serverSuffix t => { w with srv := { w.srv with suffix := t } }
  | .serverNoBind => { w with srv := { w.srv with mdns := false } }
  | .client => { w with cli := { w.cli with enable := true } }
  | .noClient => { w with cli := { w.cli with enable := false } }
  | .clientBind a => { w with cli := bindTo a w.cli }
  | .clientSuffix t => { w with cli := { w.cli with suffix := t } }
  | .clientNoBind => { w with cli := { w.cli with mdns := false } }

def wishes (cs : List Cmd) : Wish := cs.foldl wish { srv := init.srv, cli := init.cli }

/-- Where a server or client that should run is to be found. -/
def target (up : Bool) (h : Half) : Option (Addr × Bytes) := if up && h.enable && h.mdns then some (h.addr, h.suffix) else none

/-- The command replaces the client's suffix. -/
def SetsSuffix : Cmd → Prop
  | .suffix _ | .clientSuffix _ => True
  | _ => False

/-- The client's suffix is only changed while the client is not meant to run, as in a
configuration file. -/
def Quiet (cs : List Cmd) : Prop :=
  ∀ pre c post, cs = pre ++ c :: post → SetsSuffix c → target (wishes pre).up (wishes pre).cli = none

end Spec

/-! ## C52 -/

/-- The state follows the wishes. -/
structure Inv (s : State) (w : Spec.Wish) : Prop where
  up : s.allow = w.up
  srv : s.srv = w.srv
  cli : s.cli = w.cli

theorem stopServer_fields (s : State) :
    (stopServer s).allow = s.allow ∧ (stopServer s).srv = s.srv ∧ (stopServer s).cli = s.cli
      ∧ (stopServer s).cliRun = s.cliRun ∧ (stopServer s).cliString = s.cliString ∧ (stopServer s).ub = s.ub := by
  unfold stopServer
  repeat' split
  all_goals exact ⟨rfl, rfl, rfl, rfl, rfl, rfl⟩

theorem applyServer_fields (ok : Bool) (s : State) :
    (applyServer ok s).allow = s.allow ∧ (applyServer ok s).srv = s.srv ∧ (applyServer ok s).cli = s.cli
      ∧ (applyServer ok s).cliRun = s.cliRun ∧ (applyServer ok s).cliString = s.cliString ∧ (applyServer ok s).ub = s.ub := by
  have := stopServer_fields s
  unfold applyServer
  dsimp only
  split <;> exact this

theorem stopClient_fields (s : State) :
    (stopClient s).allow = s.allow ∧ (stopClient s).srv = s.srv ∧ (stopClient s).cli = s.cli
      ∧ (stopClient s).srvRun = s.srvRun ∧ (stopClient s).cliString = s.cliString := by
  unfold stopClient
  repeat' split
  all_goals exact ⟨rfl, rfl, rfl, rfl, rfl⟩

theorem applyClient_fields (ok : Bool) (s : State) :
    (applyClient ok s).allow = s.allow ∧ (applyClient ok s).srv = s.srv ∧ (applyClient ok s).cli = s.cli
      ∧ (applyClient ok s).srvRun = s.srvRun ∧ (applyClient ok s).cliString = s.cliString := by
  have := stopClient_fields s
  unfold applyClient
  dsimp only
  split <;> exact this

theorem target_on {up : Bool} {h : Half} (e : (up && h.on) = true) : Spec.target up h = some (h.addr, h.suffix) := by
  unfold Half.on at e
  rw [← Bool.and_assoc] at e
  unfold Spec.target
  rw [e]
  rfl

theorem target_off {up : Bool} {h : Half} (e : (up && h.on) = false) : Spec.target up h = none := by
  unfold Half.on at e
  rw [← Bool.and_assoc] at e
  unfold Spec.target
  rw [e]
  rfl

/-- After applying, the server runs as wished, or not at all if its socket failed. -/
theorem applyServer_run (ok : Bool) (s : State) :
    (applyServer ok s).srvRun = Spec.target s.allow s.srv ∨ ok = false ∧ (applyServer ok s).srvRun = none := by
  obtain ⟨f1, f2, -⟩ := stopServer_fields s
  have h : (stopServer s).srvRun = none
      ∨ (s.allow && s.srv.on) = true ∧ (stopServer s).srvRun = some (s.srv.addr, s.srv.suffix) := by
    unfold stopServer
    split
    · exact .inl (by assumption)
    · rename_i a t hr
      split
      · exact .inl rfl
      · rename_i hc
        simp only [not_or, Bool.not_eq_true', Bool.not_eq_false, ne_eq, Classical.not_not] at hc
        exact .inr ⟨hc.1, by rw [hr, hc.2.1, hc.2.2]⟩
  unfold applyServer
  dsimp only
  rw [f1, f2]
  cases hon : (s.allow && s.srv.on) with
  | false =>
    rw [target_off hon, if_neg (by simp)]
    rcases h with h | ⟨h, -⟩
    · exact .inl h
    · rw [hon] at h; cases h
  | true =>
    rw [target_on hon]
    split
    · exact .inl rfl
    · rename_i hc
      rcases h with h | ⟨-, h⟩
      · cases ok with
        | false => exact .inr ⟨rfl, h⟩
        | true => exact absurd ⟨rfl, h, rfl⟩ hc
      · exact .inl h

/-- What the client runs with: address and text of the suffix. -/
def cliView (s : State) : Option (Addr × Bytes) := s.cliRun.map (fun x => (x.1, x.2.2))

/-- The suffix in use is the configured string. -/
def Fresh (s : State) : Prop := ∀ a n t, s.cliRun = some (a, n, t) → n = s.cliString

theorem applyClient_run (ok : Bool) (s : State) (hf : Fresh s) :
    (cliView (applyClient ok s) = Spec.target s.allow s.cli ∨ ok = false ∧ (applyClient ok s).cliRun = none)
      ∧ Fresh (applyClient ok s) ∧ (applyClient ok s).ub = s.ub := by
  obtain ⟨f1, -, f3, -, f5⟩ := stopClient_fields s
  have h : ((stopClient s).cliRun = none
      ∨ (s.allow && s.cli.on) = true ∧ (stopClient s).cliRun = some (s.cli.addr, s.cliString, s.cli.suffix)) ∧ (stopClient s).ub = s.ub := by
    unfold stopClient
    split
    · exact ⟨.inl (by assumption), rfl⟩
    · rename_i a n t hr
      have hn := hf a n t hr
      split
      · exact ⟨.inl rfl, rfl⟩
      · rename_i hc
        simp only [not_or, Bool.not_eq_true', Bool.not_eq_false, ne_eq, Classical.not_not] at hc
        rw [if_neg (by rw [hn]; simp)]
        split
        · exact ⟨.inl rfl, rfl⟩
        · rename_i ht
          have ht : t = s.cli.suffix := Classical.not_not.1 ht
          exact ⟨.inr ⟨hc.1, by rw [hr, hc.2, hn, ht]⟩, rfl⟩
  obtain ⟨h, hub⟩ := h
  unfold applyClient
  dsimp only
  rw [f1, f3]
  cases hon : (s.allow && s.cli.on) with
  | false =>
    rw [target_off hon, if_neg (by simp)]
    rcases h with h | ⟨h, -⟩
    · exact ⟨.inl (by unfold cliView; rw [h]; rfl), fun a n t e => (by rw [h] at e; cases e), hub⟩
    · rw [hon] at h; cases h
  | true =>
    rw [target_on hon]
    split
    · exact ⟨.inl rfl, fun a n t e => (by cases e; rfl), hub⟩
    · rename_i hc
      rcases h with h | ⟨-, h⟩
      · refine ⟨?_, fun a n t e => (by rw [h] at e; cases e), hub⟩
        cases ok with
        | false => exact .inr ⟨rfl, h⟩
        | true => exact absurd ⟨rfl, h, rfl⟩ hc
      · exact ⟨.inl (by unfold cliView; rw [h]; rfl), fun a n t e => (by rw [h] at e; cases e; exact f5.symm), hub⟩

theorem srvBind_spec (ok : Bool) (a : BindArgs) (s : State) :
    (srvBind ok a s).allow = s.allow ∧ (srvBind ok a s).srv = Spec.bindTo a s.srv ∧ (srvBind ok a s).cli = s.cli
      ∧ (srvBind ok a s).cliRun = s.cliRun ∧ (srvBind ok a s).cliString = s.cliString ∧ (srvBind ok a s).ub = s.ub := by
  rw [Spec.bindTo_eq]
  unfold srvBind
  cases a.addr s.srv.addr with
  | none => exact ⟨rfl, rfl, rfl, rfl, rfl, rfl⟩
  | some x => exact applyServer_fields ok { s with srv := { s.srv with addr := x, mdns := true, enable := true } }

theorem cliBind_spec (ok : Bool) (a : BindArgs) (s : State) :
    (cliBind ok a s).allow = s.allow ∧ (cliBind ok a s).srv = s.srv ∧ (cliBind ok a s).cli = Spec.bindTo a s.cli
      ∧ (cliBind ok a s).srvRun = s.srvRun := by
  rw [Spec.bindTo_eq]
  unfold cliBind
  cases a.addr s.cli.addr with
  | none => exact ⟨rfl, rfl, rfl, rfl⟩
  | some x =>
    have h := applyClient_fields ok { s with cli := { s.cli with addr := x, mdns := true, enable := true } }
    exact ⟨h.1, h.2.1, h.2.2.1, h.2.2.2.1⟩

/-- Every command makes the settings it names. -/
theorem step_inv {s : State} {w : Spec.Wish} (h : Inv s w) (c : Cmd) (o1 o2 : Bool) : Inv (step s (c, o1, o2)) (Spec.wish w c) := by
  have key : ∀ t : State, ∀ v : Spec.Wish, Inv t v → Inv (applyClient o2 t) v := fun t v i => by
    obtain ⟨a, b, c, -⟩ := applyClient_fields o2 t
    exact ⟨a.trans i.up, b.trans i.srv, c.trans i.cli⟩
  have key2 : ∀ t : State, ∀ v : Spec.Wish, Inv t v → Inv (applyServer o1 t) v := fun t v i => by
    obtain ⟨a, b, c, -⟩ := applyServer_fields o1 t
    exact ⟨a.trans i.up, b.trans i.srv, c.trans i.cli⟩
  have key3 : ∀ a : BindArgs, ∀ t : State, ∀ v : Spec.Wish, Inv t v → Inv (srvBind o1 a t) { v with srv := Spec.bindTo a v.srv } :=
    fun a t v i => by
      obtain ⟨x, y, z, -⟩ := srvBind_spec o1 a t
      exact ⟨x.trans i.up, y.trans (by rw [i.srv]), z.trans i.cli⟩
  have key4 : ∀ a : BindArgs, ∀ t : State, ∀ v : Spec.Wish, Inv t v → Inv (cliBind o2 a t) { v with cli := Spec.bindTo a v.cli } :=
    fun a t v i => by
      obtain ⟨x, y, z, -⟩ := cliBind_spec o2 a t
      exact ⟨x.trans i.up, y.trans i.srv, z.trans (by rw [i.cli])⟩
  obtain ⟨h1, h2, h3⟩ := h
  cases c with
  | start => exact key _ _ (key2 _ _ ⟨rfl, h2, h3⟩)
  | stop => exact key _ _ (key2 _ _ ⟨rfl, h2, h3⟩)
  | bind a => exact key4 a _ _ (key3 a _ _ ⟨h1, h2, h3⟩)
  | suffix t => exact key _ _ (key2 _ _ ⟨h1, by simp only [setCliSuffix, setSrvSuffix, Spec.wish, h2], by simp only [setCliSuffix, setSrvSuffix, Spec.wish, h3]⟩)
  | noBind => exact key _ _ (key2 _ _ ⟨h1, by simp only [Spec.wish, h2], by simp only [Spec.wish, h3]⟩)
  | server => exact key2 _ _ ⟨h1, by simp only [Spec.wish, h2], h3⟩
  | noServer => exact key2 _ _ ⟨h1, by simp only [Spec.wish, h2], h3⟩
  | serverBind a => exact key3 a _ _ ⟨h1, h2, h3⟩
  | serverSuffix t => exact key2 _ _ ⟨h1, by simp only [setSrvSuffix, Spec.wish, h2], h3⟩
  | serverNoBind => exact key2 _ _ ⟨h1, by simp only [Spec.wish, h2], h3⟩
  | client => exact key _ _ ⟨h1, h2, by simp only [Spec.wish, h3]⟩
  | noClient => exact key _ _ ⟨h1, h2, by simp only [Spec.wish, h3]⟩
  | clientBind a => exact key4 a _ _ ⟨h1, h2, h3⟩
  | clientSuffix t => exact key _ _ ⟨h1, h2, by simp only [setCliSuffix, Spec.wish, h3]⟩
  | clientNoBind => exact key _ _ ⟨h1, h2, by simp only [Spec.wish, h3]⟩

/-- The server runs as the settings say, or not at all if a socket failed. -/
def SrvOk (bad : Prop) (s : State) : Prop := s.srvRun = Spec.target s.allow s.srv ∨ bad ∧ s.srvRun = none

theorem applyServer_ok {bad : Prop} {ok : Bool} (hb : ok = false → bad) (s : State) : SrvOk bad (applyServer ok s) := by
  obtain ⟨a, b, -⟩ := applyServer_fields ok s
  unfold SrvOk
  rw [a, b]
  rcases applyServer_run ok s with h | ⟨h1, h2⟩
  · exact .inl h
  · exact .inr ⟨hb h1, h2⟩

theorem srvBind_ok {bad : Prop} {ok : Bool} (hb : ok = false → bad) (a : BindArgs) {s : State} (h : SrvOk bad s) :
    SrvOk bad (srvBind ok a s) := by
  unfold srvBind
  cases a.addr s.srv.addr with
  | none => exact h
  | some x => exact applyServer_ok hb _

theorem applyClient_srvOk {bad : Prop} (ok : Bool) {s : State} (h : SrvOk bad s) : SrvOk bad (applyClient ok s) := by
  obtain ⟨a, b, -, d, -⟩ := applyClient_fields ok s
  unfold SrvOk
  rw [a, b, d]
  exact h

theorem cliBind_srvOk {bad : Prop} (ok : Bool) (a : BindArgs) {s : State} (h : SrvOk bad s) : SrvOk bad (cliBind ok a s) := by
  obtain ⟨x, y, -, z⟩ := cliBind_spec ok a s
  unfold SrvOk
  rw [x, y, z]
  exact h

theorem step_srvOk {bad : Prop} {s : State} (h : SrvOk bad s) (c : Cmd) (o1 o2 : Bool) (hb : o1 = false → bad) :
    SrvOk bad (step s (c, o1, o2)) := by
  cases c with
  | start => exact applyClient_srvOk _ (applyServer_ok hb _)
  | stop => exact applyClient_srvOk _ (applyServer_ok hb _)
  | bind a => exact cliBind_srvOk _ _ (srvBind_ok hb _ h)
  | suffix t => exact applyClient_srvOk _ (applyServer_ok hb _)
  | noBind => exact applyClient_srvOk _ (applyServer_ok hb _)
  | server => exact applyServer_ok hb _
  | noServer => exact applyServer_ok hb _
  | serverBind a => exact srvBind_ok hb _ h
  | serverSuffix t => exact applyServer_ok hb _
  | serverNoBind => exact applyServer_ok hb _
  | client => exact applyClient_srvOk _ h
  | noClient => exact applyClient_srvOk _ h
  | clientBind a => exact cliBind_srvOk _ _ h
  | clientSuffix t => exact applyClient_srvOk _ h
  | clientNoBind => exact applyClient_srvOk _ h

/-- The client runs as the settings say, or not at all if a socket failed, and its suffix is the
configured string. -/
structure CliOk (bad : Prop) (s : State) : Prop where
  run : cliView s = Spec.target s.allow s.cli ∨ bad ∧ s.cliRun = none
  fresh : Fresh s
  safe : s.ub = false

theorem applyClient_ok {bad : Prop} {ok : Bool} (hb : ok = false → bad) {s : State} (hf : Fresh s) (hu : s.ub = false) :
    CliOk bad (applyClient ok s) := by
  obtain ⟨a, -, c, -⟩ := applyClient_fields ok s
  obtain ⟨h1, h2, h3⟩ := applyClient_run ok s hf
  refine ⟨?_, h2, h3.trans hu⟩
  rw [a, c]
  rcases h1 with h | ⟨h, h'⟩
  · exact .inl h
  · exact .inr ⟨hb h, h'⟩

theorem cliBind_ok {bad : Prop} {ok : Bool} (hb : ok = false → bad) (a : BindArgs) {s : State} (h : CliOk bad s) :
    CliOk bad (cliBind ok a s) := by
  unfold cliBind
  cases a.addr s.cli.addr with
  | none => exact h
  | some x => exact applyClient_ok hb h.fresh h.safe

theorem Fresh.congr {s t : State} (h : Fresh s) (e1 : t.cliRun = s.cliRun) (e2 : t.cliString = s.cliString) : Fresh t :=
  fun a n x e => by rw [e2]; exact h a n x (e1 ▸ e)

theorem applyServer_cliOk {bad : Prop} (ok : Bool) {s : State} (h : CliOk bad s) : CliOk bad (applyServer ok s) := by
  obtain ⟨a, -, c, d, e, f⟩ := applyServer_fields ok s
  refine ⟨?_, h.fresh.congr d e, f.trans h.safe⟩
  unfold cliView
  rw [a, c, d]
  exact h.run

theorem srvBind_cliOk {bad : Prop} (ok : Bool) (a : BindArgs) {s : State} (h : CliOk bad s) : CliOk bad (srvBind ok a s) := by
  unfold srvBind
  cases a.addr s.srv.addr with
  | none => exact h
  | some x => exact applyServer_cliOk (s := { s with srv := { s.srv with addr := x, mdns := true, enable := true } }) ok ⟨h.run, h.fresh, h.safe⟩

theorem step_cliOk {bad : Prop} {s : State} (h : CliOk bad s) (c : Cmd) (o1 o2 : Bool) (hb : o2 = false → bad)
    (hq : Spec.SetsSuffix c → Spec.target s.allow s.cli = none) : CliOk bad (step s (c, o1, o2)) := by
  have off : Spec.target s.allow s.cli = none → s.cliRun = none := fun e => by
    rcases h.run with r | ⟨-, r⟩
    · rw [e] at r
      exact Option.map_eq_none_iff.1 r
    · exact r
  -- a server setting, then the server, then the client
  have both : ∀ t : State, t.cliRun = s.cliRun → t.cliString = s.cliString → t.ub = s.ub →
      CliOk bad (applyClient o2 (applyServer o1 t)) := fun t e1 e2 e3 => by
    obtain ⟨-, -, -, d, e, f⟩ := applyServer_fields o1 t
    exact applyClient_ok hb (h.fresh.congr (d.trans e1) (e.trans e2)) (f.trans (e3.trans h.safe))
  cases c with
  | start => exact both _ rfl rfl rfl
  | stop => exact both _ rfl rfl rfl
  | bind a => exact cliBind_ok hb _ (srvBind_cliOk _ _ h)
  | suffix t =>
    obtain ⟨-, -, -, d, -, f⟩ := applyServer_fields o1 (setCliSuffix t (setSrvSuffix t s))
    have hn : (applyServer o1 (setCliSuffix t (setSrvSuffix t s))).cliRun = none := d.trans (off (hq trivial))
    exact applyClient_ok hb (fun a n x e => (by rw [hn] at e; cases e)) (f.trans h.safe)
  | noBind => exact both _ rfl rfl rfl
  | server => exact applyServer_cliOk (s := { s with srv := { s.srv with enable := true } }) o1 ⟨h.run, h.fresh, h.safe⟩
  | noServer => exact applyServer_cliOk (s := { s with srv := { s.srv with enable := false } }) o1 ⟨h.run, h.fresh, h.safe⟩
  | serverBind a => exact srvBind_cliOk _ _ h
  | serverSuffix t => exact applyServer_cliOk (s := setSrvSuffix t s) o1 ⟨h.run, h.fresh, h.safe⟩
  | serverNoBind => exact applyServer_cliOk (s := { s with srv := { s.srv with mdns := false } }) o1 ⟨h.run, h.fresh, h.safe⟩
  | client => exact applyClient_ok (s := { s with cli := { s.cli with enable := true } }) hb h.fresh h.safe
  | noClient => exact applyClient_ok (s := { s with cli := { s.cli with enable := false } }) hb h.fresh h.safe
  | clientBind a => exact cliBind_ok hb _ h
  | clientSuffix t =>
    exact applyClient_ok (s := setCliSuffix t s) hb (fun a n x e => (by rw [show (setCliSuffix t s).cliRun = s.cliRun from rfl, off (hq trivial)] at e; cases e)) h.safe
  | clientNoBind => exact applyClient_ok (s := { s with cli := { s.cli with mdns := false } }) hb h.fresh h.safe

theorem init_inv : Inv init { srv := init.srv, cli := init.cli } := ⟨rfl, rfl, rfl⟩

theorem run_inv (cs : List (Cmd × Bool × Bool)) : Inv (run cs) (Spec.wishes (cs.map (·.1))) := by
  unfold run Spec.wishes
  rw [List.foldl_map]
  have : ∀ (l : List (Cmd × Bool × Bool)) s w, Inv s w → Inv (l.foldl step s) (l.foldl (fun w c => Spec.wish w c.1) w) := by
    intro l
    induction l with
    | nil => exact fun s w h => h
    | cons x l ih => exact fun s w h => ih _ _ (step_inv h x.1 x.2.1 x.2.2)
  exact this cs _ _ init_inv

end Verif.Mslookup.MdnsConfig

namespace Verif.Mslookup.Props
open Verif Verif.Sys Verif.Mslookup Verif.Mslookup.MdnsConfig

/-- C52, server: after any sequence of commands the mDNS server runs if and only if the program has
started and server and mDNS are switched on, and then at the address and with the suffix that were
set last; it can only be absent wrongly if a socket could not be opened. -/
theorem c52_server (cs : List (Cmd × Bool × Bool)) :
    let w := Spec.wishes (cs.map (·.1))
    (run cs).srvRun = Spec.target w.up w.srv ∨ (∃ x ∈ cs, x.2.1 = false) ∧ (run cs).srvRun = none := by
  have hi := run_inv cs
  have : ∀ (l : List (Cmd × Bool × Bool)) s, (∀ x ∈ l, x ∈ cs) → SrvOk (∃ x ∈ cs, x.2.1 = false) s →
      SrvOk (∃ x ∈ cs, x.2.1 = false) (l.foldl step s) := by
    intro l
    induction l with
    | nil => exact fun s _ h => h
    | cons x l ih =>
      exact fun s hm h => ih _ (fun y hy => hm y (.tail _ hy))
        (step_srvOk h x.1 x.2.1 x.2.2 (fun e => ⟨x, hm x (.head _), e⟩))
  have h := this cs init (fun _ h => h) (.inl rfl)
  dsimp only
  rw [← hi.up, ← hi.srv]
  exact h

/-- C52, client: the same, when the suffix is changed only while the client is not meant to run.
Missing: changing it at run time (`c52_suffix_violated`). -/
theorem c52_client_partial (cs : List (Cmd × Bool × Bool)) (hq : Spec.Quiet (cs.map (·.1))) :
    let w := Spec.wishes (cs.map (·.1))
    (run cs).ub = false
      ∧ (cliView (run cs) = Spec.target w.up w.cli ∨ (∃ x ∈ cs, x.2.2 = false) ∧ cliView (run cs) = none) := by
  have hi := run_inv cs
  have : ∀ (l pre : List (Cmd × Bool × Bool)), cs = pre ++ l → CliOk (∃ x ∈ cs, x.2.2 = false) (run pre) →
      CliOk (∃ x ∈ cs, x.2.2 = false) (run cs) := by
    intro l
    induction l with
    | nil => exact fun pre e h => (by rw [e, List.append_nil]; rw [e, List.append_nil] at h; exact h)
    | cons x l ih =>
      intro pre e h
      refine ih (pre ++ [x]) (by rw [e, List.append_assoc]; rfl) ?_
      unfold run
      rw [List.foldl_append]
      refine step_cliOk h x.1 x.2.1 x.2.2 (fun f => ⟨x, by rw [e]; simp, f⟩) (fun f => ?_)
      have hp := run_inv pre
      rw [hp.up, hp.cli]
      exact hq (pre.map (·.1)) x.1 (l.map (·.1)) (by rw [e, List.map_append]; rfl) f
  have h := this cs [] rfl ⟨.inl rfl, fun _ _ _ e => (by cases e), rfl⟩
  dsimp only
  rw [← hi.up, ← hi.cli]
  refine ⟨h.safe, ?_⟩
  rcases h.run with r | ⟨r, r'⟩
  · exact .inl r
  · exact .inr ⟨r, by unfold cliView; rw [r']; rfl⟩

/-- A configuration file, the start, and commands given later. -/
def exMdnsCmds : List (Cmd × Bool × Bool) :=
  [(.suffix (b "mdns.example"), true, true), (.bind {}, true, true), (.start, true, true), (.noClient, true, true),
    (.clientSuffix (b "mdns.other"), true, true), (.serverBind { port := some 5353 }, true, true), (.client, true, true)]

/-- The hypothesis is met and both halves run. -/
example : Spec.Quiet (exMdnsCmds.map (·.1))
    ∧ (run exMdnsCmds).srvRun = some ({ ip := 4022343466, port := 5353 }, b "mdns.example")
    ∧ cliView (run exMdnsCmds) = some ({ ip := 4022343466, port := 4266 }, b "mdns.other") := by
  refine ⟨fun pre c post e hs => ?_, by decide +kernel, by decide +kernel⟩
  have hl : pre.length ≤ 6 := by
    have := congrArg List.length e
    simp only [List.length_map, List.length_append, List.length_cons, exMdnsCmds, List.length_nil] at this
    omega
  have hpre : pre = (exMdnsCmds.map (·.1)).take pre.length := by rw [e, List.take_left]
  have hc : (exMdnsCmds.map (·.1))[pre.length]? = some c := by rw [e]; simp
  generalize hn : pre.length = n at *
  have key : ∀ n ≤ 6, (exMdnsCmds.map (·.1))[n]? = some c → Spec.target (Spec.wishes ((exMdnsCmds.map (·.1)).take n)).up
      (Spec.wishes ((exMdnsCmds.map (·.1)).take n)).cli = none := by
    intro n h6 hc
    match n, h6 with
    | 0, _ => decide +kernel
    | 1, _ => decide +kernel
    | 2, _ => cases hc; exact absurd hs id
    | 3, _ => cases hc; exact absurd hs id
    | 4, _ => decide +kernel
    | 5, _ => cases hc; exact absurd hs id
    | 6, _ => cases hc; exact absurd hs id
  rw [hpre]
  exact key n hl hc

/-- C52, negation: changing the suffix while the client runs reads memory that has been freed: the
client keeps the pointer it was given (mslookup_client_mdns.c 198), the command frees the string, and
dgsm.c 216 compares with it. -/
theorem c52_suffix_violated :
    (run [(.start, true, true), (.clientBind {}, true, true), (.clientSuffix (b "mdns.other"), true, true)]).ub = true := by
  decide +kernel

end Verif.Mslookup.Props
