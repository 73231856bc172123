import Verif.Mslookup.MdnsMethod
import Verif.Mslookup.MdnsProps
import Verif.Mslookup.ServerProps
/-!
# C51: mDNS answers reach the lookup they are for
-/
namespace Verif.Mslookup.Mdns.Spec
open Verif Verif.Sys Verif.Mslookup

/-- The lookup with this handle, for this query, has been started and has not ended since. -/
def Waiting (ops : List MOp) (h : Nat) (q : Query) : Prop :=
  ∃ pre post, ops = pre ++ .request q h :: post ∧ .cleanup h ∉ post

/-- No handle is used for two lookups at the same time.  The lookup client guarantees that. -/
def Proper (ops : List MOp) : Prop :=
  ∀ pre q h post, ops = pre ++ .request q h :: post → ∀ q', ¬ Waiting pre h q'

/-- Queries are C strings. -/
def Text (ops : List MOp) : Prop := ∀ q h, .request q h ∈ ops → (0 : UInt8) ∉ q.service ∧ (0 : UInt8) ∉ idText q.id

/-- An address that fits its family. -/
def AddrOk (a : Addr) : Prop := a.ip < (if a.v6 then 2 ^ 128 else 2 ^ 32) ∧ a.port < 65536

/-- The addresses offered for a service. -/
structure HostOk (h : Host) : Prop where
  v4 : h.v4.v6 = false ∧ AddrOk h.v4
  v6 : (h.v6 = {} ∨ h.v6.v6 = true) ∧ AddrOk h.v6

def InRange (l : Services) : Prop := ∀ m ∈ l, ∀ h ∈ m.hosts, HostOk h

end Verif.Mslookup.Mdns.Spec

namespace Verif.Mslookup.Mdns
open Verif Verif.Db Verif.Sys Verif.Mslookup Spec

theorem waiting_snoc {ops : List MOp} {o : MOp} {h : Nat} {q : Query} :
    Waiting (ops ++ [o]) h q ↔ o = .request q h ∨ (Waiting ops h q ∧ o ≠ .cleanup h) := by
  constructor
  · rintro ⟨pre, post, e, hc⟩
    rcases List.eq_nil_or_concat post with rfl | ⟨post', x, rfl⟩
    · obtain ⟨-, e2⟩ := List.append_inj' e rfl
      exact .inl (List.cons.inj e2).1
    · rw [List.concat_eq_append, ← List.cons_append, ← List.append_assoc] at e
      obtain ⟨e1, e2⟩ := List.append_inj' e rfl
      have ex : o = x := (List.cons.inj e2).1
      subst ex
      rw [List.concat_eq_append] at hc
      refine .inr ⟨⟨pre, post', e1, fun m => hc (List.mem_append_left _ m)⟩, ?_⟩
      rintro rfl
      exact hc (List.mem_append_right _ List.mem_cons_self)
  · rintro (rfl | ⟨⟨pre, post, e, hc⟩, ho⟩)
    · exact ⟨ops, [], rfl, fun m => (by cases m)⟩
    · refine ⟨pre, post ++ [o], by rw [e]; simp, fun m => ?_⟩
      rcases List.mem_append.1 m with m | m
      · exact hc m
      · exact ho (List.mem_singleton.1 m).symm

/-- The list of the method holds exactly the lookups that are waiting. -/
structure MInv (suffix : Bytes) (ops : List MOp) (m : Method) : Prop where
  suffix : m.suffix = suffix
  mem : ∀ h q, (∃ r ∈ m.reqs, r.handle = h ∧ r.query = q) ↔ Waiting ops h q
  nodup : (m.reqs.map (·.handle)).Nodup

theorem eraseP_mem {l : List MReq} (hn : (l.map (·.handle)).Nodup) (h : Nat) (r : MReq) :
    r ∈ l.eraseP (fun r => decide (r.handle = h)) ↔ r ∈ l ∧ r.handle ≠ h := by
  induction l with
  | nil => simp
  | cons x l ih =>
    rw [List.map_cons, List.nodup_cons] at hn
    by_cases hx : x.handle = h
    · rw [List.eraseP_cons_of_pos (by simpa using hx)]
      constructor
      · intro m
        exact ⟨List.mem_cons_of_mem _ m, fun e => hn.1 (by
          rw [hx, ← e]; exact List.mem_map_of_mem (f := fun r : MReq => r.handle) m)⟩
      · rintro ⟨m, hne⟩
        rcases List.mem_cons.1 m with rfl | m
        · exact absurd hx hne
        · exact m
    · rw [List.eraseP_cons_of_neg (by simpa using hx), List.mem_cons, List.mem_cons, ih hn.2]
      constructor
      · rintro (rfl | ⟨m, hne⟩)
        · exact ⟨.inl rfl, hx⟩
        · exact ⟨.inr m, hne⟩
      · rintro ⟨rfl | m, hne⟩
        · exact .inl rfl
        · exact .inr ⟨m, hne⟩

theorem step_inv {suffix : Bytes} {ops : List MOp} {m : Method} (hi : MInv suffix ops m) (o : MOp)
    (hp : ∀ q h, o = .request q h → ∀ q', ¬ Waiting ops h q') : MInv suffix (ops ++ [o]) (m.step o) := by
  cases o with
  | recv d =>
    refine ⟨hi.suffix, fun h q => ?_, hi.nodup⟩
    rw [waiting_snoc, ← hi.mem]
    simp [Method.step]
  | request q h =>
    refine ⟨hi.suffix, fun h' q' => ?_, ?_⟩
    · rw [waiting_snoc, ← hi.mem]
      show (∃ r ∈ _ :: m.reqs, _) ↔ _
      constructor
      · rintro ⟨r, hr, e1, e2⟩
        rcases List.mem_cons.1 hr with rfl | hr
        · cases e1; cases e2; exact .inl rfl
        · exact .inr ⟨⟨r, hr, e1, e2⟩, fun e => (by cases e)⟩
      · rintro (e | ⟨⟨r, hr, e1, e2⟩, -⟩)
        · cases e; exact ⟨_, List.mem_cons_self, rfl, rfl⟩
        · exact ⟨r, List.mem_cons_of_mem _ hr, e1, e2⟩
    · show (h :: m.reqs.map (·.handle)).Nodup
      rw [List.nodup_cons]
      refine ⟨fun hm => ?_, hi.nodup⟩
      obtain ⟨r, hr, e⟩ := List.mem_map.1 hm
      exact hp q h rfl r.query ((hi.mem h r.query).1 ⟨r, hr, e, rfl⟩)
  | cleanup h =>
    refine ⟨hi.suffix, fun h' q' => ?_, ?_⟩
    · rw [waiting_snoc, ← hi.mem]
      show (∃ r ∈ m.reqs.eraseP _, _) ↔ _
      simp only [eraseP_mem hi.nodup]
      constructor
      · rintro ⟨r, ⟨hr, hne⟩, e1, e2⟩
        exact .inr ⟨⟨r, hr, e1, e2⟩, fun e => hne (by cases e; exact e1)⟩
      · rintro (e | ⟨⟨r, hr, e1, e2⟩, hne⟩)
        · cases e
        · exact ⟨r, ⟨hr, fun e => hne (by rw [← e1, e])⟩, e1, e2⟩
    · exact (List.eraseP_sublist.map _).nodup hi.nodup

theorem run_inv (suffix : Bytes) (first : Nat) (ops : List MOp) (hp : Proper ops) : MInv suffix ops (Method.run suffix first ops) := by
  have key : ∀ (rest done : List MOp) (m : Method), Proper (done ++ rest) → MInv suffix done m →
      MInv suffix (done ++ rest) (rest.foldl Method.step m) := by
    intro rest
    induction rest with
    | nil => intro done m _ h; rw [List.append_nil]; exact h
    | cons o rest ih =>
      intro done m hp h
      have := ih (done ++ [o]) (m.step o) (by simpa using hp) (step_inv h o (fun q h' e => hp done q h' rest (by rw [e])))
      simpa using this
  refine key ops [] _ hp ⟨rfl, fun h q => ⟨?_, ?_⟩, List.nodup_nil⟩
  · rintro ⟨r, hr, -⟩; cases hr
  · rintro ⟨pre, post, e, -⟩
    cases pre <;> cases e

/-- Services and ids that come out of a packet are C strings. -/
theorem valid_text {q : Query} (h : Mslookup.Spec.Valid q) : (0 : UInt8) ∉ idText q.id := fun e => absurd (h.digits _ e).1 (by decide)

theorem handleFor_spec {suffix : Bytes} {ops : List MOp} {m : Method} (hi : MInv suffix ops m) (ht : Text ops) {q : Query}
    (hq : Mslookup.Spec.Valid q) :
    (∀ h, m.handleFor q = some h → Waiting ops h q) ∧ (∀ h, Waiting ops h q → ∃ h', m.handleFor q = some h') := by
  have text : ∀ r ∈ m.reqs, (0 : UInt8) ∉ idText r.query.id := by
    intro r hr
    obtain ⟨pre, post, e, -⟩ := (hi.mem r.handle r.query).1 ⟨r, hr, rfl, rfl⟩
    exact (ht r.query r.handle (by rw [e]; simp)).2
  unfold Method.handleFor
  constructor
  · intro h hh
    obtain ⟨r, hr, rfl⟩ := Option.map_eq_some_iff.1 hh
    have hm := List.mem_of_find?_eq_some hr
    have hc := List.find?_some hr
    simp only [Bool.and_eq_true, decide_eq_true_eq] at hc
    have hid := (Props.c45_cmp _ _ (text r hm) (valid_text hq)).1 hc.2
    refine (hi.mem _ _).1 ⟨r, hm, rfl, ?_⟩
    obtain ⟨rh, ⟨rs, ri⟩, rp⟩ := r
    obtain ⟨qs, qi⟩ := q
    cases hid
    cases hc.1
    rfl
  · intro h hw
    obtain ⟨r, hr, -, rfl⟩ := (hi.mem _ _).2 hw
    cases hf : m.reqs.find? _ with
    | some x => exact ⟨x.handle, by rw [Option.map_some]⟩
    | none =>
      have := List.find?_eq_none.1 hf r hr
      exact absurd (by simpa using (Props.c45_cmp _ _ (text r hr) (text r hr)).2 rfl) this

end Verif.Mslookup.Mdns

namespace Verif.Mslookup.Props
open Verif Verif.Db Verif.Sys Verif.Mslookup Mdns Mdns.Spec

/-- C51: whatever lookups were started and ended and whatever packet arrives, a result is given
only to a lookup that is still waiting, for exactly the service and id that the packet names, and
it is the result that the packet carries. -/
theorem c51_only {suffix : Bytes} {first : Nat} {ops : List MOp} (hp : Proper ops) (ht : Text ops) {d : Bytes} {h : Nat} {r : Result}
    (hr : (Method.run suffix first ops).recv d = .ok (some (h, r))) :
    ∃ id q, resultDecode (d.take 1024) suffix = .ok (id, q, r) ∧ Waiting ops h q := by
  have hi := run_inv suffix first ops hp
  unfold Method.recv at hr
  rw [hi.suffix] at hr
  split at hr
  · cases hr
  · cases hr
  · rename_i id q r' he
    obtain ⟨h', hh, e⟩ := Option.map_eq_some_iff.1 (Out.ok.inj hr)
    cases e
    exact ⟨id, q, he, (handleFor_spec hi ht (c47_result he).1).1 _ hh⟩

/-- C51: if a lookup is waiting and a server's answer for its query arrives, then that result is
given to a lookup for this query, whatever the id of the packet.  If several lookups for the same
query are waiting, only one of them gets it: see `c51_parallel_violated`. -/
theorem c51_delivered_partial {suffix : Bytes} {first : Nat} {ops : List MOp} (hp : Proper ops) (ht : Text ops) {h : Nat} {q : Query}
    (hw : Waiting ops h q) (hs : Sendable q suffix) {id : Nat} (hid : id < 65536) {r : Result} (hr : Answer r) {d : Bytes}
    (hd : resultEncode id q r suffix = .ok d) :
    ∃ h', (Method.run suffix first ops).recv d = .ok (some (h', { rc := .result, v4 := r.v4, v6 := r.v6, age := r.age, last := false }))
      ∧ Waiting ops h' q := by
  have hi := run_inv suffix first ops hp
  have hdec := c46_result_partial hid hs hr hd
  have hlen : d.length ≤ 1024 := by
    unfold resultEncode at hd
    split at hd
    · cases hd
    split at hd
    · cases hd
    obtain ⟨r4, -, hd⟩ := bind_eq_ok.1 hd
    obtain ⟨r6, -, hd⟩ := bind_eq_ok.1 hd
    unfold answerEncode msgb at hd
    split at hd
    · cases hd
    · cases hd; omega
  obtain ⟨h', hh⟩ := (handleFor_spec hi ht hs.valid).2 h hw
  refine ⟨h', ?_, (handleFor_spec hi ht hs.valid).1 _ hh⟩
  unfold Method.recv
  rw [hi.suffix, List.take_of_length_le hlen, hdec]
  dsimp only
  rw [hh]
  rfl

/-- C51: if only one lookup for the query is waiting, it gets the result. -/
theorem c51_unique {suffix : Bytes} {first : Nat} {ops : List MOp} (hp : Proper ops) (ht : Text ops) {h : Nat} {q : Query}
    (hw : Waiting ops h q) (hu : ∀ h', Waiting ops h' q → h' = h) (hs : Sendable q suffix) {id : Nat} (hid : id < 65536) {r : Result}
    (hr : Answer r) {d : Bytes} (hd : resultEncode id q r suffix = .ok d) :
    (Method.run suffix first ops).recv d = .ok (some (h, { rc := .result, v4 := r.v4, v6 := r.v6, age := r.age, last := false })) := by
  obtain ⟨h', h1, h2⟩ := c51_delivered_partial (first := first) hp ht hw hs hid hr hd
  rw [hu h' h2] at h1
  exact h1

/-! ### From the client to the server and back -/

/-- What the server answers with fits into a packet. -/
theorem serverRx_answer {z : Zone} {now : Int} {c : Srv} {p : List ProxyEntry} {q : Query} {d : Db} {sc : Script} {r : Result}
    (hc : InRange c.services) (hb : AddrOk c.bind) (h : (exec (serverRx z now c p q) d sc).1 = some (some r)) (hr : r.rc = .result) :
    Answer r ∧ r.last = false := by
  have key : ∀ (x : Host) (a : Nat), HostOk x → a < 2 ^ 32 → r = setResult x a → Answer r ∧ r.last = false := by
    intro x a hx ha e
    subst e
    obtain ⟨e1, e2⟩ := setResult_eq hr
    rw [e1]
    have h6 : x.v6.ip < 2 ^ 128 := by
      have := hx.v6.2.1
      rcases hx.v6.1 with e | e
      · rw [e]; decide
      · rw [e] at this; exact this
    have h4 : x.v4.ip < 2 ^ 32 := by
      have := hx.v4.2.1
      rw [hx.v4.1] at this; exact this
    refine ⟨⟨ha, ⟨hx.v4.1, h4, hx.v4.2.2⟩, ⟨hx.v6.1, h6, hx.v6.2.2⟩, ?_⟩, rfl⟩
    rcases e2 with e | e
    · exact .inl (fun e' => by dsimp only at e'; rw [e'] at e; cases e)
    · exact .inr (fun e' => by dsimp only at e'; rw [e'] at e; cases e)
  have host : ∀ n svc x, serviceGet c.services n svc = some x → HostOk x := by
    intro n svc x hx
    obtain ⟨m, hm, hh⟩ := Option.bind_eq_some_iff.1 hx
    exact hc m (List.mem_of_find?_eq_some hm) x (List.mem_of_find?_eq_some hh)
  by_cases hq : q.service = HLR_GSUP
  · unfold serverRx at h
    rw [if_pos hq, exec_map (rxHlrGsup c q.id) some] at h
    obtain ⟨x, hx, he⟩ := Option.map_eq_some_iff.1 h
    cases he
    rcases (rxHlr_exec c q.id d sc r).1 hx with rfl | ⟨e, -⟩
    · cases hr
    · refine key (localGsup c) 0 ?_ (by decide) e
      unfold localGsup
      split
      · exact host _ _ _ (by assumption)
      · split
        · rename_i h6
          exact ⟨⟨rfl, by show (0 : Nat) < 2 ^ 32; decide, by show 0 < 65536; decide⟩, ⟨.inr h6, hb⟩⟩
        · rename_i h6
          exact ⟨⟨by simpa using h6, hb⟩, ⟨.inl rfl, by show (0 : Nat) < 2 ^ 32; decide, by show 0 < 65536; decide⟩⟩
  · rw [serverRx_exec hq] at h
    obtain ⟨row, hrow, ha⟩ := Option.map_eq_some_iff.1 h
    obtain ⟨n, hcfg, -, hage⟩ := c41_service hq (by rw [serverRx_exec hq]; exact h) hr
    have hage : r.age < 2 ^ 32 := by
      rcases hage with ⟨vlr, ⟨x, -, -, -, -, -, -, -, h3⟩, -⟩ | ⟨x, -, -, -, -, -, -, -, h3⟩ <;> omega
    generalize luHere _ _ = t at ha
    cases t with
    | ub => cases ha
    | no => cases ha; cases hr
    | yes a n =>
      unfold serviceAnswer at ha
      dsimp only at ha
      split at ha
      · rename_i x hx
        cases ha
        refine key x a (host _ _ _ hx) ?_ rfl
        rw [(setResult_eq hr).1] at hage
        exact hage
      · split at ha
        · rename_i x hx
          cases ha
          refine key x a (host _ _ _ hx) ?_ rfl
          rw [(setResult_eq hr).1] at hage
          exact hage
        · cases ha; cases hr

/-- C51: a lookup over mDNS, all the way.  The client's packet for a lookup reaches a server with
the same suffix: if the server knows an answer, its packet brings exactly that answer to a
waiting lookup for the same query; if it does not, it sends nothing.  This holds for every
configuration, database, failure of the database and other lookups. -/
theorem c51_end_to_end {suffix : Bytes} {first : Nat} {ops : List MOp} (hp : Proper ops) (ht : Text ops) {h : Nat} {q : Query}
    (hw : Waiting ops h q) (hs : Sendable q suffix) (hlen : suffix.length ≤ 80) {id : Nat} (hid : id < 65536)
    {z : Zone} {now : Int} {c : Srv} (hc : InRange c.services) (hb : AddrOk c.bind) {p : List ProxyEntry} {d : Db} {sc : Script} {r : Result}
    (hr : (exec (serverRx z now c p q) d sc).1 = some (some r)) :
    ∃ pkt, queryEncode id q suffix = .ok pkt
      ∧ (r.rc ≠ .result → (exec (serverPacket z now c p suffix pkt) d sc).1 = some (.ok none))
      ∧ (r.rc = .result → ∃ ans h', (exec (serverPacket z now c p suffix pkt) d sc).1 = some (.ok (some ans))
          ∧ (Method.run suffix first ops).recv ans = .ok (some (h', r)) ∧ Waiting ops h' q) := by
  obtain ⟨pkt, hpkt⟩ := (c46_fits id hs hlen).1
  have hdec := c46_query_partial hid hs hpkt
  have hl : pkt.length ≤ 1024 := by
    unfold queryEncode requestEncode msgb at hpkt
    split at hpkt
    · cases hpkt
    split at hpkt
    · cases hpkt
    · cases hpkt; omega
  have hsp : (exec (serverPacket z now c p suffix pkt) d sc).1 = some (answerPacket id q suffix (some r)) := by
    unfold serverPacket
    rw [List.take_of_length_le hl, hdec]
    dsimp only
    rw [exec_map, hr, Option.map_some]
  refine ⟨pkt, hpkt, fun hrc => (by rw [hsp, answerPacket, if_pos hrc]), fun hrc => ?_⟩
  obtain ⟨ha, hlast⟩ := serverRx_answer hc hb hr hrc
  obtain ⟨ans, hans⟩ := (c46_fits id hs hlen).2 r ha
  obtain ⟨h', h1, h2⟩ := c51_delivered_partial (first := first) hp ht hw hs hid ha hans
  refine ⟨ans, h', (by rw [hsp, answerPacket, if_neg (by simpa using hrc), hans]), ?_, h2⟩
  rw [h1]
  obtain ⟨a, b', c', d', e'⟩ := r
  cases hrc
  cases hlast
  rfl

/-- The addresses of a configuration made by commands fit if those in the commands do. -/
theorem c51_config {l : Services} (h : InRange l) (c : Cmd)
    (hc : ∀ n svc a, c = .service n svc a → AddrOk a) : InRange (c.exec l).2 := by
  have hset : ∀ (svc : Bytes) (a : Addr), AddrOk a → ∀ hs : List Host, (∀ x ∈ hs, HostOk x) → ∀ x ∈ setHost svc a hs, HostOk x := by
    intro svc a ha
    have one : ∀ x, HostOk x → HostOk (x.set a) := by
      intro x hx
      unfold Host.set
      split
      · rename_i h6; exact ⟨hx.v4, .inr h6, ha⟩
      · rename_i h6; exact ⟨⟨by simpa using h6, ha⟩, hx.v6⟩
    have zero : HostOk { service := svc } := ⟨⟨rfl, by show (0 : Nat) < 2 ^ 32; decide, by show 0 < 65536; decide⟩,
      .inl rfl, by show (0 : Nat) < 2 ^ 32; decide, by show 0 < 65536; decide⟩
    intro hs
    induction hs with
    | nil =>
      intro _ x hx
      rw [setHost, List.mem_singleton] at hx
      rw [hx]
      exact one _ zero
    | cons y hs ih =>
      intro hh x hx
      rw [setHost] at hx
      split at hx
      · rcases List.mem_cons.1 hx with rfl | hx
        · exact one _ (hh y List.mem_cons_self)
        · exact hh x (List.mem_cons_of_mem _ hx)
      · rcases List.mem_cons.1 hx with rfl | hx
        · exact hh _ List.mem_cons_self
        · exact ih (fun x hx => hh x (List.mem_cons_of_mem _ hx)) x hx
  have hdel : ∀ (svc : Bytes) (a : Option Addr) (m : MscCfg), (∀ x ∈ m.hosts, HostOk x) → ∀ x ∈ (serviceDel m svc a).2.hosts, HostOk x := by
    intro svc a m hm x hx
    obtain ⟨y, hy, e⟩ := List.mem_filterMap.1 (show x ∈ m.hosts.filterMap (delHost svc a) from hx)
    have hk := hm y hy
    unfold delHost at e
    split at e
    · cases e; exact hk
    split at e
    · cases e
    split at e
    · split at e
      · cases e
        exact ⟨⟨rfl, by show (0 : Nat) < 2 ^ 32; decide, by show 0 < 65536; decide⟩, hk.v6⟩
      · cases e
    split at e
    · split at e
      · cases e
        exact ⟨hk.v4, .inl rfl, by show (0 : Nat) < 2 ^ 32; decide, by show 0 < 65536; decide⟩
      · cases e
    · cases e; exact hk
  have hadd : ∀ n, InRange (mscAdd l n) := by
    intro n m hm x hx
    unfold mscAdd at hm
    split at hm
    · exact h m hm x hx
    · rcases List.mem_append.1 hm with hm | hm
      · exact h m hm x hx
      · rw [List.mem_singleton.1 hm] at hx
        cases hx
  have hon : ∀ (n : Gsup.IpaName) (f : MscCfg → MscCfg) (l : Services), InRange l →
      (∀ m, (∀ x ∈ m.hosts, HostOk x) → ∀ x ∈ (f m).hosts, HostOk x) → InRange (onMsc n f l) := by
    intro n f l hl hf
    induction l with
    | nil => exact hl
    | cons y l ih =>
      intro m hm
      rw [onMsc] at hm
      split at hm
      · rcases List.mem_cons.1 hm with rfl | hm
        · exact hf y (hl y List.mem_cons_self)
        · exact hl m (List.mem_cons_of_mem _ hm)
      · rcases List.mem_cons.1 hm with rfl | hm
        · exact hl _ List.mem_cons_self
        · exact ih (fun m hm => hl m (List.mem_cons_of_mem _ hm)) m hm
  have hat : ∀ (n : Gsup.IpaName) (f : MscCfg → Int × MscCfg), (∀ m, (∀ x ∈ m.hosts, HostOk x) → ∀ x ∈ (f m).2.hosts, HostOk x) →
      InRange (atMsc l n f).2 := by
    intro n f hf
    unfold atMsc
    dsimp only
    split
    · exact hadd n
    · exact hon n _ _ (hadd n) hf
  cases c with
  | enter n =>
    cases n with
    | server => exact h
    | msc s => exact hadd _
  | service n svc a =>
    rw [Cmd.exec]
    split
    · exact hadd _
    · refine hat _ _ (fun m hm => ?_)
      unfold serviceSet
      repeat' split
      all_goals first | exact hm | exact hset svc a (hc n svc a rfl) _ hm
  | noService n svc => exact hat _ _ (fun m hm => hdel svc none m hm)
  | noServiceAt n svc a =>
    rw [Cmd.exec]
    split
    · exact hadd _
    · exact hat _ _ (fun m hm => hdel svc (some a) m hm)

/-! ### Examples -/

def exImsi : Query := { exQuery with id := .imsi (b "001010000000001") }

def exOps : List MOp := [.request exQuery 1, .request exImsi 2, .cleanup 2]

example : Waiting exOps 1 exQuery ∧ (∀ h', Waiting exOps h' exQuery → h' = 1) := by
  constructor
  · exact ⟨[], _, rfl, by decide +kernel⟩
  · intro h' hw
    have := (waiting_snoc (ops := [.request exQuery 1, .request exImsi 2])
      (o := .cleanup 2) (h := h') (q := exQuery)).1 hw
    rcases this with e | ⟨hw, -⟩
    · cases e
    rcases (waiting_snoc (ops := [.request exQuery 1]) (o := .request exImsi 2)).1 hw with e | ⟨hw, -⟩
    · exact absurd (MOp.request.inj e).1 (by decide +kernel)
    rcases (waiting_snoc (ops := []) (o := .request exQuery 1)).1 hw with e | ⟨⟨pre, post, e, -⟩, -⟩
    · exact (MOp.request.inj e).2.symm
    · cases pre <;> cases e

example : Proper exOps := by
  intro pre q h post e q' hw
  have nil : ∀ h q, ¬ Waiting [] h q := by
    rintro h q ⟨pre, post, e, -⟩
    cases pre <;> cases e
  match pre, e, hw with
  | [], _, hw => exact nil _ _ hw
  | [x], e, hw =>
    obtain ⟨e1, e2⟩ := List.cons.inj e
    obtain ⟨e3, -⟩ := List.cons.inj e2
    obtain ⟨-, e4⟩ := MOp.request.inj e3
    rw [← e1, ← e4] at hw
    rcases (waiting_snoc (ops := []) (o := .request exQuery 1)).1 hw with e | ⟨hw, -⟩
    · exact absurd (MOp.request.inj e).2 (by decide)
    · exact nil _ _ hw
  | [x, y], e, hw =>
    obtain ⟨-, e⟩ := List.cons.inj e
    obtain ⟨-, e⟩ := List.cons.inj e
    cases (List.cons.inj e).1
  | x :: y :: z :: pre, e, hw =>
    have := congrArg List.length e
    simp [exOps] at this

/-- The answer for `exQuery` reaches lookup 1; the one for lookup 2, which has ended, does not. -/
example : (do (Method.run defaultSuffix 5 exOps).recv (← resultEncode 9 exQuery exBoth defaultSuffix)) = .ok (some (1, exBoth))
    ∧ (do (Method.run defaultSuffix 5 exOps).recv (← resultEncode 6 exImsi exBoth defaultSuffix)) = .ok none := by decide +kernel

/-- C51, witness: of two lookups for the same service and id at the same time, the first one gets
none of the answers as long as the second is waiting, even those to its own packet. -/
theorem c51_parallel_violated : ∃ ops, Waiting ops 1 exQuery ∧ Waiting ops 2 exQuery
    ∧ ∀ id, id < 65536 → ∀ d, resultEncode id exQuery exBoth defaultSuffix = .ok d →
      (Method.run defaultSuffix 0 ops).recv d = .ok (some (2, exBoth)) := by
  refine ⟨[.request exQuery 1, .request exQuery 2], ⟨[], _, rfl, by decide +kernel⟩, ⟨[.request exQuery 1], [], rfl, by simp⟩, ?_⟩
  intro id hid d hd
  have hr : Answer exBoth := ⟨by decide +kernel, by decide +kernel, by decide +kernel, by decide +kernel⟩
  have hdec := c46_result_partial hid exSendable hr hd
  have hlen : d.length ≤ 1024 := by
    unfold resultEncode at hd
    split at hd
    · cases hd
    split at hd
    · cases hd
    obtain ⟨r4, -, hd⟩ := bind_eq_ok.1 hd
    obtain ⟨r6, -, hd⟩ := bind_eq_ok.1 hd
    unfold answerEncode msgb at hd
    split at hd
    · cases hd
    · cases hd; omega
  unfold Method.recv
  rw [List.take_of_length_le hlen, show (Method.run defaultSuffix 0 [.request exQuery 1, .request exQuery 2]).suffix = defaultSuffix from rfl, hdec]
  have : (Method.run defaultSuffix 0 [.request exQuery 1, .request exQuery 2]).handleFor exQuery = some 2 := by decide +kernel
  dsimp only
  rw [this]
  rfl

end Verif.Mslookup.Props
