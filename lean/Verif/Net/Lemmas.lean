import Verif.Net.Spec
import Verif.Mslookup.ClientProps
/-!
# Lemmas about the network of lookups
-/
namespace Verif.Net
open Verif Verif.Db Verif.Sys Verif.Mslookup Verif.Mslookup.Mdns Verif.Mslookup.Mdns.Spec Verif.Net.Spec
abbrev CReq := Client.Req

open Verif.Mslookup.Client (Client Obs rxResult timeoutCb sendResult setTimer)

/-! ## One step of a lookup client -/

/-- The same request. -/
def SameReq (x y : CReq) : Prop := y.uid = x.uid ∧ y.handle = x.handle ∧ y.query = x.query

/-- The requests are those of before, perhaps fewer. -/
def Sub (c c' : Client) : Prop := ∀ x ∈ c'.reqs, ∃ y ∈ c.reqs, SameReq x y

theorem Sub.refl (c : Client) : Sub c c := fun x hx => ⟨x, hx, rfl, rfl, rfl⟩

theorem Sub.trans {a b c : Client} (h : Sub a b) (h' : Sub b c) : Sub a c := by
  intro x hx
  obtain ⟨y, hy, e1, e2, e3⟩ := h' x hx
  obtain ⟨w, hw, f1, f2, f3⟩ := h y hy
  exact ⟨w, hw, f1.trans e1, f2.trans e2, f3.trans e3⟩

theorem Sub.put {c : Client} {r : CReq} (h : ∃ y ∈ c.reqs, SameReq r y) : Sub c (c.put r) := by
  intro x hx
  rcases Client.mem_put hx with ⟨rfl, -⟩ | ⟨hx, -⟩
  · exact h
  · exact ⟨x, hx, rfl, rfl, rfl⟩

theorem Sub.cleanup (c : Client) (u : Nat) : Sub c (c.cleanup u) := fun x hx => ⟨x, (List.mem_filter.1 hx).1, rfl, rfl, rfl⟩

theorem Sub.drop (c : Client) (h u : Nat) : Sub c (c.drop h u) := by
  unfold Client.drop
  split
  · exact Sub.refl c
  · exact Sub.cleanup c _

theorem drop_log (c : Client) (h u : Nat) : (c.drop h u).log = c.log ∧ (c.drop h u).uids = c.uids := by
  unfold Client.drop
  split <;> exact ⟨rfl, rfl⟩

/-- Calling the callback. -/
theorem send_step (c : Client) (r : CReq) (f : Bool) (h : ∃ y ∈ c.reqs, SameReq r y) :
    Sub c (sendResult note c r f) ∧ (∃ x, (sendResult note c r f).log = (r.uid, .cb x) :: c.log)
    ∧ (sendResult note c r f).uids = c.uids := by
  unfold sendResult
  dsimp only
  have h1 : Sub c (note ((c.put { r with result := { r.result with last := f } }).emit r.uid
      (.cb { r.result with last := f }))) := Sub.put (c := c) (r := { r with result := { r.result with last := f } }) h
  split
  · refine ⟨Sub.trans h1 (Sub.drop _ _ _), ⟨_, (drop_log _ _ _).1⟩, (drop_log _ _ _).2⟩
  · exact ⟨h1, ⟨_, rfl⟩, rfl⟩

/-- What one event may do. -/
structure Moves (c c' : Client) (rx : Option (Nat × Result)) : Prop where
  sub : Sub c c'
  uids : c'.uids = c.uids
  log : ∃ new, c'.log = new ++ c.log ∧ (∀ v r, (v, Obs.rx r) ∈ new → rx = some (v, r))

theorem Moves.refl (c : Client) (rx : Option (Nat × Result)) : Moves c c rx where
  sub := Sub.refl c
  uids := rfl
  log := ⟨[], rfl, fun _ _ h => (by cases h)⟩

theorem Moves.trans {a b c : Client} {rx : Option (Nat × Result)} (h : Moves a b rx) (h' : Moves b c rx) : Moves a c rx where
  sub := h.sub.trans h'.sub
  uids := h'.uids.trans h.uids
  log := by
    obtain ⟨n, e, hn⟩ := h.log
    obtain ⟨n', e', hn'⟩ := h'.log
    refine ⟨n' ++ n, by rw [e', e, List.append_assoc], fun v r hm => ?_⟩
    rcases List.mem_append.1 hm with hm | hm
    · exact hn' v r hm
    · exact hn v r hm

theorem Moves.emit (c : Client) (u : Nat) (o : Obs) {rx : Option (Nat × Result)} (h : ∀ r, o = .rx r → rx = some (u, r)) :
    Moves c (c.emit u o) rx where
  sub x hx := ⟨x, hx, rfl, rfl, rfl⟩
  uids := rfl
  log := ⟨[(u, o)], rfl, fun v r hm => by
    have := List.mem_singleton.1 hm
    cases this
    exact h r rfl⟩

theorem Moves.put {c : Client} {r : CReq} (h : ∃ y ∈ c.reqs, SameReq r y) (rx : Option (Nat × Result)) : Moves c (c.put r) rx where
  sub := Sub.put h
  uids := rfl
  log := ⟨[], rfl, fun _ _ h => (by cases h)⟩

theorem Moves.send {c : Client} {r : CReq} (f : Bool) (h : ∃ y ∈ c.reqs, SameReq r y) (rx : Option (Nat × Result)) :
    Moves c (sendResult note c r f) rx := by
  obtain ⟨h1, ⟨x, h2⟩, h3⟩ := send_step c r f h
  exact ⟨h1, h3, [(r.uid, .cb x)], h2, fun v r hm => (by have := List.mem_singleton.1 hm; cases this)⟩

theorem mem_put_self {c : Client} {r : CReq} (h : ∃ y ∈ c.reqs, SameReq r y) : r ∈ (c.put r).reqs := by
  obtain ⟨y, hy, e, -⟩ := h
  exact List.mem_map.2 ⟨y, hy, if_pos e⟩

theorem getReq_mem {c : Client} {h : Nat} {r : CReq} (hg : c.getReq h = some r) : r ∈ c.reqs ∧ r.handle = h := by
  unfold Client.getReq at hg
  split at hg
  · cases hg
  · have := List.find?_some hg
    exact ⟨List.mem_of_find?_eq_some hg, by simpa using this⟩

theorem rx_moves (c : Client) (h : Nat) (res : Result) : Moves c (rxResult note c h res) ((c.getReq h).map fun y => (y.uid, res)) := by
  unfold rxResult
  cases hg : c.getReq h with
  | none => exact Moves.refl _ _
  | some r =>
    obtain ⟨hr, -⟩ := getReq_mem hg
    dsimp only [Option.map_some]
    have h1 := Moves.emit c r.uid (.rx res) (rx := some (r.uid, res)) (fun r' e => by cases e; rfl)
    have hs : ∃ y ∈ (c.emit r.uid (.rx res)).reqs, SameReq { r with result := res } y := ⟨r, hr, rfl, rfl, rfl⟩
    have h2 := h1.trans (Moves.put hs _)
    have hs2 : ∃ y ∈ ((c.emit r.uid (.rx res)).put { r with result := res }).reqs, SameReq { r with result := res } y :=
      ⟨_, mem_put_self hs, rfl, rfl, rfl⟩
    split
    · exact h1
    split
    · exact h1
    split
    · exact h2.trans (Moves.send true hs2 _)
    split
    · exact h2
    · exact h2.trans (Moves.send false hs2 _)

/-- A result for a request is noted. -/
theorem rx_noted {c : Client} {h : Nat} {res : Result} {y : CReq} (hg : c.getReq h = some y) :
    (y.uid, Obs.rx res) ∈ (rxResult note c h res).log := by
  unfold rxResult
  rw [hg]
  dsimp only
  have hr := (getReq_mem hg).1
  have h1 : (y.uid, Obs.rx res) ∈ (c.emit y.uid (.rx res)).log := List.mem_cons_self
  have hs : ∃ w ∈ (c.emit y.uid (.rx res)).reqs, SameReq { y with result := res } w := ⟨y, hr, rfl, rfl, rfl⟩
  have hs2 : ∃ w ∈ ((c.emit y.uid (.rx res)).put { y with result := res }).reqs, SameReq { y with result := res } w :=
    ⟨_, mem_put_self hs, rfl, rfl, rfl⟩
  have keep : ∀ f, (y.uid, Obs.rx res) ∈ (sendResult note ((c.emit y.uid (.rx res)).put { y with result := res }) { y with result := res } f).log := by
    intro f
    obtain ⟨-, ⟨x, e⟩, -⟩ := send_step _ _ f hs2
    rw [e]
    exact List.mem_cons_of_mem _ h1
  split
  · exact h1
  split
  · exact h1
  split
  · exact keep true
  split
  · exact h1
  · exact keep false

theorem setTimer_moves (c : Client) (u ms : Nat) : Moves c (setTimer c u ms) none := by
  unfold setTimer
  split
  · exact ⟨fun x hx => ⟨x, hx, rfl, rfl, rfl⟩, rfl, [], rfl, fun _ _ h => (by cases h)⟩
  · rename_i r hr
    exact Moves.put (r := { r with timer := ms }) ⟨r, (Client.req?_some hr).1, rfl, rfl, rfl⟩ none

theorem timeout_moves (c : Client) (u : Nat) : Moves c (timeoutCb note c u) none := by
  unfold timeoutCb
  cases hr : c.req? u with
  | none => exact Moves.refl _ _
  | some r =>
    obtain ⟨hm, -⟩ := Client.req?_some hr
    dsimp only
    have h1 := Moves.emit c u .tick (rx := none) (fun r e => by cases e)
    have m1 : ∀ x, SameReq x r → ∃ y ∈ (c.emit u .tick).reqs, SameReq x y := fun x hx => ⟨r, hm, hx⟩
    have put1 : ∀ x, SameReq x r → Moves c ((c.emit u .tick).put x) none ∧ ∀ x', SameReq x' x → ∃ y ∈ ((c.emit u .tick).put x).reqs, SameReq x' y :=
      fun x hx => ⟨h1.trans (Moves.put (m1 x hx) none), fun x' hx' => ⟨x, mem_put_self (m1 x hx), hx'⟩⟩
    split
    · obtain ⟨a, b⟩ := put1 { r with waiting := false } ⟨rfl, rfl, rfl⟩
      split
      · generalize hx : (if r.result.rc ≠ .result then _ else _) = x
        have hx : SameReq x { r with waiting := false } := by
          rw [← hx]
          split <;> exact ⟨rfl, rfl, rfl⟩
        have := b x hx
        exact (a.trans (Moves.put this none)).trans (Moves.send true ⟨x, mem_put_self this, rfl, rfl, rfl⟩ none)
      · refine Moves.trans ?_ (setTimer_moves _ _ _)
        split
        · exact a.trans (Moves.send false (b _ ⟨rfl, rfl, rfl⟩) none)
        · exact a
    · generalize hx : ({ r with result := _ } : CReq) = x
      have hx : SameReq x r := by rw [← hx]; exact ⟨rfl, rfl, rfl⟩
      obtain ⟨a, b⟩ := put1 x hx
      exact a.trans (Moves.send true (b x ⟨rfl, rfl, rfl⟩) none)

theorem cancel_moves (c : Client) (h : Nat) : Moves c (c.cancel h) none := by
  unfold Client.cancel
  split
  · exact Moves.refl _ _
  · rename_i r hr
    refine (Moves.emit c r.uid .cancel (fun r e => by cases e)).trans ⟨Sub.cleanup _ _, rfl, [], rfl, fun _ _ h => (by cases h)⟩

/-- A lookup that is started. -/
theorem request_eq {c : Client} (hi : Client.Small c) (q : Query) (mn to : Nat) :
    (serviceValid q.service && idValid q.id) = false ∧ Client.request note (fun _ => []) c q mn to = (0, c)
    ∨ (serviceValid q.service && idValid q.id) = true ∧ (Client.request note (fun _ => []) c q mn to).1 = c.uids + 1
      ∧ (∃ r, r.uid = c.uids ∧ r.handle = c.uids + 1 ∧ r.query = q
        ∧ (Client.request note (fun _ => []) c q mn to).2.reqs = c.reqs ++ [r])
      ∧ (Client.request note (fun _ => []) c q mn to).2.uids = c.uids + 1
      ∧ ∃ a b d, (Client.request note (fun _ => []) c q mn to).2.log = (c.uids, .issued a b d) :: c.log := by
  unfold Client.request
  cases hv : serviceValid q.service && idValid q.id with
  | false =>
    left
    rw [if_pos (by
      cases h1 : serviceValid q.service <;> cases h2 : idValid q.id <;> rw [h1, h2] at hv <;> first | rfl | cases hv)]
    exact ⟨rfl, rfl⟩
  | true =>
    right
    rw [if_neg (by
      cases h1 : serviceValid q.service <;> cases h2 : idValid q.id <;> rw [h1, h2] at hv <;> first | (cases hv; done) | decide)]
    dsimp only
    have hh : (if c.next = 0 then 1 else c.next) = c.uids + 1 := by
      exact hi.next1
    have hnone : c.reqs.find? (·.handle == c.uids + 1) = none := by
      rw [List.find?_eq_none]
      intro x hx
      obtain ⟨b1, b2⟩ := hi.handle1 hx
      rw [b2]
      simp; omega
    rw [hh, hnone]
    dsimp only [List.foldl]
    refine ⟨rfl, rfl, ⟨_, ?_, ?_, ?_, rfl⟩, rfl, ⟨_, _, _, rfl⟩⟩
    all_goals split <;> rfl

/-! ## The method keeps the lookups of the client -/

/-- The method's list holds exactly the lookups of the client. -/
structure Sync (l : Look) : Prop where
  mem : ∀ h q, (∃ m ∈ l.mth.reqs, m.handle = h ∧ m.query = q) ↔ ∃ x ∈ l.client.reqs, x.handle = h ∧ x.query = q
  nodup : (l.mth.reqs.map (·.handle)).Nodup

theorem foldl_cleanup (rs : List CReq) (m : Method) (hn : (m.reqs.map (·.handle)).Nodup) :
    ((rs.foldl (fun m r => m.cleanup r.handle) m).reqs.map (·.handle)).Nodup
    ∧ (∀ x, x ∈ (rs.foldl (fun m r => m.cleanup r.handle) m).reqs ↔ x ∈ m.reqs ∧ ∀ r ∈ rs, x.handle ≠ r.handle)
    ∧ (rs.foldl (fun m r => m.cleanup r.handle) m).suffix = m.suffix ∧ (rs.foldl (fun m r => m.cleanup r.handle) m).next = m.next := by
  induction rs generalizing m with
  | nil => exact ⟨hn, fun x => ⟨fun h => ⟨h, fun _ h => (by cases h)⟩, fun h => h.1⟩, rfl, rfl⟩
  | cons r rs ih =>
    have hn' : ((m.cleanup r.handle).reqs.map (·.handle)).Nodup := (List.eraseP_sublist.map _).nodup hn
    obtain ⟨a, b, c, d⟩ := ih (m.cleanup r.handle) hn'
    refine ⟨a, fun x => ?_, c, d⟩
    rw [List.foldl_cons, b, show (m.cleanup r.handle).reqs = m.reqs.eraseP (fun x => decide (x.handle = r.handle)) from rfl,
      eraseP_mem hn]
    simp only [List.forall_mem_cons]
    exact ⟨fun h => ⟨h.1.1, h.1.2, h.2⟩, fun h => ⟨⟨h.1, h.2.1⟩, h.2.2⟩⟩

theorem forget_suffix (a b : Client) (m : Method) : (forget a b m).suffix = m.suffix ∧ (forget a b m).next = m.next := by
  unfold forget
  generalize a.reqs.filter _ = rs
  induction rs generalizing m with
  | nil => exact ⟨rfl, rfl⟩
  | cons r rs ih => exact ih _

theorem handle_uniq {c : Client} (hi : Client.Small c) {x y : CReq} (hx : x ∈ c.reqs) (hy : y ∈ c.reqs) (h : x.handle = y.handle) : x = y := by
  have e : x.uid = y.uid := hi.uniq x hx y hy h
  have := Client.find_eq hi.nodup hx
  rw [e, Client.find_eq hi.nodup hy] at this
  exact (Option.some.inj this).symm

theorem with_sync {l : Look} (hs : Sync l) (hi : Client.Small l.client) {c : Client} (h : Sub l.client c) : Sync (l.with c) := by
  have fc := foldl_cleanup (l.client.reqs.filter fun r => !(c.reqs.any fun x => x.handle == r.handle)) l.mth hs.nodup
  refine ⟨fun h' q => ?_, fc.1⟩
  show (∃ m ∈ (forget l.client c l.mth).reqs, _) ↔ ∃ x ∈ c.reqs, _
  unfold forget
  constructor
  · rintro ⟨m, hm, rfl, rfl⟩
    obtain ⟨hm, hn⟩ := (fc.2.1 m).1 hm
    obtain ⟨y, hy, e1, e2⟩ := (hs.mem _ _).1 ⟨m, hm, rfl, rfl⟩
    cases ha : c.reqs.any fun x => x.handle == y.handle with
    | false => exact absurd e1.symm (hn y (List.mem_filter.2 ⟨hy, by rw [ha]; rfl⟩))
    | true =>
      obtain ⟨x, hx, e⟩ := List.any_eq_true.1 ha
      have e : x.handle = y.handle := by simpa using e
      obtain ⟨w, hw, f1, f2, f3⟩ := h x hx
      have := handle_uniq hi hw hy (f2.trans e)
      subst this
      exact ⟨x, hx, e.trans e1, f3.symm.trans e2⟩
  · rintro ⟨x, hx, rfl, rfl⟩
    obtain ⟨y, hy, f1, f2, f3⟩ := h x hx
    obtain ⟨m, hm, e1, e2⟩ := (hs.mem _ _).2 ⟨y, hy, f2, f3⟩
    refine ⟨m, (fc.2.1 m).2 ⟨hm, fun r hr e => ?_⟩, e1, e2⟩
    obtain ⟨hr, hr'⟩ := List.mem_filter.1 hr
    have : (c.reqs.any fun x => x.handle == r.handle) = true :=
      List.any_eq_true.2 ⟨x, hx, by rw [← e, e1]; exact beq_self_eq_true _⟩
    rw [this] at hr'
    cases hr'

end Verif.Net
