import Verif.Tool.Spec
import Verif.Mslookup.ClientProps
/-!
# What the lookup client does when nobody calls it from a callback
-/
namespace Verif.Tool
open Verif Verif.Mslookup Verif.Mslookup.Client Verif.Mslookup.Client.Spec

/-- The numbers of the requests under way. -/
def live (c : Client) : List Nat := c.reqs.map (·.uid)

theorem req?_live {c : Client} {u : Nat} : (∃ r, c.req? u = some r) ↔ u ∈ live c := by
  unfold Client.req? live
  constructor
  · rintro ⟨r, h⟩
    have h2 := List.find?_some h
    exact List.mem_map.2 ⟨r, List.mem_of_find?_eq_some h, by simpa using h2⟩
  · intro h
    obtain ⟨r, h1, h2⟩ := List.mem_map.1 h
    cases hf : c.reqs.find? (·.uid == u) with
    | some x => exact ⟨x, rfl⟩
    | none => exact absurd (List.find?_eq_none.1 hf r h1) (by simp [h2])

/-- Handles follow the numbers. -/
def Keyed (c : Client) : Prop := ∀ r ∈ c.reqs, r.handle = r.uid + 1

theorem Keyed.of {c : Client} (h : Client.Small c) : Keyed c := fun r hr => (h.handle1 hr).2

theorem Keyed.put {c : Client} (h : Keyed c) {r : Req} (hr : r.handle = r.uid + 1) : Keyed (c.put r) := by
  intro x hx
  rcases mem_put hx with ⟨rfl, -⟩ | ⟨hx, -⟩
  · exact hr
  · exact h x hx

theorem live_put (c : Client) (r : Req) : live (c.put r) = live c := put_uids c r

theorem live_drop {c : Client} (h : Keyed c) (u w : Nat) : live (c.drop (u + 1) w) = (live c).filter (fun v => decide (v ≠ u)) := by
  have hfil : ∀ l : List Req, (l.filter (fun x => !(x.uid == u))).map (·.uid) = (l.map (·.uid)).filter (fun v => decide (v ≠ u)) := by
    intro l
    induction l with
    | nil => rfl
    | cons x l ih =>
      rw [List.map_cons, List.filter_cons, List.filter_cons]
      by_cases e : x.uid = u
      · rw [if_neg (by simp [e]), if_neg (by simp [e]), ih]
      · rw [if_pos (by simp [e]), if_pos (by simp [e]), List.map_cons, ih]
  unfold Client.drop Client.getReq
  rw [if_neg (by omega)]
  split
  · rename_i hn
    have hn := List.find?_eq_none.1 hn
    unfold live
    rw [← hfil]
    congr 1
    symm
    rw [List.filter_eq_self]
    intro x hx
    have h1 := hn x hx
    have h2 := h x hx
    simp only [beq_iff_eq, Bool.not_eq_true'] at h1 ⊢
    simp only [beq_eq_false_iff_ne, ne_eq]
    omega
  · rename_i r hr
    have h1 := List.mem_of_find?_eq_some hr
    have h2 := List.find?_some hr
    have h2 : r.handle = u + 1 := by simpa using h2
    have h3 := h r h1
    have : r.uid = u := by omega
    unfold Client.cleanup live
    rw [this]
    exact hfil _

theorem getReq_uid {c : Client} (h : Keyed c) {n : Nat} {r : Req} (hr : c.getReq n = some r) : r ∈ c.reqs ∧ n = r.uid + 1 := by
  unfold Client.getReq at hr
  split at hr
  · cases hr
  · have h1 := List.mem_of_find?_eq_some hr
    have h2 := List.find?_some hr
    have h2 : r.handle = n := by simpa using h2
    exact ⟨h1, by rw [← h2]; exact h r h1⟩

theorem send_spec {c : Client} (h : Keyed c) {r : Req} (hr : r.handle = r.uid + 1) (f : Bool) :
    (sendResult (react {} 0) c r f).log = (r.uid, .cb { r.result with last := f }) :: c.log
    ∧ live (sendResult (react {} 0) c r f) = (if f then (live c).filter (fun v => decide (v ≠ r.uid)) else live c) := by
  unfold sendResult
  dsimp only
  have hk : Keyed (c.put { r with result := { r.result with last := f } }) := h.put hr
  cases f with
  | false => exact ⟨rfl, live_put c _⟩
  | true =>
    rw [if_pos rfl, if_pos rfl]
    constructor
    · rw [drop_log]; rfl
    · have hd := live_drop (c := react {} 0 ((c.put { r with result := { r.result with last := true } }).emit r.uid
        (.cb { r.result with last := true }))) hk r.uid
      rw [← hr] at hd
      rw [hd]
      show ((live (c.put _)).filter _) = _
      rw [live_put]

/-- One callback, or none. -/
inductive Moved (c c' : Client) : Prop
  | none (l : List (Nat × Client.Obs)) : c'.log = l ++ c.log → (∀ x ∈ l, ∀ r, x.2 ≠ .cb r) → live c' = live c → Moved c c'
  | some (l : List (Nat × Client.Obs)) (u : Nat) (r : Result) : c'.log = (u, .cb r) :: (l ++ c.log) → (∀ x ∈ l, ∀ r, x.2 ≠ .cb r) →
      u ∈ live c → live c' = (if r.last then (live c).filter (fun v => decide (v ≠ u)) else live c) → Moved c c'

theorem rx_moved {c : Client} (hi : Keyed c) (h : Nat) (res : Result) : Moved c (Client.step {} 0 c (.rx h res)) := by
  show Moved c (rxResult (react {} 0) c h res)
  unfold rxResult
  split
  · exact .none [] rfl (fun x h => (by cases h)) rfl
  · rename_i r hr
    obtain ⟨hm, hn⟩ := getReq_uid hi hr
    have hl : r.uid ∈ live c := List.mem_map_of_mem hm
    have hk := hi r hm
    dsimp only
    have quiet : Moved c (c.emit r.uid (.rx res)) := .none [(r.uid, .rx res)] rfl (by intro x hx; simp at hx; subst hx; simp) rfl
    split
    · exact quiet
    split
    · exact quiet
    have hkey : Keyed ((c.emit r.uid (.rx res)).put { r with result := res }) := Keyed.put (c := c.emit r.uid (.rx res)) hi hk
    have hlive : live ((c.emit r.uid (.rx res)).put { r with result := res }) = live c := live_put _ _
    split
    · obtain ⟨h1, h2⟩ := send_spec hkey (r := { r with result := res }) hk true
      refine .some [(r.uid, .rx res)] r.uid _ h1 (by intro x hx; simp at hx; subst hx; simp) hl ?_
      rw [h2, hlive]
    split
    · exact .none [(r.uid, .rx res)] rfl (by intro x hx; simp at hx; subst hx; simp) hlive
    · obtain ⟨h1, h2⟩ := send_spec hkey (r := { r with result := res }) hk false
      refine .some [(r.uid, .rx res)] r.uid _ h1 (by intro x hx; simp at hx; subst hx; simp) hl ?_
      rw [h2, hlive]

theorem live_setTimer (c : Client) (u ms : Nat) : live (setTimer c u ms) = live c := by
  unfold setTimer
  split
  · rfl
  · exact live_put _ _

theorem timeout_moved {c : Client} (hi : Keyed c) (u : Nat) : Moved c (Client.step {} 0 c (.timeout u)) := by
  show Moved c (timeoutCb (react {} 0) c u)
  unfold timeoutCb
  split
  · exact .none [] rfl (fun x h => (by cases h)) rfl
  · rename_i r hr
    obtain ⟨hm, hn⟩ := req?_some hr
    have hl : r.uid ∈ live c := List.mem_map_of_mem hm
    have hk := hi r hm
    dsimp only
    have hq : ∀ x ∈ [(u, Client.Obs.tick)], ∀ r, x.2 ≠ .cb r := by intro x hx; simp at hx; subst hx; simp
    have hemit : Keyed (c.emit u .tick) := hi
    split
    · have hk1 : Keyed ((c.emit u .tick).put { r with waiting := false }) := hemit.put hk
      have hl1 : live ((c.emit u .tick).put { r with waiting := false }) = live c := live_put _ _
      split
      · generalize hr' : (if r.result.rc ≠ .result then ({ r with waiting := false, result := { r.result with rc := .notFound } } : Req)
          else { r with waiting := false }) = r'
        have hu' : r'.uid = r.uid ∧ r'.handle = r'.uid + 1 := by
          subst hr'; split
          · exact ⟨rfl, hk⟩
          · exact ⟨rfl, hk⟩
        obtain ⟨h1, h2⟩ := send_spec (hk1.put hu'.2) hu'.2 true
        refine .some [(u, .tick)] r.uid { r'.result with last := true } (h1.trans ?_) hq hl ?_
        · rw [hu'.1]; rfl
        · rw [h2, live_put, hl1, hu'.1]
      · split
        · obtain ⟨h1, h2⟩ := send_spec hk1 (r := { r with waiting := false }) hk false
          refine .some [(u, .tick)] r.uid { r.result with last := false } ?_ hq hl ?_
          · rw [setTimer_log]; exact h1
          · rw [live_setTimer, h2, hl1]
        · refine .none [(u, .tick)] ?_ hq ?_
          · rw [setTimer_log]; rfl
          · rw [live_setTimer, hl1]
    · have hk1 : ∀ rc, Keyed ((c.emit u .tick).put { r with result := { r.result with rc := rc } }) := fun rc => hemit.put hk
      obtain ⟨h1, h2⟩ := send_spec (hk1 (if r.result.rc = .result then .none else .notFound))
        (r := { r with result := { r.result with rc := if r.result.rc = .result then .none else .notFound } }) hk true
      refine .some [(u, .tick)] r.uid _ h1 hq hl ?_
      rw [h2, live_put]; rfl

/-- The callbacks that were made. -/
theorem Moved.callbacks {c c' : Client} (h : Moved c c') (hk : Keyed c) :
    (callbacks c c' = [] ∧ live c' = live c ∧ ∀ v, Spec.callbacksOf (hist v c'.log) = Spec.callbacksOf (hist v c.log))
    ∨ ∃ u r, callbacks c c' = [(u, u + 1, r)] ∧ u ∈ live c
      ∧ live c' = (if r.last then (live c).filter (fun v => decide (v ≠ u)) else live c)
      ∧ ∀ v, Spec.callbacksOf (hist v c'.log) = Spec.callbacksOf (hist v c.log) ++ if v = u then [r] else [] := by
  have hquiet : ∀ (l : List (Nat × Client.Obs)) (l0 : List (Nat × Client.Obs)), (∀ x ∈ l, ∀ r, x.2 ≠ .cb r) → ∀ v,
      Spec.callbacksOf (hist v (l ++ l0)) = Spec.callbacksOf (hist v l0) := by
    intro l l0 hl v
    induction l with
    | nil => rfl
    | cons x l ih =>
      have ih := ih (fun y hy => hl y (List.mem_cons_of_mem _ hy))
      obtain ⟨a, o⟩ := x
      rw [List.cons_append]
      by_cases e : a = v
      · subst e
        rw [hist_same, ← ih]
        have := hl (a, o) List.mem_cons_self
        cases o with
        | cb r => exact absurd rfl (this r)
        | _ => rfl
      · rw [hist_other e, ih]
  have hnone : ∀ (l : List (Nat × Client.Obs)), (∀ x ∈ l, ∀ r, x.2 ≠ .cb r) → l.reverse.filterMap (callback c) = [] := by
    intro l hl
    rw [List.filterMap_eq_nil_iff]
    intro x hx
    have := hl x (List.mem_reverse.1 hx)
    unfold callback
    cases ho : x.2 with
    | cb r => exact absurd ho (this r)
    | _ => rfl
  cases h with
  | none l h1 h2 h3 =>
    refine .inl ⟨?_, h3, ?_⟩
    · unfold Tool.callbacks
      rw [h1, List.length_append, Nat.add_sub_cancel, List.take_left']
      · exact hnone l h2
      · rfl
    · intro v; rw [h1]; exact hquiet l _ h2 v
  | some l u r h1 h2 h3 h4 =>
    refine .inr ⟨u, r, ?_, h3, h4, ?_⟩
    · unfold Tool.callbacks
      rw [h1, ← List.cons_append, List.length_append, Nat.add_sub_cancel, List.take_left']
      · rw [List.reverse_cons, List.filterMap_append, hnone l h2, List.nil_append]
        obtain ⟨q, hq⟩ := req?_live.2 h3
        obtain ⟨hm, hu⟩ := req?_some hq
        have hh := hk q hm
        have hc : callback c (u, .cb r) = Option.some (u, u + 1, r) := by
          show (c.req? u).map (fun q => (u, q.handle, r)) = _
          rw [hq, Option.map_some, hh, hu]
        rw [List.filterMap_cons, hc]; rfl
      · rfl
    · intro v
      rw [h1]
      by_cases e : v = u
      · subst e
        rw [hist_same, if_pos rfl]
        show Spec.callbacksOf _ ++ [r] = _
        rw [hquiet l _ h2]
      · rw [hist_other (fun e' => e e'.symm), if_neg e, List.append_nil, hquiet l _ h2]

/-- A request that the lookup client accepts. -/
theorem request_new {c : Client} (h : Client.Small c) {q : Query} (hv : (!serviceValid q.service || !idValid q.id) = false) (mn to : Nat) :
    (request (react {} 0) (fun _ => []) c q mn to).1 = c.uids + 1
    ∧ (request (react {} 0) (fun _ => []) c q mn to).2.uids = c.uids + 1
    ∧ live (request (react {} 0) (fun _ => []) c q mn to).2 = live c ++ [c.uids]
    ∧ (request (react {} 0) (fun _ => []) c q mn to).2.log
        = (c.uids, .issued (c.uids + 1) mn (if to = 0 then (if mn = 0 then 1000 else mn) else to)) :: c.log := by
  unfold request
  rw [if_neg (by rw [hv]; simp)]
  dsimp only
  have hh : (if c.next = 0 then 1 else c.next) = c.uids + 1 := by
    exact h.next1
  rw [hh]
  have hf : c.reqs.find? (·.handle == c.uids + 1) = none := by
    rw [List.find?_eq_none]
    intro x hx
    have h1 := h.handle1 hx
    simp only [beq_iff_eq]
    omega
  rw [hf]
  dsimp only [List.foldl]
  refine ⟨rfl, rfl, ?_, ?_⟩
  · unfold live Client.emit
    dsimp only
    rw [List.map_append]
    split <;> rfl
  · unfold Client.emit
    dsimp only
    have : (if (if to = 0 then mn else to) = 0 then 1000 else if to = 0 then mn else to)
        = (if to = 0 then (if mn = 0 then 1000 else mn) else to) := by
      by_cases e : to = 0
      · rw [if_pos e, if_pos e]
      · rw [if_neg e, if_neg e, if_neg e]
    rw [this]

theorem request_callbacks {c : Client} (h : Client.Small c) {q : Query} (hv : (!serviceValid q.service || !idValid q.id) = false) (mn to : Nat) :
    callbacks c (request (react {} 0) (fun _ => []) c q mn to).2 = []
    ∧ ∀ v, Spec.callbacksOf (hist v (request (react {} 0) (fun _ => []) c q mn to).2.log) = Spec.callbacksOf (hist v c.log) := by
  obtain ⟨-, -, -, h4⟩ := request_new h hv mn to
  constructor
  · unfold callbacks
    rw [h4, List.length_cons, Nat.add_sub_cancel_left]
    rfl
  · intro v
    rw [h4]
    by_cases e : c.uids = v
    · subst e; rw [hist_same]; rfl
    · rw [hist_other e]

end Verif.Tool
