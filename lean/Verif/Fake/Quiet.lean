import Verif.Fake.Lemmas
/-!
# The timer of the fake lookup method when callbacks make no calls
-/
namespace Verif.Fake
open Verif Verif.Mslookup Verif.Mslookup.Client Verif.Mslookup.Client.Spec Verif.Fake.Spec
open Verif.Net (Moves rx_moves rx_noted timeout_moves cancel_moves request_eq note SameReq)

/-- What never changes of a request. -/
def key (r : Req) : Nat × Nat × Query := (r.uid, r.handle, r.query)

theorem get_handle {c : Client} (hi : Small c) {r : Req} (hr : r ∈ c.reqs) : c.getReq r.handle = some r := by
  rw [(hi.base r hr).2.1]
  exact getReq_of hi.toInv (find_eq hi.nodup hr)

theorem uid_inj {c : Client} (hn : (c.reqs.map (·.uid)).Nodup) {x y : Req} (hx : x ∈ c.reqs) (hy : y ∈ c.reqs) (e : x.uid = y.uid) : x = y := by
  have h := find_eq hn hx
  rw [e, find_eq hn hy] at h
  exact (Option.some.inj h).symm

theorem put_keys {c : Client} (hn : (c.reqs.map (·.uid)).Nodup) {r r' : Req} (hr : r ∈ c.reqs) (hk : key r' = key r) :
    (c.put r').reqs.map key = c.reqs.map key := by
  show (c.reqs.map fun x => if x.uid = r'.uid then r' else x).map key = _
  rw [List.map_map]
  apply List.map_congr_left
  intro x hx
  show key (if x.uid = r'.uid then r' else x) = key x
  split
  · rename_i e
    have : r'.uid = r.uid := congrArg (·.1) hk
    rw [uid_inj hn hx hr (e.trans this)]
    exact hk
  · rfl

theorem drop_keys {c : Client} {h u : Nat} {r : Req} (hg : ∀ x, c.getReq h = some x → x.uid = r.uid) :
    (c.drop h u).reqs.map key = c.reqs.map key ∨ (c.drop h u).reqs.map key = (c.reqs.filter fun x => !(x.uid == r.uid)).map key := by
  unfold Client.drop
  cases e : c.getReq h with
  | none => exact .inl rfl
  | some x =>
    right
    have := hg x e
    dsimp only
    rw [this]
    rfl

theorem filter_keys {c c' : Client} (h : c'.reqs.map key = c.reqs.map key) (u : Nat) :
    (c'.reqs.filter fun x => !(x.uid == u)).map key = (c.reqs.filter fun x => !(x.uid == u)).map key := by
  have : ∀ l : List Req, (l.filter fun x => !(x.uid == u)).map key = (l.map key).filter fun x => !(x.1 == u) := by
    intro l
    rw [List.filter_map]
    rfl
  rw [this, this, h]

theorem keys_mem {c c' : Client} (h : c'.reqs.map key = c.reqs.map key) {x : Req} (hx : x ∈ c'.reqs) : ∃ y ∈ c.reqs, key y = key x := by
  have : key x ∈ c.reqs.map key := h ▸ List.mem_map.2 ⟨x, hx, rfl⟩
  obtain ⟨y, hy, e⟩ := List.mem_map.1 this
  exact ⟨y, hy, e⟩

theorem send_keys {c : Client} (hi : Small c) {r r' : Req} (hr : r ∈ c.reqs) (hk : key r' = key r) (c1 : Client) (h1 : c1.reqs.map key = c.reqs.map key)
    (hr1 : ∃ r1 ∈ c1.reqs, key r1 = key r') (f : Bool) :
    (sendResult note c1 r' f).reqs.map key = c.reqs.map key
    ∨ (sendResult note c1 r' f).reqs.map key = (c.reqs.filter fun x => !(x.uid == r.uid)).map key := by
  have hu : c1.reqs.map (·.uid) = c.reqs.map (·.uid) := by
    have := congrArg (List.map (·.1)) h1
    rwa [List.map_map, List.map_map] at this
  have hn1 : (c1.reqs.map (·.uid)).Nodup := by rw [hu]; exact hi.nodup
  obtain ⟨r1, m1, k1⟩ := hr1
  unfold sendResult
  dsimp only
  have h2 : (c1.put { r' with result := { r'.result with last := f } }).reqs.map key = c.reqs.map key :=
    (put_keys hn1 m1 (show key { r' with result := { r'.result with last := f } } = key r1 from k1.symm)).trans h1
  split
  · rcases drop_keys (c := note ((c1.put { r' with result := { r'.result with last := f } }).emit r'.uid
        (.cb { r'.result with last := f }))) (h := r'.handle) (u := r'.uid) (r := r) (by
      intro x hx
      obtain ⟨mx, ex⟩ := Verif.Net.getReq_mem hx
      obtain ⟨y, hy, ky⟩ := keys_mem (c := c) h2 mx
      have e1 : y.handle = x.handle := congrArg (·.2.1) ky
      have e2 : r'.handle = r.handle := congrArg (·.2.1) hk
      have e3 : y.uid = x.uid := congrArg (·.1) ky
      rw [← e3]
      exact hi.uniq y hy r hr (by rw [e1, ex, e2])) with h | h
    · left; rw [h]; exact h2
    · right; rw [h]; exact filter_keys h2 _
  · exact .inl h2

/-- A result for a request leaves the others alone. -/
theorem rx_keys {c : Client} (hi : Small c) {r : Req} (hr : r ∈ c.reqs) (res : Result) :
    (rxResult note c r.handle res).reqs.map key = c.reqs.map key
    ∨ (rxResult note c r.handle res).reqs.map key = (c.reqs.filter fun x => !(x.uid == r.uid)).map key := by
  unfold rxResult
  rw [get_handle hi hr]
  dsimp only
  have h1 : ((c.emit r.uid (.rx res)).put { r with result := res }).reqs.map key = c.reqs.map key :=
    put_keys (c := c.emit r.uid (.rx res)) hi.nodup hr rfl
  have m1 : ∃ r1 ∈ ((c.emit r.uid (.rx res)).put { r with result := res }).reqs, key r1 = key { r with result := res } := by
    have : key r ∈ ((c.emit r.uid (.rx res)).put { r with result := res }).reqs.map key := h1 ▸ List.mem_map.2 ⟨r, hr, rfl⟩
    obtain ⟨y, hy, e⟩ := List.mem_map.1 this
    exact ⟨y, hy, e⟩
  split
  · exact .inl rfl
  split
  · exact .inl rfl
  split
  · exact send_keys hi hr (r' := { r with result := res }) rfl _ h1 m1 true
  split
  · exact .inl h1
  · exact send_keys hi hr (r' := { r with result := res }) rfl _ h1 m1 false

/-! ## One answer -/

/-- Answers left. -/
def unsent (l : List Resp) : Nat := l.countP (fun x => !x.sent)

/-- What giving one answer does. -/
structure Gave (now : Int) (f f' : Fake) (r : Req) (i : Nat) (x : Resp) : Prop where
  early : Early f'.client
  uids : f'.client.uids = f.client.uids
  came : ∀ u, u < f.client.uids → f'.came u = f.came u
  keys : f'.client.reqs.map key = f.client.reqs.map key
    ∨ f'.client.reqs.map key = (f.client.reqs.filter fun y => !(y.uid == r.uid)).map key
  log : ∃ l, f'.client.log = l ++ f.client.log ∧ (r.uid, .rx x.result) ∈ l ∧ ∀ v res, (v, Obs.rx res) ∈ l → v = r.uid ∧ res = x.result
  resps : f'.resps = f.resps.set i { x with sent := true }
  uses : f'.uses = ⟨i, r.uid, now⟩ :: f.uses
  ub : f'.ub = f.ub
  freed : f'.freed = f.freed

theorem rx_log {c : Client} (hi : Small c) {r : Req} (hr : r ∈ c.reqs) (res : Result) :
    ∃ l, (rxResult note c r.handle res).log = l ++ c.log ∧ (r.uid, .rx res) ∈ l ∧ ∀ v s, (v, Obs.rx s) ∈ l → v = r.uid ∧ s = res := by
  obtain ⟨l, e, hl⟩ := (rx_moves c r.handle res).log
  have hs : ∀ v s, (v, Obs.rx s) ∈ l → v = r.uid ∧ s = res := by
    intro v s h
    have := hl v s h
    rw [get_handle hi hr] at this
    cases this
    exact ⟨rfl, rfl⟩
  refine ⟨l, e, ?_, hs⟩
  have hc := rxResult_head hi hr res
  obtain ⟨l', e'⟩ := hc
  rw [e'] at e
  have : l = l' ++ [(r.uid, .rx res)] := by
    apply List.append_cancel_right (bs := c.log)
    rw [← e]; simp
  rw [this]; simp
where
  rxResult_head {c : Client} (hi : Small c) {r : Req} (hr : r ∈ c.reqs) (res : Result) :
      ∃ l, (rxResult note c r.handle res).log = l ++ (r.uid, .rx res) :: c.log := by
    have hsend : ∀ (c1 : Client) (r' : Req) (f : Bool), ∃ l, (sendResult note c1 r' f).log = l ++ c1.log := by
      intro c1 r' f
      unfold sendResult
      dsimp only
      split
      · exact ⟨[_], (Verif.Net.drop_log _ _ _).1⟩
      · exact ⟨[_], rfl⟩
    unfold rxResult
    rw [get_handle hi hr]
    dsimp only
    split
    · exact ⟨[], rfl⟩
    split
    · exact ⟨[], rfl⟩
    split
    · exact hsend _ _ true
    split
    · exact ⟨[], rfl⟩
    · exact hsend _ _ false

theorem gave {f : Fake} (he : Early f.client) (now : Int) {r : Req} (hr : r ∈ f.client.reqs) {i : Nat} {x : Resp} (hx : f.resps[i]? = some x) :
    Gave now f (f.give note now r i) r i x := by
  have hu : (rxResult note f.client r.handle x.result).uids = f.client.uids := (rx_moves _ _ _).uids
  unfold Fake.give
  rw [hx]
  refine ⟨?_, hu, fun u h => ?_, rx_keys he.inv hr _, rx_log he.inv hr _, rfl, rfl, rfl, rfl⟩
  · exact early_step (env := {}) (k := 0) he (.rx r.handle x.result) (by
      show (rxResult note f.client r.handle x.result).uids ≤ _
      rw [hu]; exact he.inv.max)
  · show (if f.client.uids ≤ u then now else f.came u) = f.came u
    rw [if_neg (by omega)]

theorem Gave.unsent {now : Int} {f f' : Fake} {r : Req} {i : Nat} {x : Resp} (h : Gave now f f' r i x) (hx : f.resps[i]? = some x)
    (hs : x.sent = false) : unsent f'.resps + 1 = unsent f.resps := by
  obtain ⟨hlt, rfl⟩ := List.getElem?_eq_some_iff.1 hx
  have hp : 0 < Verif.Fake.unsent f.resps := List.countP_pos_iff.2 ⟨_, List.getElem_mem hlt, by rw [hs]; rfl⟩
  rw [h.resps]
  unfold Verif.Fake.unsent at hp ⊢
  rw [List.countP_set hlt]
  simp only [hs, Bool.not_false, if_true, Bool.not_true]
  simp
  omega

/-- An answer that was due before it was marked. -/
theorem Gave.due {now : Int} {f f' : Fake} {r : Req} {i : Nat} {x : Resp} (h : Gave now f f' r i x) (hx : f.resps[i]? = some x) {j : Nat} {z : Resp}
    (hz : f'.resps[j]? = some z) : ∃ w, f.resps[j]? = some w ∧ (z = w ∨ z = { w with sent := true }) := by
  rw [h.resps, List.getElem?_set] at hz
  split at hz
  · rename_i e
    subst e
    split at hz
    · cases hz; exact ⟨x, hx, .inr rfl⟩
    · cases hz
  · exact ⟨z, hz, .inl rfl⟩

theorem due_marked (now came : Int) (q : Query) (x : Resp) : due now came q { x with sent := true } = false := by
  unfold due
  simp

theorem due_sent {now came : Int} {q : Query} {x : Resp} (h : due now came q x = true) : x.sent = false := by
  unfold due at h
  cases hs : x.sent with
  | false => rfl
  | true => rw [hs] at h; simp at h

/-! ## All answers of one time -/

/-- What the timer does to the requests `todo`; the answers given are `new`. -/
structure Ticked (now : Int) (todo : List Req) (f f' : Fake) (new : List Use) : Prop where
  uses : f'.uses = new ++ f.uses
  ub : f'.ub = f.ub
  freed : f'.freed = f.freed
  early : Early f'.client
  uids : f'.client.uids = f.client.uids
  came : ∀ u, u < f.client.uids → f'.came u = f.came u
  keys : (f'.client.reqs.map key).Sublist (f.client.reqs.map key)
  stay : ∀ y ∈ f.client.reqs, (∀ u ∈ new, u.uid ≠ y.uid) → key y ∈ f'.client.reqs.map key
  resps : ∀ (j : Nat) (z : Resp), f'.resps[j]? = some z → ∃ w : Resp, f.resps[j]? = some w ∧ (z = w ∨ z = { w with sent := true })
  desc : new.Pairwise fun a b => b.uid < a.uid
  each : ∀ u ∈ new, u.now = now ∧ ∃ y ∈ todo, y.uid = u.uid ∧ ∃ x, f.resps[u.resp]? = some x
    ∧ due now (f.came y.uid) y.query x = true ∧ (y.uid, .rx x.result) ∈ f'.client.log
    ∧ (∀ (j : Nat) z, j < u.resp → f'.resps[j]? = some z → due now (f.came y.uid) y.query z = false)
    ∧ ∀ y' ∈ todo, y'.uid < y.uid → (∃ u' ∈ new, u'.uid = y'.uid) ∨ due now (f.came y'.uid) y'.query x = false
  rest : ∀ y ∈ todo, (∃ u ∈ new, u.uid = y.uid) ∨ ∀ x ∈ f'.resps, due now (f.came y.uid) y.query x = false
  log : ∃ l, f'.client.log = l ++ f.client.log ∧ ∀ v res, (v, Obs.rx res) ∈ l →
    ∃ u ∈ new, u.uid = v ∧ ∃ x, f.resps[u.resp]? = some x ∧ x.result = res

theorem Ticked.refl {now : Int} {todo : List Req} {f : Fake} (he : Early f.client)
    (h : ∀ y ∈ todo, ∀ x ∈ f.resps, due now (f.came y.uid) y.query x = false) : Ticked now todo f f [] where
  uses := rfl
  ub := rfl
  freed := rfl
  early := he
  uids := rfl
  came _ _ := rfl
  keys := List.Sublist.refl _
  stay y hy _ := List.mem_map.2 ⟨y, hy, rfl⟩
  resps j z hz := ⟨z, hz, .inl rfl⟩
  desc := List.Pairwise.nil
  each u hu := by cases hu
  rest y hy := .inr (h y hy)
  log := ⟨[], rfl, fun _ _ h => (by cases h)⟩

theorem key_uid {a c : Req} (h : key a = key c) : a.uid = c.uid := congrArg (·.1) h
theorem key_query {a c : Req} (h : key a = key c) : a.query = c.query := congrArg (·.2.2) h

/-- The first request with an answer, then the rest. -/
theorem Ticked.cons {now : Int} {pre rest todo' : List Req} {r : Req} {f f1 f' : Fake} {i : Nat} {x : Resp} {new : List Use} (he : Early f.client)
    (hs : (f.client.reqs.map (·.uid)).Pairwise (· < ·)) (hsuf : ∃ done, f.client.reqs = done ++ (pre ++ r :: rest))
    (hpre : ∀ y ∈ pre, ∀ z ∈ f.resps, due now (f.came y.uid) y.query z = false)
    (hx : f.resps[i]? = some x) (hd : due now (f.came r.uid) r.query x = true)
    (hlow : ∀ j z, j < i → f.resps[j]? = some z → due now (f.came r.uid) r.query z = false)
    (h1 : Gave now f f1 r i x) (hk : todo'.map key = rest.map key) (h2 : Ticked now todo' f1 f' new) :
    Ticked now (pre ++ r :: rest) f f' (new ++ [⟨i, r.uid, now⟩]) := by
  obtain ⟨done, hdone⟩ := hsuf
  have hall : ∀ y ∈ pre ++ r :: rest, y ∈ f.client.reqs := fun y hy => by rw [hdone]; exact List.mem_append_right _ hy
  have hlt : ∀ y ∈ pre ++ r :: rest, y.uid < f.client.uids := fun y hy => (he.inv.base y (hall y hy)).1
  have hord : (pre ++ r :: rest).Pairwise (fun a b => a.uid < b.uid) := by
    rw [hdone, List.pairwise_map] at hs
    exact (List.pairwise_append.1 hs).2.1
  have hafter : ∀ y ∈ rest, r.uid < y.uid := fun y hy => (List.pairwise_cons.1 (List.pairwise_append.1 hord).2.1).1 y hy
  have hbefore : ∀ y ∈ pre, y.uid < r.uid := fun y hy => (List.pairwise_append.1 hord).2.2 y hy r List.mem_cons_self
  have htodo : ∀ y ∈ todo', ∃ y0 ∈ rest, key y0 = key y := by
    intro y hy
    have : key y ∈ rest.map key := hk ▸ List.mem_map.2 ⟨y, hy, rfl⟩
    obtain ⟨y0, m, e⟩ := List.mem_map.1 this
    exact ⟨y0, m, e⟩
  have hback : ∀ y ∈ rest, ∃ y0 ∈ todo', key y0 = key y := by
    intro y hy
    have : key y ∈ todo'.map key := hk ▸ List.mem_map.2 ⟨y, hy, rfl⟩
    obtain ⟨y0, m, e⟩ := List.mem_map.1 this
    exact ⟨y0, m, e⟩
  have hdown : ∀ (y : Req) (j : Nat) z, f'.resps[j]? = some z → (∀ w, f.resps[j]? = some w → due now (f.came y.uid) y.query w = false) →
      due now (f.came y.uid) y.query z = false := by
    intro y j z hz hw
    obtain ⟨w, e, hzw⟩ := h2.resps j z hz
    obtain ⟨v, e', hwv⟩ := h1.due hx e
    rcases hzw with rfl | rfl
    · rcases hwv with rfl | rfl
      · exact hw _ e'
      · exact due_marked _ _ _ _
    · exact due_marked _ _ _ _
  have hnew : ∀ u ∈ new, r.uid < u.uid := by
    intro u hu
    obtain ⟨-, y, hy, e, -⟩ := h2.each u hu
    obtain ⟨y0, m, k⟩ := htodo y hy
    rw [← e, ← key_uid k]
    exact hafter y0 m
  have hcame : ∀ y ∈ pre ++ r :: rest, f1.came y.uid = f.came y.uid := fun y hy => h1.came _ (hlt y hy)
  obtain ⟨l1, e1, m1, o1⟩ := h1.log
  obtain ⟨l2, e2, o2⟩ := h2.log
  refine ⟨?_, h2.ub.trans h1.ub, h2.freed.trans h1.freed, h2.early, h2.uids.trans h1.uids, fun u hu => ?_, ?_, ?_, ?_, ?_, ?_, ?_, ?_⟩
  · rw [h2.uses, h1.uses]; simp
  · rw [h2.came u (by rw [h1.uids]; exact hu), h1.came u hu]
  · refine h2.keys.trans ?_
    rcases h1.keys with e | e
    · rw [e]; exact List.Sublist.refl _
    · rw [e]; exact List.filter_sublist.map _
  · intro y hy hn
    have hr : y.uid ≠ r.uid := fun e => hn ⟨i, r.uid, now⟩ (by simp) e.symm
    have : key y ∈ f1.client.reqs.map key := by
      rcases h1.keys with e | e
      · rw [e]; exact List.mem_map.2 ⟨y, hy, rfl⟩
      · rw [e]; exact List.mem_map.2 ⟨y, List.mem_filter.2 ⟨hy, by simpa using hr⟩, rfl⟩
    obtain ⟨y1, m, k⟩ := List.mem_map.1 this
    rw [← k]
    refine h2.stay y1 m fun u hu e => hn u (List.mem_append_left _ hu) (e.trans (key_uid k))
  · intro j z hz
    obtain ⟨w, e, hzw⟩ := h2.resps j z hz
    obtain ⟨v, e', hwv⟩ := h1.due hx e
    refine ⟨v, e', ?_⟩
    rcases hzw with rfl | rfl
    · exact hwv
    · rcases hwv with rfl | rfl
      · exact .inr rfl
      · exact .inr rfl
  · refine List.pairwise_append.2 ⟨h2.desc, List.pairwise_singleton _ _, fun a ha b hb => ?_⟩
    cases List.mem_singleton.1 hb
    exact hnew a ha
  · intro u hu
    rcases List.mem_append.1 hu with hu | hu
    · obtain ⟨hn, y, hy, e, z, hz, hdz, hrx, hj, ho⟩ := h2.each u hu
      obtain ⟨y0, m, k⟩ := htodo y hy
      have hm : y0 ∈ pre ++ r :: rest := by simp [m]
      have hcy : f1.came y.uid = f.came y0.uid := by rw [← key_uid k]; exact hcame y0 hm
      have hz0 : f.resps[u.resp]? = some z := by
        obtain ⟨w, ew, hw⟩ := h1.due hx hz
        rcases hw with rfl | rfl
        · exact ew
        · rw [due_marked] at hdz; cases hdz
      refine ⟨hn, y0, hm, by rw [key_uid k]; exact e, z, hz0, ?_, ?_, ?_, ?_⟩
      · rw [← hcy, key_query k]; exact hdz
      · rw [key_uid k]; exact hrx
      · intro j w hj' hw
        rw [← hcy, key_query k]
        exact hj j w hj' hw
      · intro y' hy' hlt'
        rcases List.mem_append.1 hy' with hp | hp
        · exact .inr (hpre y' hp z (List.mem_of_getElem? hz0))
        rcases List.mem_cons.1 hp with rfl | hp
        · exact .inl ⟨⟨i, y'.uid, now⟩, by simp, rfl⟩
        · obtain ⟨y1, m1, k1⟩ := hback y' hp
          rcases ho y1 m1 (by rw [key_uid k1, ← key_uid k]; exact hlt') with ⟨u', hu', e'⟩ | h
          · exact .inl ⟨u', List.mem_append_left _ hu', e'.trans (key_uid k1)⟩
          · right
            rw [key_uid k1, key_query k1, hcame y' (by simp [hp])] at h
            exact h
    · cases List.mem_singleton.1 hu
      refine ⟨rfl, r, by simp, rfl, x, hx, hd, ?_, ?_, ?_⟩
      · rw [e2, e1]
        exact List.mem_append_right _ (List.mem_append_left _ m1)
      · intro j z hj hz
        exact hdown r j z hz (fun w hw => hlow j w hj hw)
      · intro y' hy' hlt'
        rcases List.mem_append.1 hy' with hp | hp
        · exact .inr (hpre y' hp x (List.mem_of_getElem? hx))
        rcases List.mem_cons.1 hp with rfl | hp
        · omega
        · have := hafter y' hp; omega
  · intro y hy
    rcases List.mem_append.1 hy with hp | hp
    · right
      intro z hz
      obtain ⟨j, hj⟩ := List.getElem?_of_mem hz
      exact hdown y j z hj (fun w hw => hpre y hp w (List.mem_of_getElem? hw))
    rcases List.mem_cons.1 hp with rfl | hp
    · exact .inl ⟨⟨i, y.uid, now⟩, by simp, rfl⟩
    · obtain ⟨y1, m1, k1⟩ := hback y hp
      rcases h2.rest y1 m1 with ⟨u, hu, e⟩ | h
      · exact .inl ⟨u, List.mem_append_left _ hu, e.trans (key_uid k1)⟩
      · right
        rw [key_uid k1, key_query k1, hcame y hy] at h
        exact h
  · refine ⟨l2 ++ l1, by rw [e2, e1, List.append_assoc], fun v res hm => ?_⟩
    rcases List.mem_append.1 hm with hm | hm
    · obtain ⟨u, hu, e, z, hz, hres⟩ := o2 v res hm
      obtain ⟨w, ew, hw⟩ := h1.due hx hz
      refine ⟨u, List.mem_append_left _ hu, e, w, ew, ?_⟩
      rcases hw with rfl | rfl <;> exact hres
    · obtain ⟨rfl, rfl⟩ := o1 v res hm
      exact ⟨⟨i, r.uid, now⟩, by simp, rfl, x, hx, rfl⟩

theorem dropWhile_keys {l : List Req} {a : List Req} {n : Req} {t : List Req} (h : l.map key = (a ++ n :: t).map key)
    (ha : ∀ y ∈ a, y.uid ≠ n.uid) : (l.dropWhile fun x => decide (x.uid ≠ n.uid)).map key = (n :: t).map key := by
  induction a generalizing l with
  | nil =>
    cases l with
    | nil => cases h
    | cons x l =>
      have hx : key x = key n := (List.cons.inj h).1
      rw [List.dropWhile_cons_of_neg (by simp [key_uid hx])]
      exact h
  | cons y a ih =>
    cases l with
    | nil => cases h
    | cons x l =>
      obtain ⟨hx, ht⟩ := List.cons.inj h
      have : x.uid ≠ n.uid := by rw [key_uid hx]; exact ha y List.mem_cons_self
      rw [List.dropWhile_cons_of_pos (by simpa using this)]
      exact ih ht (fun z hz => ha z (List.mem_cons_of_mem _ hz))

theorem sorted_nodup {l : List Req} (h : (l.map (·.uid)).Pairwise (· < ·)) : (l.map (·.uid)).Nodup :=
  h.imp (fun h => by omega)

theorem pass_ticked (now : Int) (n : Nat) (todo : List Req) (f : Fake) (he : Early f.client) (hs : (f.client.reqs.map (·.uid)).Pairwise (· < ·))
    (hsuf : ∃ done, f.client.reqs = done ++ todo) (hn : unsent f.resps < n) : ∃ new, Ticked now todo f (f.pass note now n todo) new := by
  induction n generalizing todo f with
  | zero => omega
  | succ n ih =>
    rw [Fake.pass]
    cases hp : f.pick now todo with
    | none => exact ⟨[], Ticked.refl he (pick_none hp)⟩
    | some t =>
      obtain ⟨r, i, rest⟩ := t
      obtain ⟨pre, rfl, hpre, hi⟩ := pick_some hp
      obtain ⟨x, hx, hd, hlow⟩ := findIdx_get hi
      obtain ⟨done, hdone⟩ := hsuf
      have hr : r ∈ f.client.reqs := by rw [hdone]; simp
      have h1 := gave he now hr hx
      dsimp only
      generalize f.give note now r i = f1 at *
      have hnil : Ticked now [] f1 f1 [] := Ticked.refl h1.early (fun y hy => by cases hy)
      cases rest with
      | nil => exact ⟨_, Ticked.cons he hs ⟨done, hdone⟩ hpre hx hd hlow h1 rfl hnil⟩
      | cons next rest =>
        dsimp only
        have hord : (done ++ (pre ++ r :: next :: rest)).Pairwise (fun a b => a.uid < b.uid) := by
          rw [hdone, List.pairwise_map] at hs
          exact hs
        have hbef : ∀ y ∈ done ++ (pre ++ [r]), y.uid < next.uid := by
          have : (done ++ (pre ++ [r])) ++ next :: rest = done ++ (pre ++ r :: next :: rest) := by simp
          rw [← this] at hord
          exact fun y hy => (List.pairwise_append.1 hord).2.2 y hy next List.mem_cons_self
        have hrn : r.uid ≠ next.uid := fun e => by have := hbef r (by simp); omega
        have hshape : ∃ a, f1.client.reqs.map key = (a ++ next :: rest).map key ∧ ∀ y ∈ a, y.uid ≠ next.uid := by
          rcases h1.keys with e | e
          · refine ⟨done ++ (pre ++ [r]), by rw [e, hdone]; simp, fun y hy => ?_⟩
            have := hbef y hy; omega
          · refine ⟨(done ++ (pre ++ [r])).filter fun y => !(y.uid == r.uid), ?_, fun y hy => ?_⟩
            · have hd2 : f.client.reqs = (done ++ (pre ++ [r])) ++ next :: rest := by rw [hdone]; simp
              rw [e, hd2, List.filter_append]
              congr 1
              congr 1
              rw [List.filter_eq_self]
              intro y hy
              have h3 : r.uid < y.uid := by
                have h4 := (List.pairwise_append.1 (List.pairwise_append.1 hord).2.1).2.1
                exact (List.pairwise_cons.1 h4).1 y hy
              have : y.uid ≠ r.uid := by omega
              simpa using this
            · have := hbef y (List.mem_filter.1 hy).1; omega
        obtain ⟨a, ha, hane⟩ := hshape
        have hsome : ∃ y ∈ f1.client.reqs, y.uid = next.uid := by
          have : key next ∈ f1.client.reqs.map key := by rw [ha]; simp
          obtain ⟨y, hy, e⟩ := List.mem_map.1 this
          exact ⟨y, hy, key_uid e⟩
        have hfind : (f1.client.req? next.uid).isNone = false := by
          obtain ⟨y, hy, e⟩ := hsome
          rw [← e, show f1.client.req? y.uid = some y from find_eq h1.early.inv.nodup hy]
          rfl
        rw [hfind, if_neg (by decide)]
        have hs1 : (f1.client.reqs.map (·.uid)).Pairwise (· < ·) := by
          have hsub : (f1.client.reqs.map key).Sublist (f.client.reqs.map key) := by
            rcases h1.keys with e | e
            · rw [e]; exact List.Sublist.refl _
            · rw [e]; exact List.filter_sublist.map _
          have := hsub.map (·.1)
          rw [List.map_map, List.map_map] at this
          exact hs.sublist this
        have hu := h1.unsent hx (due_sent hd)
        obtain ⟨new, h2⟩ := ih (f1.client.reqs.dropWhile fun x => decide (x.uid ≠ next.uid)) f1 h1.early hs1
          ⟨_, (List.takeWhile_append_dropWhile).symm⟩ (by omega)
        exact ⟨_, Ticked.cons he hs ⟨done, hdone⟩ hpre hx hd hlow h1 (dropWhile_keys ha hane) h2⟩

end Verif.Fake
