import Verif.Sys.Props2
/-!
# Property theorems C32, C33 and C36 (notifications and short messages)
-/
namespace Verif.Sys.Props
open Verif Verif.Db Verif.Gsup Verif.Hlr

/-! ## Sending to a named node -/

/-- What is put on the log when `m` is sent to the node registered under `addr`. -/
def sentTo (s : Sys) (addr : Bytes) (m : Msg) : List Out :=
  (routeFind s.routes addr).toList.map (fun c => .tx c m none)

theorem addrSend_eq (s : Sys) (a : Bytes) (m : Msg) :
    addrSend s a m = (if (routeFind s.routes a).isSome then 0 else -ENODEV,
      { s with log := sentTo s a m ++ s.log }) := by
  unfold addrSend sentTo
  cases routeFind s.routes a <;> rfl

theorem sendToIpa_terminated (s : Sys) (n : IpaName) (m : Msg) {v : Bytes} (hn : n.name = v ++ [0]) :
    sendToIpa s n m = addrSend s (v ++ [0]) m := by
  have hl : n.name.length = v.length + 1 := by rw [hn]; simp
  unfold IpaName.name at hl hn
  rw [List.length_take] at hl
  have hpos : n.len ≠ 0 := by
    intro h0; rw [h0] at hl; simp at hl
  unfold sendToIpa
  rw [if_neg hpos, if_neg, IpaName.name, hn]
  have hle : n.len ≤ n.val.length ∨ n.val.length < n.len := by omega
  rcases hle with hle | hle
  · have e : n.len = v.length + 1 := by omega
    have h1 : (n.val.take n.len).getD (n.len - 1) 0 = n.val.getD (n.len - 1) 0 := by
      simp [List.getD_eq_getElem?_getD, List.getElem?_take]
      rw [if_pos (by omega)]
    rw [← h1, hn, e]
    simp
  · rw [List.getD_eq_getElem?_getD, List.getElem?_eq_none (by omega)]
    simp

theorem name_setStr {v : Bytes} (h : v.length ≤ 127) : (ipaSetStr {} v).2.name = v ++ [0] := by
  unfold ipaSetStr IpaName.name
  dsimp only
  rw [List.take_of_length_le h, List.take_append_of_le_length (by simp), List.take_of_length_le (by simp)]

theorem nameOf_name {v : Bytes} (h : v.length ≤ 127) : (nameOf v).name = v ++ [0] := by
  unfold nameOf
  exact name_set (ipaSet_ok (by simp; omega))

/-! ## C32 -/

/-- Delete Subscriber Data for the nodes called `numbers` (empty: no node recorded), as far
as they are connected. -/
def delData (s : Sys) (imsi : Bytes) (numbers : List Bytes) : List Out :=
  (numbers.filter (· != [])).flatMap fun v => sentTo s (v ++ [0]) { typ := DELETE_DATA, imsi := imsi }

theorem sendDelData_eq (cfg : Cfg) (s : Sys) (imsi v : Bytes) (henc : ∀ m, cfg.enc m = true) (hv : v.length ≤ 127) :
    sendDelData cfg s imsi v = { s with log := delData s imsi [v] ++ s.log } := by
  unfold sendDelData delData encSendToIpa
  cases v with
  | nil => simp
  | cons a l =>
    rw [if_neg (by simp), henc, if_pos rfl, sendToIpa_terminated s _ _ (name_setStr hv), addrSend_eq]
    simp

theorem number_len (r : SubRow) : (HlrSubscr.ofRow r).vlrNumber.length ≤ 127
    ∧ (HlrSubscr.ofRow r).sgsnNumber.length ≤ 127 := by
  constructor <;> simp [HlrSubscr.ofRow, strlcpy] <;> omega

/-- The value of a domain's switch in the database. -/
def namOf (r : SubRow) (isPs : Bool) : Bool := if isPs then r.namPs else r.namCs

/-- Enabling or disabling a domain for a subscriber as read from the database: the return
code tells what was done.
* The value is already set: nothing is done.
* Storing failed: nothing is changed or sent.
* Stored: the value, and nothing else, is changed; when disabling, Delete Subscriber Data
  is sent to the nodes recorded as MSC/VLR and SGSN, when enabling nothing is sent.
Missing from the full property: a recorded node is not reached if it registered its name
without terminating NUL or if the name has more than 31 characters
(`c32_no_nul_violated`, `c32_long_name_violated`). -/
theorem c32_nam_partial (cfg : Cfg) (e : Env) (s : Sys) (hU : Unique s.db) {row : SubRow} (hrow : row ∈ s.db.subs)
    (himsi : Digits 6 15 row.imsi) (henc : ∀ m, cfg.enc m = true) (val isPs : Bool) :
    let res := subscrNam cfg e (HlrSubscr.ofRow row) val isPs s
    (namOf row isPs = val → res = (some 8, s))
    ∧ (namOf row isPs ≠ val →
      (firstFate e.sc = .ok → res = (some 0, { s with
          db := withRow s.db row.imsi (fun r => if isPs then { r with namPs := val } else { r with namCs := val })
          log := (if val then [] else delData s row.imsi [row.sgsn.getD [] |>.take 31, row.vlr.getD [] |>.take 31])
            ++ s.log }))
      ∧ (firstFate e.sc = .ioerr → res = (some (-5), s))
      ∧ (firstFate e.sc = .crash → res = (none, s.crash))) := by
  intro res
  have hi : (HlrSubscr.ofRow row).imsi = row.imsi := by
    show strlcpy 16 row.imsi = row.imsi
    exact strlcpy_valid (isNDigits_spec.2 himsi)
  have hn : (if isPs = true then (HlrSubscr.ofRow row).namPs else (HlrSubscr.ofRow row).namCs) = namOf row isPs := rfl
  have hc := contract_nam s.db hU e.sc row.imsi val isPs
  have hk : Db.Known s.db row.imsi := ⟨row, hrow, rfl⟩
  constructor
  · intro h
    show subscrNam cfg e (HlrSubscr.ofRow row) val isPs s = _
    unfold subscrNam
    rw [hn, if_pos h]
  · intro h
    have h0 : res = (match exec (Db.subscrNam row.imsi val isPs) s.db e.sc with
      | (none, d) => (none, Sys.crash { s with db := d })
      | (some rc, d) =>
        if rc ≠ 0 then (some (if rc > 0 then -rc else rc), { s with db := d })
        else if val then (some 0, { s with db := d })
        else (some 0, sendDelData cfg (sendDelData cfg { s with db := d } row.imsi (HlrSubscr.ofRow row).vlrNumber)
          row.imsi (HlrSubscr.ofRow row).sgsnNumber)) := by
      show subscrNam cfg e (HlrSubscr.ofRow row) val isPs s = _
      unfold subscrNam
      rw [hn, if_neg h, hi]
      rfl
    rw [h0]
    generalize exec (Db.subscrNam row.imsi val isPs) s.db e.sc = x at hc ⊢
    obtain ⟨rc, d⟩ := x
    refine ⟨fun hf => ?_, fun hf => ?_, fun hf => ?_⟩
    · have h1 : rc = some 0 := hc.success.2 ⟨trivial, hk, trivial, hf⟩
      have h2 := hc.effect h1
      dsimp only at h2
      subst h1
      cases val with
      | true => simp [h2]
      | false =>
        dsimp only
        rw [if_neg (by simp), if_neg (by simp),
          sendDelData_eq cfg _ _ _ henc (number_len row).1, sendDelData_eq cfg _ _ _ henc (number_len row).2, h2]
        simp only [delData, sentTo, HlrSubscr.ofRow, strlcpy, Bool.false_eq_true, if_false, List.filter_cons,
          List.filter_nil, Prod.mk.injEq, true_and]
        congr 1
        split <;> split <;> simp
    · have h1 : rc = some (-5) := hc.eio.2 ⟨trivial, .inl hf⟩
      have h2 := hc.noEffect (by rw [h1]; simp)
      dsimp only at h2
      subst h1 h2
      simp
    · have h1 : rc = none := hc.died.2 ⟨trivial, hf⟩
      have h2 := hc.noEffect (by rw [h1]; simp)
      dsimp only at h2
      subst h1 h2
      rfl

/-! ## C33 -/

/-- Connection `k` is the node recorded as serving subscriber `sub` in a domain, and has
done a location update in that domain. -/
def Serves (k : Conn) (sub : HlrSubscr) (isPs : Bool) : Prop :=
  (if isPs then k.supportsPs else k.supportsCs) = true
    ∧ ∃ peer, k.ccm = some peer ∧ Verif.cstr peer = if isPs then sub.sgsnNumber else sub.vlrNumber

/-- What one connection gets. -/
def notifyOut (cfg : Cfg) (sub : HlrSubscr) (rs : List (Bytes × ConnId)) (k : Conn) : List Out :=
  match k.ccm with
  | none => []
  | some peer =>
    if (k.supportsPs || k.supportsCs)
        && decide ((if k.supportsPs then sub.sgsnNumber else sub.vlrNumber) = Verif.cstr peer) then
      match routeFind rs peer, isdMsg cfg sub.imsi sub.msisdn k.supportsPs with
      | some c, some m => [.tx c m none]
      | _, _ => []
    else []

theorem notifyConn_eq (cfg : Cfg) (sub : HlrSubscr) (s : Sys) (k : Conn) :
    notifyConn cfg sub s k = { s with log := notifyOut cfg sub s.routes k ++ s.log } := by
  unfold notifyConn notifyOut
  cases h1 : (k.supportsPs || k.supportsCs) with
  | false => cases k.ccm <;> simp
  | true =>
    cases k.ccm with
    | none => rfl
    | some peer =>
      dsimp only
      generalize (if k.supportsPs = true then sub.sgsnNumber else sub.vlrNumber) = cmp
      by_cases h2 : cmp = Verif.cstr peer
      · cases h3 : isdMsg cfg sub.imsi sub.msisdn k.supportsPs with
        | none => cases routeFind s.routes peer <;> simp [h2]
        | some m =>
          simp only [addrSend_eq, sentTo]
          cases routeFind s.routes peer <;> simp [h2]
      · simp [h2]

theorem updateNotify_eq (cfg : Cfg) (sub : HlrSubscr) (s : Sys) : updateNotify cfg sub s
    = { s with log := (s.conns.map (notifyOut cfg sub s.routes)).reverse.flatten ++ s.log } := by
  unfold updateNotify
  suffices h : ∀ (l : List Conn) (t : Sys), l.foldl (notifyConn cfg sub) t
      = { t with log := (l.map (notifyOut cfg sub t.routes)).reverse.flatten ++ t.log } from h _ s
  intro l
  induction l with
  | nil => intro t; rfl
  | cons k l ih =>
    intro t
    rw [List.foldl_cons, ih, notifyConn_eq]
    simp

/-- A subscriber change is notified to exactly the connections that serve the subscriber,
provided every identified connection is registered under its name and no connection has
done location updates in both domains.
Missing from the full property: connections that serve both domains, which get the
notification only if they are recorded as SGSN (`c33_both_domains_violated`), and
connections whose name is registered to another one
(`c33_same_name_violated`). -/
theorem c33_notified_partial (cfg : Cfg) (sub : HlrSubscr) (s : Sys)
    (hreg : ∀ k ∈ s.conns, ∀ peer, k.ccm = some peer → routeFind s.routes peer = some k.id)
    (hone : ∀ k ∈ s.conns, ¬ (k.supportsCs = true ∧ k.supportsPs = true)) :
    ∃ lg, updateNotify cfg sub s = { s with log := lg ++ s.log }
      ∧ ∀ o, o ∈ lg ↔ ∃ k ∈ s.conns, ∃ isPs m, Serves k sub isPs
          ∧ isdMsg cfg sub.imsi sub.msisdn isPs = some m ∧ o = .tx k.id m none := by
  refine ⟨_, updateNotify_eq cfg sub s, ?_⟩
  intro o
  simp only [List.mem_flatten, List.mem_reverse, List.mem_map]
  constructor
  · rintro ⟨_, ⟨k, hk, rfl⟩, ho⟩
    unfold notifyOut at ho
    cases hc : k.ccm with
    | none => rw [hc] at ho; cases ho
    | some peer =>
      rw [hc] at ho
      dsimp only at ho
      generalize hcmp : (if k.supportsPs = true then sub.sgsnNumber else sub.vlrNumber) = cmp at ho
      split at ho
      · rename_i h1
        rw [← hcmp] at h1
        simp only [Bool.and_eq_true, Bool.or_eq_true, decide_eq_true_eq] at h1
        rw [hreg k hk peer hc] at ho
        cases hm : isdMsg cfg sub.imsi sub.msisdn k.supportsPs with
        | none => rw [hm] at ho; cases ho
        | some m =>
          rw [hm] at ho
          simp only [List.mem_singleton] at ho
          refine ⟨k, hk, k.supportsPs, m, ⟨?_, peer, hc, h1.2.symm⟩, hm, ho⟩
          cases hp : k.supportsPs with
          | true => rfl
          | false => simpa [hp] using h1.1
      · cases ho
  · rintro ⟨k, hk, isPs, m, ⟨h1, peer, hc, h2⟩, hm, rfl⟩
    refine ⟨_, ⟨k, hk, rfl⟩, ?_⟩
    have hp : k.supportsPs = isPs := by
      cases isPs with
      | true => simpa using h1
      | false =>
        have h1 : k.supportsCs = true := by simpa using h1
        cases h3 : k.supportsPs with
        | false => rfl
        | true => exact absurd ⟨h1, h3⟩ (hone k hk)
    have h4 : (k.supportsPs || k.supportsCs) = true := by
      rw [hp]
      cases isPs with
      | true => rfl
      | false => simpa using h1
    unfold notifyOut
    rw [hc]
    dsimp only
    rw [if_pos (by rw [h4, hp, h2]; simp), hreg k hk peer hc, hp, hm]
    simp

/-- Without those provisos: every notification goes to the connection registered under the
name of a connection that has done a location update in the domain and is recorded as
serving node. -/
theorem c33_only_serving (cfg : Cfg) (sub : HlrSubscr) (s : Sys) :
    ∃ lg, updateNotify cfg sub s = { s with log := lg ++ s.log }
      ∧ ∀ o ∈ lg, ∃ k ∈ s.conns, ∃ isPs m peer c, Serves k sub isPs ∧ k.ccm = some peer
          ∧ routeFind s.routes peer = some c
          ∧ isdMsg cfg sub.imsi sub.msisdn isPs = some m ∧ o = .tx c m none := by
  refine ⟨_, updateNotify_eq cfg sub s, ?_⟩
  intro o
  simp only [List.mem_flatten, List.mem_reverse, List.mem_map]
  rintro ⟨_, ⟨k, hk, rfl⟩, ho⟩
  unfold notifyOut at ho
  cases hc : k.ccm with
  | none => rw [hc] at ho; cases ho
  | some peer =>
    rw [hc] at ho
    dsimp only at ho
    generalize hcmp : (if k.supportsPs = true then sub.sgsnNumber else sub.vlrNumber) = cmp at ho
    split at ho
    · rename_i h1
      rw [← hcmp] at h1
      simp only [Bool.and_eq_true, Bool.or_eq_true, decide_eq_true_eq] at h1
      cases hr : routeFind s.routes peer with
      | none => rw [hr] at ho; cases ho
      | some c =>
        cases hm : isdMsg cfg sub.imsi sub.msisdn k.supportsPs with
        | none => rw [hr, hm] at ho; cases ho
        | some m =>
          rw [hr, hm] at ho
          simp only [List.mem_singleton] at ho
          refine ⟨k, hk, k.supportsPs, m, peer, c, ⟨?_, peer, hc, h1.2.symm⟩, hc, hr, hm, ho⟩
          cases hp : k.supportsPs with
          | true => rfl
          | false => simpa [hp] using h1.1
    · cases ho

/-- A connection counts as serving a domain only after a location update request of that
domain was received on it. -/
def DoneLu (log : List Out) (k : Conn) (isCs : Bool) : Prop :=
  ∃ nr m, Out.rx nr k.id (some m) ∈ log ∧ m.typ = UPDATE_LOCATION ∧ m.isCs = isCs

/-- Relation for the walk through the handlers: domains are only added to connection `c`
by a location update. -/
structure Dom (c : ConnId) (m : Msg) (s t : Sys) : Prop where
  conns : ∀ k ∈ t.conns, ∃ k' ∈ s.conns, k'.id = k.id
    ∧ (k.supportsCs = true → k'.supportsCs = true ∨ (k.id = c ∧ m.typ = UPDATE_LOCATION ∧ m.isCs = true))
    ∧ (k.supportsPs = true → k'.supportsPs = true ∨ (k.id = c ∧ m.typ = UPDATE_LOCATION ∧ m.isCs = false))
  log : ∀ o ∈ s.log, o ∈ t.log

theorem Dom.same {c : ConnId} {m : Msg} {s t : Sys} (h : t.conns = s.conns) (hl : ∀ o ∈ s.log, o ∈ t.log) :
    Dom c m s t := by
  refine ⟨fun k hk => ⟨k, by rw [← h]; exact hk, rfl, .inl, .inl⟩, hl⟩

theorem Dom.trans {c : ConnId} {m : Msg} {s t u : Sys} (h : Dom c m s t) (h' : Dom c m t u) : Dom c m s u := by
  refine ⟨?_, fun o ho => h'.log o (h.log o ho)⟩
  intro k hk
  obtain ⟨k1, hk1, e1, a1, b1⟩ := h'.conns k hk
  obtain ⟨k2, hk2, e2, a2, b2⟩ := h.conns k1 hk1
  refine ⟨k2, hk2, e2.trans e1, ?_, ?_⟩
  · intro hs
    rcases a1 hs with h1 | h1
    · rcases a2 h1 with h2 | h2
      · exact .inl h2
      · exact .inr ⟨e1.symm.trans h2.1, h2.2⟩
    · exact .inr h1
  · intro hs
    rcases b1 hs with h1 | h1
    · rcases b2 h1 with h2 | h2
      · exact .inl h2
      · exact .inr ⟨e1.symm.trans h2.1, h2.2⟩
    · exact .inr h1

theorem sendReqResponse_log (cfg : Cfg) (s : Sys) (q : Req) (m : Msg) :
    ∀ o ∈ s.log, o ∈ (sendReqResponse cfg s q m).log := by
  intro o ho
  unfold sendReqResponse
  split
  · exact ho
  · split
    · exact List.mem_cons_of_mem _ ho
    · exact ho

theorem dom_prims (cfg : Cfg) (c : ConnId) (m : Msg) : Prims cfg (fun _ => True) (Dom c m) where
  refl := fun s => .same rfl fun _ h => h
  trans := Dom.trans
  db := fun s d _ => .same rfl fun _ h => h
  ub := fun s => .same rfl fun _ h => h
  crash := fun s => ⟨fun k hk => (by cases hk), fun o ho => List.mem_cons_of_mem _ ho⟩
  tx := fun s c m _ => .same rfl fun _ h => List.mem_cons_of_mem _ h
  concl := fun s q how _ => .same rfl fun _ h => List.mem_cons_of_mem _ h
  resp := fun s q m _ _ => .same (by rw [sendReqResponse_frame]) (sendReqResponse_log cfg s q m)
  dg := fun s p r => .same rfl fun _ h => h
  pend := fun s l _ => .same rfl fun _ h => h
  remote := fun s q a m _ => .same rfl fun _ h => List.mem_cons_of_mem _ h
  remoteTx := fun s a m _ => .same rfl fun _ h => List.mem_cons_of_mem _ h
  remoteRx := fun s a m => .same rfl fun _ h => List.mem_cons_of_mem _ h

theorem dom_readCb (cfg : Cfg) (e : Env) {s : Sys} {k : Conn} {q : Req} (hk : k ∈ s.conns) :
    Dom k.id q.gsup s (readCb cfg e k q s) := by
  have pr := dom_prims cfg k.id q.gsup
  refine pr.readCb e k trivial ?_ ?_ ?_ (fun _ _ => trivial)
  · intro ht
    refine pr.updLoc e trivial k ?_ (fun t lu _ => .same rfl fun _ h => h)
    refine ⟨?_, fun o h => h⟩
    intro x hx
    obtain ⟨y, hy, rfl⟩ := List.mem_map.1 hx
    have hid : (if q.gsup.isCs = true then ({ k with supportsCs := true } : Conn)
        else { k with supportsPs := true }).id = k.id := by split <;> rfl
    rw [hid]
    by_cases hc : (y.id == k.id) = true
    · rw [if_pos hc, hid]
      refine ⟨k, hk, rfl, ?_, ?_⟩
      · intro h
        split at h
        · rename_i h1; exact .inr ⟨rfl, ht, h1⟩
        · exact .inl h
      · intro h
        split at h
        · exact .inl h
        · rename_i h1; exact .inr ⟨rfl, ht, by simpa using h1⟩
    · rw [if_neg hc]
      exact ⟨y, hy, rfl, .inl, .inl⟩
  · intro ht
    exact pr.procSs (fun t l _ => .same rfl fun _ h => h) e trivial ht (fun _ _ _ _ => trivial)
  · refine pr.luRx trivial (fun _ _ => trivial) (fun t lu => .same rfl fun _ h => h) ?_
    intro t lu _ _ _ _
    unfold respondMsgt
    rw [respond_frame]
    refine .same rfl ?_
    intro o ho
    rw [c22_response_sent]
    simp [ho]

theorem dom_rx (cfg : Cfg) (e : Env) (c : ConnId) (mo : Option Msg) (s : Sys) :
    (rx cfg e c mo s = s) ∨ (∃ nr, Dom c (mo.getD {}) { s with log := .rx nr c mo :: s.log } (rx cfg e c mo s)) := by
  unfold rx
  split
  · exact .inl rfl
  · rename_i k hk
    obtain ⟨hm, hid⟩ := conn?_some hk
    refine .inr ⟨s.nextReq, ?_⟩
    dsimp only
    have rs : ∀ (t : Sys) (q : Req) (x y : Bool) (r : Msg), Dom c (mo.getD {}) t (respond cfg t q r x y).2 := by
      intro t q x y r
      rw [respond_frame]
      refine .same rfl ?_
      intro o ho
      rw [c22_response_sent]
      simp [ho]
    have rt : ∀ (t : Sys) (l : List (Bytes × ConnId)) (n : Nat),
        Dom c (mo.getD {}) t { t with routes := l, nextReq := n } := fun _ _ _ => .same rfl fun _ h => h
    refine Dom.trans (t := { s with nextReq := s.nextReq + 1, log := .rx s.nextReq c mo :: s.log }) (.same rfl fun _ h => h) ?_
    split
    · exact .same rfl fun _ h => List.mem_cons_of_mem _ h
    · rename_i m
      split
      · exact rs _ _ _ _ _
      · split
        · unfold respondErr
          split
          · exact .same rfl fun _ h => List.mem_cons_of_mem _ h
          · exact rs _ _ _ _ _
        · have hg : (mkReq k s.nextReq m).gsup = m := by unfold mkReq; split <;> rfl
          have hcb : ∀ t : Sys, t.conns = s.conns → Dom c m t (readCb cfg e k (mkReq k s.nextReq m) t) := by
            intro t ht
            have := dom_readCb cfg e (s := t) (k := k) (q := mkReq k s.nextReq m) (by rw [ht]; exact hm)
            rw [hid, hg] at this
            exact this
          unfold connRx
          split
          · exact hcb _ rfl
          · dsimp only
            split
            · exact Dom.trans (rt _ _ _) (rs _ _ _ _ _)
            · exact Dom.trans (rt _ _ _) (hcb _ rfl)

/-- The serving domains of the connections. -/
def DomOk (s : Sys) : Prop := ∀ k ∈ s.conns, (k.supportsCs = true → DoneLu s.log k true)
  ∧ (k.supportsPs = true → DoneLu s.log k false)

theorem Dom.ok {c : ConnId} {m : Msg} {s t : Sys} (h : Dom c m s t) (hs : DomOk s)
    (hm : m.typ = UPDATE_LOCATION → ∃ nr, Out.rx nr c (some m) ∈ s.log) : DomOk t := by
  intro k hk
  obtain ⟨k', hk', e, h1, h2⟩ := h.conns k hk
  obtain ⟨o1, o2⟩ := hs k' hk'
  constructor
  · intro h3
    rcases h1 h3 with h4 | ⟨h4, h5, h6⟩
    · obtain ⟨nr, m', a, b⟩ := o1 h4
      exact ⟨nr, m', by rw [← e]; exact h.log _ a, b⟩
    · obtain ⟨nr, hn⟩ := hm h5
      exact ⟨nr, m, by rw [h4]; exact h.log _ hn, h5, h6⟩
  · intro h3
    rcases h2 h3 with h4 | ⟨h4, h5, h6⟩
    · obtain ⟨nr, m', a, b⟩ := o2 h4
      exact ⟨nr, m', by rw [← e]; exact h.log _ a, b⟩
    · obtain ⟨nr, hn⟩ := hm h5
      exact ⟨nr, m, by rw [h4]; exact h.log _ hn, h5, h6⟩

theorem domOk_step (cfg : Cfg) {s : Sys} (hs : DomOk s) (ev : Ev) : DomOk (step cfg s ev) := by
  have pr := dom_prims cfg 0 {}
  have fin : ∀ {t}, Dom 0 {} s t → DomOk t := fun h => h.ok hs (fun h => by cases h)
  unfold step
  split
  · exact hs
  · dsimp only
    split
    · -- connect
      intro k hk
      rcases List.mem_append.1 hk with hk | hk
      · obtain ⟨h1, h2⟩ := hs k hk
        exact ⟨fun h => by obtain ⟨nr, m, a, b⟩ := h1 h; exact ⟨nr, m, List.mem_cons_of_mem _ a, b⟩,
          fun h => by obtain ⟨nr, m, a, b⟩ := h2 h; exact ⟨nr, m, List.mem_cons_of_mem _ a, b⟩⟩
      · rw [List.mem_singleton.1 hk]
        exact ⟨fun h => (by cases h), fun h => (by cases h)⟩
    · -- ccm
      split
      · exact hs
      · rename_i k hk
        obtain ⟨hm, hid⟩ := conn?_some hk
        have hcl : DomOk (close s k.id) := by
          intro x hx
          obtain ⟨h1, h2⟩ := hs x (List.mem_filter.1 hx).1
          exact ⟨fun h => by obtain ⟨nr, m, a, b⟩ := h1 h; exact ⟨nr, m, List.mem_cons_of_mem _ a, b⟩,
            fun h => by obtain ⟨nr, m, a, b⟩ := h2 h; exact ⟨nr, m, List.mem_cons_of_mem _ a, b⟩⟩
        unfold ccmCb
        split
        · exact hcl
        · exact hcl
        · intro x hx
          obtain ⟨y, hy, rfl⟩ := List.mem_map.1 hx
          split
          · exact hs k hm
          · exact hs y hy
    · -- close
      split
      · exact hs
      · intro x hx
        obtain ⟨h1, h2⟩ := hs x (List.mem_filter.1 hx).1
        exact ⟨fun h => by obtain ⟨nr, m, a, b⟩ := h1 h; exact ⟨nr, m, List.mem_cons_of_mem _ a, b⟩,
          fun h => by obtain ⟨nr, m, a, b⟩ := h2 h; exact ⟨nr, m, List.mem_cons_of_mem _ a, b⟩⟩
    · rename_i c mo e
      rcases dom_rx cfg e c mo s with h | ⟨nr, h⟩
      · rw [h]; exact hs
      · refine h.ok ?_ ?_
        · intro k hk
          obtain ⟨h1, h2⟩ := hs k hk
          exact ⟨fun h => by obtain ⟨nr, m, a, b⟩ := h1 h; exact ⟨nr, m, List.mem_cons_of_mem _ a, b⟩,
            fun h => by obtain ⟨nr, m, a, b⟩ := h2 h; exact ⟨nr, m, List.mem_cons_of_mem _ a, b⟩⟩
        · intro ht
          cases mo with
          | none => cases ht
          | some m => exact ⟨nr, List.mem_cons_self ..⟩
    · exact fin (pr.luTimeout _ (fun _ _ => trivial) (fun t lu => .same rfl fun _ h => h))
    · exact fin (pr.ssTimeout (fun t l _ => .same rfl fun _ h => h) _ _ (fun _ _ _ _ => trivial))
    · exact fin (pr.withDb (api_op trivial) (pr.refl s) (fun _ _ _ h => h))
    · refine fin (pr.withDb (api_getByImsi _) (pr.refl s) ?_)
      intro a d _ h
      split
      · exact pr.trans h (pr.notify _ _ _)
      · exact h
    · refine fin (pr.withDb (api_getByImsi _) (pr.refl s) ?_)
      intro a d _ h
      split
      · exact pr.trans h (pr.nam _ _ _ _ _)
      · exact h
    · exact fin (pr.remoteUp _ s (fun _ _ => trivial)).1
    · exact fin (pr.remoteDown _ s (fun _ _ => trivial)).1
    · exact fin (pr.remoteLost _ s (fun _ _ => trivial)).1
    · exact fin (pr.rxRemote _ _ _ s trivial (fun _ _ => trivial)).1
    · exact fin (pr.lookupResult _ _ _ s (fun _ _ => trivial)).1
    · exact fin (pr.setProxy s _ (fun _ _ => trivial)).1
    · exact fin (pr.crash s)

/-- In every reachable state a connection counts as CS (PS) node only if a CS (PS) location
update was received on it. -/
theorem c33_serving_domains {s : Sys} (h : Reach s) {k : Conn} (hk : k ∈ s.conns) :
    (k.supportsCs = true → ∃ nr m, .rx nr k.id (some m) ∈ s.log ∧ m.typ = UPDATE_LOCATION ∧ m.isCs = true)
    ∧ (k.supportsPs = true → ∃ nr m, .rx nr k.id (some m) ∈ s.log ∧ m.typ = UPDATE_LOCATION ∧ m.isCs = false) := by
  obtain ⟨d, evs, rfl⟩ := h
  suffices hs : ∀ (evs : List (Cfg × Ev)) (s : Sys), DomOk s → DomOk (run s evs) by
    exact hs evs (init d) (fun k hk => by cases hk) k hk
  intro evs
  induction evs with
  | nil => intro s h; exact h
  | cons x l ih => intro s h; exact ih _ (domOk_step x.1 h x.2)

/-! ## C36 -/

/-- The SMSC responsible for address `addr`: that of the first route for it, else the
default. -/
def SmscFor (cfg : Cfg) (addr : Bytes) (n : Ent) : Prop :=
  (∃ pre post, cfg.smscRoutes = pre ++ (addr, n) :: post ∧ ∀ r ∈ pre, r.1 ≠ addr)
  ∨ ((∀ r ∈ cfg.smscRoutes, r.1 ≠ addr) ∧ cfg.smscDefault = some n)

theorem findSmscRoute_spec (cfg : Cfg) (addr : Bytes) (n : Ent) :
    findSmscRoute cfg addr = some n ↔ SmscFor cfg addr n := by
  unfold findSmscRoute SmscFor
  cases hf : cfg.smscRoutes.find? (·.1 == addr) with
  | none =>
    have h0 : ∀ r ∈ cfg.smscRoutes, r.1 ≠ addr := fun r hr h => by
      have := List.find?_eq_none.1 hf r hr
      simp [h] at this
    simp only
    constructor
    · exact fun h => .inr ⟨h0, h⟩
    · rintro (⟨pre, post, e, -⟩ | ⟨-, h⟩)
      · exact absurd rfl (h0 (addr, n) (by rw [e]; simp))
      · exact h
  | some rt =>
    obtain ⟨h1, pre, post, e, h2⟩ := List.find?_eq_some_iff_append.1 hf
    have h1 : rt.1 = addr := by simpa using h1
    have h2 : ∀ r ∈ pre, r.1 ≠ addr := fun r hr h => by
      have := h2 r hr
      simp [h] at this
    simp only [Option.some.injEq]
    constructor
    · rintro rfl
      exact .inl ⟨pre, post, by rw [e, ← h1], h2⟩
    · rintro (⟨pre', post', e', h'⟩ | ⟨h, -⟩)
      · have : (cfg.smscRoutes.find? (·.1 == addr)) = some (addr, n) := by
          rw [e', List.find?_append, List.find?_eq_none.2 (fun r hr => by simpa using h' r hr)]
          simp
        rw [hf] at this
        cases this
        rfl
      · exact absurd h1 (h rt (by rw [e]; simp))

/-- The final answer to `q`, to the connection registered under the name of its sender. -/
def answer (s : Sys) (q : Req) (M : Msg) : List Out :=
  .concl q.nr .answered :: (routeFind s.routes q.source.name).toList.map (fun c => .tx c M (some q.nr))

/-- A final response whose fields are left to be filled in. -/
theorem respond_final (cfg : Cfg) (s : Sys) (q : Req) (reply : Msg) (err : Bool) (henc : ∀ m, cfg.enc m = true)
    (h1 : reply.imsi = []) (h2 : reply.cls = 0) (h3 : reply.smRpMr = none) (h4 : reply.sessId = 0)
    (ht : (fillResponse reply q.gsup err true).typ ≠ ROUTING_ERROR) :
    (respond cfg s q reply err true).2
      = { s with log := answer s q (fillResponse reply q.gsup err true) ++ s.log } := by
  rw [respond_frame, c22_response_sent]
  have e1 : (makeResponse reply q.gsup err true).2 = fillResponse reply q.gsup err true := rfl
  have hrc : (makeResponse reply q.gsup err true).1 = 0 := by
    simp [makeResponse, responseRc, fillResponse, h1, h2, h3, h4]
  have hrt : q.routing (fillResponse reply q.gsup err true) = q.source := by
    unfold Req.routing
    split
    · rw [if_neg (fun h => ht h.1)]
    · rfl
  rw [e1, hrt, hrc, henc]
  unfold answer
  cases routeFind s.routes q.source.name <;> simp

theorem respondErr_final (cfg : Cfg) (s : Sys) (q : Req) (c : Cause) (henc : ∀ m, cfg.enc m = true)
    (hq : isRequest q.gsup.typ = true) (ht : toError q.gsup.typ ≠ ROUTING_ERROR) :
    respondErr cfg s q c
      = { s with log := answer s q (fillResponse { cause := some c } q.gsup true true) ++ s.log } := by
  unfold respondErr
  rw [if_neg (by simp [hq])]
  exact respond_final cfg s q _ _ henc rfl rfl rfl rfl (by simpa [fillResponse] using ht)

/-- The error response of a message type, with a cause. -/
structure ErrorAnswer (m M : Msg) : Prop where
  typ : M.typ = toError m.typ
  imsi : M.imsi = m.imsi
  mr : M.smRpMr = m.smRpMr
  dst : M.dst = m.src

theorem errorAnswer (m : Msg) (r : Msg) (h0 : r.typ = 0) (h1 : r.imsi = []) (h2 : r.smRpMr = none) (h3 : r.dst = []) :
    ErrorAnswer m (fillResponse r m true true) := by
  refine ⟨?_, ?_, ?_, ?_⟩ <;> simp [fillResponse, h0, h1, h2, h3]

/-- Passing a request on to the node called `v`: it gets the message with the name of the
sender, or the sender gets a routing error. -/
theorem forward_eq (cfg : Cfg) (s : Sys) (q : Req) {v : Bytes} (hv : v.length ≤ 127) (henc : ∀ m, cfg.enc m = true) :
    (∀ c', routeFind s.routes (v ++ [0]) = some c' →
      forwardToLocalPeer cfg s (nameOf v) q = { s with
        log := .concl q.nr .forwarded :: .tx c' { q.gsup with src := q.source.name } none :: s.log })
    ∧ (routeFind s.routes (v ++ [0]) = none →
      forwardToLocalPeer cfg s (nameOf v) q = respondMsgt cfg s q ROUTING_ERROR) := by
  have h1 : encSendToIpa cfg s (nameOf v) { q.gsup with src := q.source.name }
      = addrSend s (v ++ [0]) { q.gsup with src := q.source.name } := by
    unfold encSendToIpa
    rw [henc, if_pos rfl, sendToIpa_terminated s _ _ (nameOf_name hv)]
  unfold forwardToLocalPeer
  dsimp only
  rw [h1, addrSend_eq]
  constructor
  · intro c' h
    simp [sentTo, h, reqFree, Sys.emit]
  · intro h
    simp [sentTo, h]

section
variable {cfg : Cfg} {s : Sys} (hr : Reach s) (hu : s.ub = false) {c : ConnId} {k : Conn} {m : Msg}
  (h : Accepted cfg s c k m) (e : Env) (hloc : Local e m s) (henc : ∀ m, cfg.enc m = true)
include hr hu h hloc henc

/-- A malformed destination address of a mobile originated message is refused: missing or
not an SMSC address ("invalid mandatory information"), of wrong length or without the
extension bit ("semantically incorrect message"). -/
theorem c36_mo_malformed (ht : m.typ = MO_FORWARD_SM) :
    (m.smRpDa = [] ∨ m.smRpDaType ≠ ODA_SMSC_ADDR →
      ∃ M, ErrorAnswer m M ∧ M.cause = some .invMandInfo
        ∧ step cfg s (.rx c (some m) e) = { received s c k m with
            log := answer (received s c k m) (mkReq k s.nextReq m) M ++ (received s c k m).log })
    ∧ (m.smRpDa ≠ [] → m.smRpDaType = ODA_SMSC_ADDR →
      (m.smRpDa.length < 2 ∨ cfg.daMax < m.smRpDa.length ∨ m.smRpDa.getD 0 0 &&& 0x80 = 0) →
      ∃ M, ErrorAnswer m M ∧ M.smRpCause = some 95
        ∧ step cfg s (.rx c (some m) e) = { received s c k m with
            log := answer (received s c k m) (mkReq k s.nextReq m) M ++ (received s c k m).log }) := by
  have hs : step cfg s (.rx c (some m) e) = forwardMoSms cfg (mkReq k s.nextReq m) (received s c k m) := by
    rw [step_accepted hr hu h e hloc]
    unfold dispatch
    rw [mkReq_gsup, ht]
    rfl
  have hne : toError m.typ ≠ ROUTING_ERROR := by rw [ht]; decide
  have hq : isRequest m.typ = true := by rw [ht]; decide
  rw [hs]
  constructor
  · intro h1
    refine ⟨fillResponse { cause := some .invMandInfo } m true true, errorAnswer _ _ rfl rfl rfl rfl, rfl, ?_⟩
    unfold forwardMoSms
    dsimp only
    rw [mkReq_gsup]
    by_cases h2 : m.smRpDa = []
    · rw [if_pos (by simp [h2]), respondErr_final cfg _ _ _ henc (by rw [mkReq_gsup]; exact hq) (by rw [mkReq_gsup]; exact hne),
        mkReq_gsup]
    · rw [if_neg (by simpa using h2), if_pos (h1.resolve_left h2),
        respondErr_final cfg _ _ _ henc (by rw [mkReq_gsup]; exact hq) (by rw [mkReq_gsup]; exact hne),
        mkReq_gsup]
  · intro h1 h2 h3
    refine ⟨fillResponse { smRpCause := some RP_SEMANT_INC_MSG } m true true, errorAnswer _ _ rfl rfl rfl rfl, rfl, ?_⟩
    unfold forwardMoSms
    dsimp only
    rw [mkReq_gsup, if_neg (by simpa using h1), if_neg (by simpa using h2), if_pos (by simpa using h3),
      respond_final cfg _ _ _ _ henc rfl rfl rfl rfl (by rw [mkReq_gsup]; simpa [fillResponse] using hne), mkReq_gsup]

/-- A mobile originated message with a well formed address goes to the SMSC responsible
for it, if that has not been removed from the configuration (C64); if it is not connected the
sender gets a routing error, and if there is none, "number unassigned". -/
theorem c36_mo_routed (ht : m.typ = MO_FORWARD_SM) (h1 : 2 ≤ m.smRpDa.length)
    (h2 : m.smRpDaType = ODA_SMSC_ADDR) (h3 : m.smRpDa.length ≤ cfg.daMax) (h4 : m.smRpDa.getD 0 0 &&& 0x80 ≠ 0) :
    (∀ n c', SmscFor cfg (cfg.bcdDec (m.smRpDa.drop 1)) n → n ∈ cfg.smscs → n.name.length ≤ 127 →
      routeFind (received s c k m).routes (n.name ++ [0]) = some c' →
      step cfg s (.rx c (some m) e) = { received s c k m with
        log := .concl s.nextReq .forwarded :: .tx c' { m with src := (mkReq k s.nextReq m).source.name } none
          :: (received s c k m).log })
    ∧ (∀ n, SmscFor cfg (cfg.bcdDec (m.smRpDa.drop 1)) n → n ∈ cfg.smscs → n.name.length ≤ 127 →
      routeFind (received s c k m).routes (n.name ++ [0]) = none →
      step cfg s (.rx c (some m) e)
        = respondMsgt cfg (received s c k m) (mkReq k s.nextReq m) ROUTING_ERROR)
    ∧ ((¬ ∃ n, SmscFor cfg (cfg.bcdDec (m.smRpDa.drop 1)) n) →
      ∃ M, ErrorAnswer m M ∧ M.smRpCause = some 1
        ∧ step cfg s (.rx c (some m) e) = { received s c k m with
            log := answer (received s c k m) (mkReq k s.nextReq m) M ++ (received s c k m).log }) := by
  have hne : toError m.typ ≠ ROUTING_ERROR := by rw [ht]; decide
  have hs : step cfg s (.rx c (some m) e) = (match findSmscRoute cfg (cfg.bcdDec (m.smRpDa.drop 1)) with
    | none => (respond cfg (received s c k m) (mkReq k s.nextReq m) { smRpCause := some RP_MO_NUM_UNASSIGNED } true true).2
    | some smsc => if smsc ∈ cfg.smscs then forwardToLocalPeer cfg (received s c k m) (nameOf smsc.name) (mkReq k s.nextReq m)
        else { received s c k m with ub := true }) := by
    rw [step_accepted hr hu h e hloc]
    unfold dispatch
    rw [mkReq_gsup, ht]
    show forwardMoSms cfg (mkReq k s.nextReq m) (received s c k m) = _
    unfold forwardMoSms
    dsimp only
    rw [mkReq_gsup, if_neg (by intro h0; rw [List.isEmpty_iff.1 h0] at h1; simp at h1), if_neg (by simpa using h2),
      if_neg (by rintro (h0 | h0 | h0); omega; omega; exact h4 h0)]
    cases findSmscRoute cfg (cfg.bcdDec (m.smRpDa.drop 1)) <;> rfl
  rw [hs]
  refine ⟨?_, ?_, ?_⟩
  · intro n c' hn hm hl hc
    rw [(findSmscRoute_spec cfg _ n).2 hn]
    dsimp only
    rw [if_pos hm, (forward_eq cfg (received s c k m) (mkReq k s.nextReq m) hl henc).1 c' hc, mkReq_gsup, mkReq_nr]
  · intro n hn hm hl hc
    rw [(findSmscRoute_spec cfg _ n).2 hn]
    exact (if_pos hm).trans <| (forward_eq cfg (received s c k m) (mkReq k s.nextReq m) hl henc).2 hc
  · intro hn
    refine ⟨fillResponse { smRpCause := some RP_MO_NUM_UNASSIGNED } m true true, errorAnswer _ _ rfl rfl rfl rfl, rfl, ?_⟩
    have h0 : findSmscRoute cfg (cfg.bcdDec (m.smRpDa.drop 1)) = none := by
      cases hf : findSmscRoute cfg (cfg.bcdDec (m.smRpDa.drop 1)) with
      | none => rfl
      | some n => exact absurd ⟨n, (findSmscRoute_spec cfg _ n).1 hf⟩ hn
    rw [h0]
    dsimp only
    rw [respond_final cfg _ _ _ _ henc rfl rfl rfl rfl (by rw [mkReq_gsup]; simpa [fillResponse] using hne), mkReq_gsup]

/-- A mobile terminated message, the database working: it goes to the MSC/VLR recorded for
the subscriber (names of up to 31 characters), with a routing error if that is not
connected; "IMSI unknown" if there is no such subscriber, "implicitly detached" if no
MSC/VLR is recorded.  Missing from the full property: longer names of MSC/VLRs
(`c36_long_name_violated`). -/
theorem c36_mt_partial (hU : Unique s.db) (hsc : firstFate e.sc = .ok) (ht : m.typ = MT_FORWARD_SM) :
    ((∀ row ∈ s.db.subs, row.imsi ≠ m.imsi) →
      ∃ M, ErrorAnswer m M ∧ M.cause = some .imsiUnknown
        ∧ step cfg s (.rx c (some m) e) = { received s c k m with
            log := answer (received s c k m) (mkReq k s.nextReq m) M ++ (received s c k m).log })
    ∧ (∀ row ∈ s.db.subs, row.imsi = m.imsi →
      (row.vlr.getD [] = [] → ∃ M, ErrorAnswer m M ∧ M.cause = some (.other 10)
        ∧ step cfg s (.rx c (some m) e) = { received s c k m with
            log := answer (received s c k m) (mkReq k s.nextReq m) M ++ (received s c k m).log })
      ∧ (∀ v c', row.vlr = some v → v ≠ [] → v.length ≤ 31 →
        routeFind (received s c k m).routes (v ++ [0]) = some c' →
        step cfg s (.rx c (some m) e) = { received s c k m with
          log := .concl s.nextReq .forwarded :: .tx c' { m with src := (mkReq k s.nextReq m).source.name } none
            :: (received s c k m).log })
      ∧ (∀ v, row.vlr = some v → v ≠ [] → v.length ≤ 31 →
        routeFind (received s c k m).routes (v ++ [0]) = none →
        step cfg s (.rx c (some m) e)
          = respondMsgt cfg (received s c k m) (mkReq k s.nextReq m) ROUTING_ERROR)) := by
  have hne : toError m.typ ≠ ROUTING_ERROR := by rw [ht]; decide
  have hq : isRequest m.typ = true := by rw [ht]; decide
  have hs : step cfg s (.rx c (some m) e) = forwardMtSms cfg e (mkReq k s.nextReq m) (received s c k m) := by
    rw [step_accepted hr hu h e hloc]
    unfold dispatch
    rw [mkReq_gsup, ht]
    rfl
  have hx : exec (getByImsi m.imsi) s.db e.sc = (match s.db.subs.find? (fun r => r.imsi == m.imsi) with
      | some r => (some (0, some r), s.db) | none => (some (-ENOENT, none), s.db)) := by
    simp only [getByImsi, dbSel, exec_bind_stmt, sqlSel]
    rcases hsc' : e.sc with _ | ⟨_ | _ | _, sc⟩
    · cases List.find? (fun r => r.imsi == m.imsi) s.db.subs <;> rfl
    · cases List.find? (fun r => r.imsi == m.imsi) s.db.subs <;> rfl
    · rw [hsc'] at hsc; cases hsc
    · rw [hsc'] at hsc; cases hsc
  have hs2 : step cfg s (.rx c (some m) e) = (match s.db.subs.find? (fun r => r.imsi == m.imsi) with
      | none => respondErr cfg (received s c k m) (mkReq k s.nextReq m) .imsiUnknown
      | some row => if (HlrSubscr.ofRow row).vlrNumber.isEmpty then
          respondErr cfg (received s c k m) (mkReq k s.nextReq m) IMPL_DETACHED
        else forwardToLocalPeer cfg (received s c k m) (nameOf (HlrSubscr.ofRow row).vlrNumber) (mkReq k s.nextReq m)) := by
    rw [hs]
    unfold forwardMtSms withDb
    rw [mkReq_gsup]
    dsimp only
    rw [hx]
    cases s.db.subs.find? (fun r => r.imsi == m.imsi) <;> rfl
  rw [hs2]
  constructor
  · intro hn
    rw [List.find?_eq_none.2 (fun r hr => by simpa using hn r hr)]
    refine ⟨fillResponse { cause := some .imsiUnknown } m true true, errorAnswer _ _ rfl rfl rfl rfl, rfl, ?_⟩
    dsimp only
    rw [respondErr_final cfg _ _ _ henc (by rw [mkReq_gsup]; exact hq) (by rw [mkReq_gsup]; exact hne), mkReq_gsup]
  · intro row hrow hi
    have hf : s.db.subs.find? (fun r => r.imsi == m.imsi) = some row := by
      cases hf : s.db.subs.find? (fun r => r.imsi == m.imsi) with
      | none =>
        have := List.find?_eq_none.mp hf row hrow
        simp [hi] at this
      | some r =>
        have h2 : (r.imsi == m.imsi) = true := by have := List.find?_some hf; exact this
        rw [eq_of_nodup_map hU.imsis (List.mem_of_find?_eq_some hf) hrow (by rw [hi]; simpa using h2)]
    rw [hf]
    dsimp only
    have hvl : (HlrSubscr.ofRow row).vlrNumber = (row.vlr.getD []).take 31 := rfl
    refine ⟨?_, ?_, ?_⟩
    · intro hv
      refine ⟨fillResponse { cause := some IMPL_DETACHED } m true true, errorAnswer _ _ rfl rfl rfl rfl, rfl, ?_⟩
      rw [hvl, hv, if_pos (by simp),
        respondErr_final cfg _ _ _ henc (by rw [mkReq_gsup]; exact hq) (by rw [mkReq_gsup]; exact hne), mkReq_gsup]
    · intro v c' hv hv0 hl hc
      have e1 : (HlrSubscr.ofRow row).vlrNumber = v := by
        rw [hvl, hv]; exact List.take_of_length_le hl
      rw [e1, if_neg (by simpa using hv0),
        (forward_eq cfg (received s c k m) (mkReq k s.nextReq m) (by omega) henc).1 c' hc, mkReq_gsup, mkReq_nr]
    · intro v hv hv0 hl hc
      have e1 : (HlrSubscr.ofRow row).vlrNumber = v := by
        rw [hvl, hv]; exact List.take_of_length_le hl
      rw [e1, if_neg (by simpa using hv0),
        (forward_eq cfg (received s c k m) (mkReq k s.nextReq m) (by omega) henc).2 hc]

/-- READY-FOR-SM: every configured SMSC that is connected gets one copy, naming this HLR
as the source, and the sender gets one Result. -/
theorem c36_ready (hn : ∀ n ∈ cfg.smscs, n.name.length ≤ 127) (ht : m.typ = READY_FOR_SM) :
    ∃ M, M.typ = READY_FOR_SM + 2 ∧ M.imsi = m.imsi
      ∧ step cfg s (.rx c (some m) e) = { received s c k m with
        log := answer (received s c k m) (mkReq k s.nextReq m) M
          ++ (cfg.smscs.reverse.flatMap fun n =>
              sentTo (received s c k m) (n.name ++ [0]) { m with src := cfg.myName ++ [0] })
          ++ (received s c k m).log } := by
  have hs : step cfg s (.rx c (some m) e) = rxReadyForSm cfg (mkReq k s.nextReq m) (received s c k m) := by
    rw [step_accepted hr hu h e hloc]
    unfold dispatch
    rw [mkReq_gsup, ht]
    rfl
  refine ⟨fillResponse { typ := READY_FOR_SM + 2 } m false true, by rfl, by simp [fillResponse], ?_⟩
  have hcp : ∀ (l : List Ent) (t : Sys), (∀ n ∈ l, n.name.length ≤ 127) →
      l.foldl (copyToSmsc cfg (mkReq k s.nextReq m)) t = { t with log := (l.reverse.flatMap fun n =>
        sentTo t (n.name ++ [0]) { m with src := cfg.myName ++ [0] }) ++ t.log } := by
    intro l
    induction l with
    | nil => intro t _; rfl
    | cons a l ih =>
      intro t hl
      have h1 : copyToSmsc cfg (mkReq k s.nextReq m) t a
          = { t with log := sentTo t (a.name ++ [0]) { m with src := cfg.myName ++ [0] } ++ t.log } := by
        unfold copyToSmsc encSendToIpa
        rw [henc, if_pos rfl, sendToIpa_terminated t _ _ (nameOf_name (hl a (by simp))), addrSend_eq, mkReq_gsup]
      rw [List.foldl_cons, h1, ih _ (fun n hn => hl n (by simp [hn]))]
      simp [sentTo]
  rw [hs]
  unfold rxReadyForSm
  rw [hcp _ _ hn]
  unfold respondMsgt
  rw [respond_final cfg _ _ _ _ henc rfl rfl rfl rfl (by rw [mkReq_gsup]; simp [fillResponse]; decide), mkReq_gsup]
  simp only [answer, List.append_assoc]
  rfl
end

/-! ## Witnesses and examples -/

/-- Messages sent that are not responses. -/
def notices (s : Sys) : List (ConnId × Nat) :=
  s.log.filterMap fun | .tx c m none => some (c, m.typ) | _ => none

/-- A subscriber served by the connections 1 (CS) and 2 (PS): each is told when a domain is
disabled (`c32_nam_partial`), and when the subscriber changes
(`c33_notified_partial`). -/
def exServed : List Ev := exTwo ++ [.rx 1 (some ulMsg) {}, .rx 2 (some { ulMsg with cnDomain := 1 }) {}]

example : notices (runWith exCfg (init {}) (exServed ++ [.nam imsi1 false false [] []]))
      = [(2, DELETE_DATA), (1, DELETE_DATA)]
    ∧ notices (runWith exCfg (init {}) (exServed ++ [.nam imsi1 true false [] []])) = []
    ∧ notices (runWith exCfg (init {}) (exServed ++ [.nam imsi1 false false [] [.ioerr]])) = []
    ∧ notices (runWith exCfg (init {}) (exServed ++ [.notify imsi1 []]))
      = [(2, INSERT_DATA), (1, INSERT_DATA)] := by decide +kernel

instance (k : Conn) (sub : HlrSubscr) (isPs : Bool) : Decidable (Serves k sub isPs) := by
  unfold Serves
  cases h : k.ccm with
  | none => exact isFalse (by rintro ⟨-, p, hp, -⟩; cases hp)
  | some peer =>
    exact decidable_of_iff ((if isPs then k.supportsPs else k.supportsCs) = true
      ∧ Verif.cstr peer = if isPs then sub.sgsnNumber else sub.vlrNumber)
      ⟨fun h => ⟨h.1, peer, rfl, h.2⟩, fun ⟨h1, p, hp, h2⟩ => ⟨h1, by cases hp; exact h2⟩⟩

/-- The hypotheses of `c33_notified_partial` hold in that state, and both connections
serve the subscriber. -/
example :
    let s := runWith exCfg (init {}) exServed
    (∀ k ∈ s.conns, ∀ peer ∈ k.ccm.toList, routeFind s.routes peer = some k.id)
    ∧ (∀ k ∈ s.conns, ¬ (k.supportsCs = true ∧ k.supportsPs = true))
    ∧ (s.db.subs.map fun r => s.conns.map fun k =>
        (decide (Serves k (HlrSubscr.ofRow r) false), decide (Serves k (HlrSubscr.ofRow r) true)))
      = [[(true, false), (false, true)]] := by decide +kernel

/-- C32: MSC-1 identifies itself without NUL, does a location update and is recorded as
"MSC-1"; when CS is disabled, it is not told although it is connected. -/
theorem c32_no_nul_violated : ∃ s, Reach s ∧ s.ub = false
    ∧ s.conns.map (fun k => (k.id, k.ccm)) = [(1, some (b "MSC-1"))] ∧ s.routes = [(b "MSC-1", 1)]
    ∧ s.db.subs.map (fun r => (r.vlr, r.namCs)) = [(some (b "MSC-1"), false)]
    ∧ notices s = [] :=
  ⟨runWith exCfg (init {}) [.db (.create imsi1 true true) [], .db (.msisdn imsi1 (some (b "1001"))) [],
    .connect, .ccm 1 (some (b "MSC-1")), .rx 1 (some ulMsg) {}, .nam imsi1 false false [] []], ⟨_, _, rfl⟩,
    by decide +kernel, by decide +kernel, by decide +kernel, by decide +kernel, by decide +kernel⟩

/-- A name of 40 characters. -/
def longName : Bytes := List.replicate 40 77

/-- C32: a node whose name has more than 31 characters is not told either. -/
theorem c32_long_name_violated : ∃ s, Reach s ∧ s.ub = false
    ∧ s.routes = [(longName ++ [0], 1)]
    ∧ s.db.subs.map (fun r => (r.vlr, r.namCs)) = [(some longName, false)]
    ∧ notices s = [] :=
  ⟨runWith exCfg (init {}) [.db (.create imsi1 true true) [], .db (.msisdn imsi1 (some (b "1001"))) [],
    .connect, .ccm 1 (some (longName ++ [0])), .rx 1 (some ulMsg) {}, .nam imsi1 false false [] []], ⟨_, _, rfl⟩,
    by decide +kernel, by decide +kernel, by decide +kernel, by decide +kernel⟩

/-- C33: connection 1 serves the subscriber in the CS domain, and once did a location
update of another subscriber in the PS domain.  It is not notified. -/
theorem c33_both_domains_violated : ∃ s, Reach s ∧ s.ub = false
    ∧ (∃ k ∈ s.conns, ∃ r ∈ s.db.subs, k.id = 1 ∧ r.imsi = imsi1 ∧ Serves k (HlrSubscr.ofRow r) false)
    ∧ routeFind s.routes msc1 = some 1
    ∧ notices (step exCfg s (.notify imsi1 [])) = [] :=
  ⟨runWith exCfg (init {}) (exTwo ++ [.rx 1 (some ulMsg) {},
      .rx 1 (some { ulMsg with cnDomain := 1, imsi := b "001010000000002" }) {}]), ⟨_, _, rfl⟩,
    by decide +kernel, by decide +kernel, by decide +kernel, by decide +kernel⟩

/-- C33: two connections have the same name and both did a location update of the
subscriber; the notifications for both go to the first. -/
theorem c33_same_name_violated : ∃ s, Reach s ∧ s.ub = false
    ∧ (∃ r ∈ s.db.subs, r.imsi = imsi1
      ∧ (s.conns.map fun k => (k.id, decide (Serves k (HlrSubscr.ofRow r) false))) = [(1, true), (2, true)])
    ∧ notices (step exCfg s (.notify imsi1 [])) = [(1, INSERT_DATA), (1, INSERT_DATA)] :=
  ⟨runWith exCfg (init {}) [.db (.create imsi1 true true) [], .db (.msisdn imsi1 (some (b "1001"))) [],
      .connect, .ccm 1 (some msc1), .connect, .ccm 2 (some msc1),
      .rx 1 (some ulMsg) {}, .rx 2 (some ulMsg) {}], ⟨_, _, rfl⟩,
    by decide +kernel, by decide +kernel, by decide +kernel⟩

/-- Two SMSCs with a route and a default. -/
def smsCfg : Cfg :=
  { exCfg with smscs := [⟨0, b "SMSC-A"⟩, ⟨1, b "SMSC-B"⟩], smscRoutes := [(b "12", ⟨1, b "SMSC-B"⟩)], smscDefault := some ⟨0, b "SMSC-A"⟩ }

def smscA : Bytes := b "SMSC-A" ++ [0]
def smscB : Bytes := b "SMSC-B" ++ [0]

/-- MSC-1 and the two SMSCs are connected. -/
def exSms : List Ev := exTwo ++ [.connect, .ccm 3 (some smscA), .connect, .ccm 4 (some smscB), .rx 1 (some ulMsg) {}]

def moMsg (da : Bytes) : Msg where
  typ := MO_FORWARD_SM
  imsi := imsi1
  smRpMr := some 7
  smRpDaType := ODA_SMSC_ADDR
  smRpDa := da

/-- Each case of `c36_mo_routed`, `c36_mo_malformed`, `c36_mt_partial`, `c36_ready`
happens. -/
example :
    let s := runWith smsCfg (init {}) exSms
    notices (step smsCfg s (.rx 1 (some (moMsg (0x80 :: b "12"))) {})) = [(4, MO_FORWARD_SM)]
    ∧ notices (step smsCfg s (.rx 1 (some (moMsg (0x80 :: b "99"))) {})) = [(3, MO_FORWARD_SM)]
    ∧ (responses (step { smsCfg with smscDefault := none } s (.rx 1 (some (moMsg (0x80 :: b "99"))) {}))).head?
        = some (1, MO_FORWARD_SM + 1, 2)
    ∧ (responses (step smsCfg s (.rx 1 (some (moMsg [])) {}))).head? = some (1, MO_FORWARD_SM + 1, 2)
    ∧ (responses (step smsCfg s (.rx 1 (some (moMsg (b "12"))) {}))).head? = some (1, MO_FORWARD_SM + 1, 2)
    ∧ notices (step smsCfg s (.rx 3 (some { typ := MT_FORWARD_SM, imsi := imsi1 }) {})) = [(1, MT_FORWARD_SM)]
    ∧ (responses (step smsCfg s (.rx 3 (some { typ := MT_FORWARD_SM, imsi := b "001010000000009" }) {}))).head?
        = some (3, MT_FORWARD_SM + 1, 2)
    ∧ notices (step smsCfg s (.rx 1 (some { typ := READY_FOR_SM, imsi := imsi1 }) {}))
        = [(4, READY_FOR_SM), (3, READY_FOR_SM)]
    ∧ (responses (step smsCfg s (.rx 1 (some { typ := READY_FOR_SM, imsi := imsi1 }) {}))).head?
        = some (1, READY_FOR_SM + 2, 2) := by decide +kernel

/-- C36: a message for a subscriber whose MSC/VLR has a name of 40 characters is not
delivered: the sender gets a routing error although the MSC/VLR is connected. -/
theorem c36_long_name_violated : ∃ s, Reach s ∧ s.ub = false
    ∧ s.routes = [(longName ++ [0], 1), (smscA, 2)]
    ∧ s.db.subs.map (fun r => r.vlr) = [some longName]
    ∧ notices (step exCfg s (.rx 2 (some { typ := MT_FORWARD_SM, imsi := imsi1 }) {})) = []
    ∧ (responses (step exCfg s (.rx 2 (some { typ := MT_FORWARD_SM, imsi := imsi1 }) {}))).head?
        = some (2, ROUTING_ERROR, 2) :=
  ⟨runWith exCfg (init {}) [.db (.create imsi1 true true) [], .db (.msisdn imsi1 (some (b "1001"))) [],
    .connect, .ccm 1 (some (longName ++ [0])), .connect, .ccm 2 (some smscA), .rx 1 (some ulMsg) {}], ⟨_, _, rfl⟩,
    by decide +kernel, by decide +kernel, by decide +kernel, by decide +kernel, by decide +kernel⟩

end Verif.Sys.Props
