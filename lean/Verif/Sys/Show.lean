import Verif.Sys.Props9
/-!
# `show gsup-connections` (`src/hlr_vty.c`)
-/
namespace Verif.Sys
open Verif Verif.Db Verif.Gsup Verif.Hlr Verif.Sys.Props

/-- `%5u` (libc `printf`). -/
def pad5 (n : Nat) : Bytes := List.replicate (5 - (udec n).length) 32 ++ udec n

/-- `%u` of a bool. -/
def flag (x : Bool) : Bytes := if x then b "1" else b "0"

/-- show_one_conn (hlr_vty.c 378-390), with osmo_gsup_conn_ccm_get (gsup_server.c 263-271), for a connection from the address
and port `peer`.  `none`: a pointer that was never set is used, as the assertion does not notice that there is no name (the
connection has not answered the identity request yet); or the name, which is not terminated, is read beyond its end.  The end of the line
is a newline here. -/
def showConn (peer : Bytes × Nat) (k : Conn) : Option Bytes :=
  match k.ccm with
  | none => none
  | some n =>
    if (0 : UInt8) ∈ n then
      some (b " '" ++ Verif.cstr n ++ b "' from " ++ peer.1 ++ b ":" ++ pad5 peer.2 ++ b ", CS=" ++ flag k.supportsCs ++ b ", PS="
        ++ flag k.supportsPs ++ [10])
    else none

/-- show_gsup_conn (hlr_vty.c 392-403): the connections in the order of the list; `none` is undefined behaviour. -/
def showConns (peer : ConnId → Bytes × Nat) : List Conn → Option Bytes
  | [] => some []
  | k :: l => match showConn (peer k.id) k with
    | none => none
    | some t => (showConns peer l).map (t ++ ·)

/-! ## The connections, from the log -/

/-- The connections that are open, in the order in which they were made. -/
def alive : List Out → List ConnId
  | [] => []
  | .connected c :: l => alive l ++ [c]
  | .closed c :: l => (alive l).filter (fun x => !(x == c))
  | .restart :: _ => []
  | _ :: l => alive l

/-- The connection is the same, and has not lost a domain. -/
structure SameConn (k k' : Conn) : Prop where
  id : k'.id = k.id
  ccm : k'.ccm = k.ccm
  cs : k.supportsCs = true → k'.supportsCs = true
  ps : k.supportsPs = true → k'.supportsPs = true

theorem SameConn.refl (k : Conn) : SameConn k k := ⟨rfl, rfl, fun h => h, fun h => h⟩

theorem SameConn.trans {a b' c : Conn} (h : SameConn a b') (h' : SameConn b' c) : SameConn a c :=
  ⟨h'.id.trans h.id, h'.ccm.trans h.ccm, fun x => h'.cs (h.cs x), fun x => h'.ps (h.ps x)⟩

/-- The connections stay, or the process was restarted. -/
def CFr (s t : Sys) : Prop := t.nextConn = s.nextConn ∧ ((t.conns = [] ∧ alive t.log = [])
  ∨ (alive t.log = alive s.log ∧ ∃ f : Conn → Conn, t.conns = s.conns.map f ∧ ∀ k ∈ s.conns, SameConn k (f k)))

theorem CFr.same {s t : Sys} (h : t.conns = s.conns) (hl : alive t.log = alive s.log) (hn : t.nextConn = s.nextConn) : CFr s t :=
  ⟨hn, .inr ⟨hl, id, by rw [h, List.map_id], fun k _ => .refl k⟩⟩

theorem CFr.trans {s t u : Sys} (h : CFr s t) (h' : CFr t u) : CFr s u := by
  obtain ⟨hn', h'⟩ := h'
  obtain ⟨hn, h⟩ := h
  refine ⟨hn'.trans hn, ?_⟩
  rcases h' with h' | ⟨hl', f', hc', hs'⟩
  · exact .inl h'
  · rcases h with ⟨h1, h2⟩ | ⟨hl, f, hc, hs⟩
    · exact .inl ⟨by rw [hc', h1]; rfl, by rw [hl', h2]⟩
    · refine .inr ⟨hl'.trans hl, f' ∘ f, by rw [hc', hc, List.map_map], fun k hk => (hs k hk).trans (hs' _ ?_)⟩
      rw [hc]
      exact List.mem_map_of_mem hk

theorem cfr_prims (cfg : Cfg) : Prims cfg (fun _ => True) CFr where
  refl _ := .same rfl rfl rfl
  trans := CFr.trans
  db _ _ _ := .same rfl rfl rfl
  ub _ := .same rfl rfl rfl
  crash _ := ⟨rfl, .inl ⟨rfl, rfl⟩⟩
  tx _ _ _ _ := .same rfl rfl rfl
  concl _ _ _ _ := .same rfl rfl rfl
  resp s q m _ _ := by
    unfold sendReqResponse
    split
    · exact .same rfl rfl rfl
    · split <;> exact .same rfl rfl rfl
  dg _ _ _ := .same rfl rfl rfl
  pend _ _ _ := .same rfl rfl rfl
  remote _ _ _ _ _ := .same rfl rfl rfl
  remoteTx _ _ _ _ := .same rfl rfl rfl
  remoteRx _ _ _ := .same rfl rfl rfl

theorem cfr_respond (cfg : Cfg) (s : Sys) (q : Req) (m : Msg) (e f : Bool) : CFr s (respond cfg s q m e f).2 := by
  have pr := cfr_prims cfg
  unfold respond
  dsimp only
  have h1 : CFr s (if (makeResponse m q.gsup e f).1 ≠ 0 then s else sendReqResponse cfg s q (makeResponse m q.gsup e f).2) := by
    split
    · exact .same rfl rfl rfl
    · unfold sendReqResponse
      split
      · exact .same rfl rfl rfl
      · split <;> exact .same rfl rfl rfl
  split
  · exact h1.trans (.same rfl rfl rfl)
  · exact h1

theorem cfr_readCb (cfg : Cfg) (e : Env) {s : Sys} {k : Conn} {q : Req} (hk : ∀ x ∈ s.conns, x.id = k.id → x = k) :
    CFr s (readCb cfg e k q s) := by
  have pr := cfr_prims cfg
  refine pr.readCb e k trivial ?_ ?_ ?_ (fun _ _ => trivial)
  · intro ht
    refine pr.updLoc e trivial k ?_ (fun t lu _ => .same rfl rfl rfl)
    refine ⟨rfl, .inr ⟨rfl, _, rfl, ?_⟩⟩
    intro x hx
    have hid : (if q.gsup.isCs = true then ({ k with supportsCs := true } : Conn) else { k with supportsPs := true }).id = k.id := by split <;> rfl
    rw [hid]
    split
    · rename_i h
      rw [hk x hx (by simpa using h)]
      split
      · exact ⟨rfl, rfl, fun _ => rfl, id⟩
      · exact ⟨rfl, rfl, id, fun _ => rfl⟩
    · exact .refl x
  · intro ht
    exact pr.procSs (fun t l _ => .same rfl rfl rfl) e trivial ht (fun _ _ _ _ => trivial)
  · refine pr.luRx trivial (fun _ _ => trivial) (fun t lu => .same rfl rfl rfl) ?_
    intro t lu _ _ _ _
    exact cfr_respond ..

theorem cfr_rx (cfg : Cfg) (e : Env) (c : ConnId) (mo : Option Msg) {s : Sys} (hn : (s.conns.map (·.id)).Nodup) : CFr s (rx cfg e c mo s) := by
  have pr := cfr_prims cfg
  unfold rx
  split
  · exact .same rfl rfl rfl
  · rename_i k hk
    obtain ⟨hm, hid⟩ := conn?_some hk
    have hu : ∀ x ∈ s.conns, x.id = k.id → x = k := fun x hx h => by
      rcases List.mem_iff_getElem.1 hx with ⟨i, hi, rfl⟩
      rcases List.mem_iff_getElem.1 hm with ⟨j, hj, rfl⟩
      have : i = j := (List.getElem_inj (xs := s.conns.map (·.id)) (h₀ := by simpa using hi) (h₁ := by simpa using hj) hn).1 (by simpa using h)
      subst this; rfl
    dsimp only
    have h0 : ∀ rs, CFr s { s with nextReq := s.nextReq + 1, routes := rs, log := .rx s.nextReq c mo :: s.log } := fun rs => .same rfl rfl rfl
    split
    · exact .same rfl rfl rfl
    · rename_i m
      have go : ∀ rs, CFr s (readCb cfg e k (mkReq k s.nextReq m) { s with nextReq := s.nextReq + 1, routes := rs, log := .rx s.nextReq c (some m) :: s.log }) :=
        fun rs => (h0 rs).trans (cfr_readCb cfg e hu)
      split
      · exact (h0 s.routes).trans (cfr_respond ..)
      · split
        · exact (h0 s.routes).trans (pr.respondErr _ trivial _)
        · unfold connRx
          split
          · exact go s.routes
          · dsimp only
            split
            · exact (h0 _).trans (cfr_respond ..)
            · exact go _

/-- What an event other than a new, identified or closed connection does to the connections. -/
theorem step_cfr (cfg : Cfg) {s : Sys} (hn : (s.conns.map (·.id)).Nodup) {ev : Ev} (h1 : ev ≠ .connect) (h2 : ∀ c n, ev ≠ .ccm c n)
    (h3 : ∀ c, ev ≠ .close c) : CFr s (step cfg s ev) := by
  have pr := cfr_prims cfg
  unfold step
  split
  · exact .same rfl rfl rfl
  · dsimp only
    split
    · exact absurd rfl h1
    · exact absurd rfl (h2 _ _)
    · exact absurd rfl (h3 _)
    · exact cfr_rx cfg _ _ _ hn
    · exact pr.luTimeout _ (fun _ _ => trivial) (fun t lu => .same rfl rfl rfl)
    · exact pr.ssTimeout (fun t l _ => .same rfl rfl rfl) _ _ (fun _ _ _ _ => trivial)
    · exact pr.withDb (api_op trivial) (pr.refl s) (fun _ _ _ h => h)
    · refine pr.withDb (api_getByImsi _) (pr.refl s) ?_
      intro a d _ h
      split
      · exact pr.trans h (pr.notify _ _ _)
      · exact h
    · refine pr.withDb (api_getByImsi _) (pr.refl s) ?_
      intro a d _ h
      split
      · exact pr.trans h (pr.nam _ _ _ _ _)
      · exact h
    · exact (pr.remoteUp _ s (fun _ _ => trivial)).1
    · exact (pr.remoteDown _ s (fun _ _ => trivial)).1
    · exact (pr.remoteLost _ s (fun _ _ => trivial)).1
    · exact (pr.rxRemote _ _ _ s trivial (fun _ _ => trivial)).1
    · exact (pr.lookupResult _ _ _ s (fun _ _ => trivial)).1
    · exact (pr.setProxy s _ (fun _ _ => trivial)).1
    · exact pr.crash s

theorem reach_nodup {s : Sys} (h : Reach s) : (s.conns.map (·.id)).Nodup := by
  obtain ⟨P, hi, -⟩ := reach_done h
  exact hi.connNodup

theorem map_filter_ids (l : List Conn) (c : ConnId) : (l.filter (·.id != c)).map (·.id) = (l.map (·.id)).filter (fun x => !(x == c)) := by
  induction l with
  | nil => rfl
  | cons k l ih =>
    rw [List.map_cons, List.filter_cons, List.filter_cons]
    cases h : k.id == c with
    | true => simp only [bne, h, Bool.not_true]; exact ih
    | false => simp only [bne, h, Bool.not_false, if_true, List.map_cons]; exact congrArg _ ih

theorem alive_step (cfg : Cfg) {s : Sys} (hn : (s.conns.map (·.id)).Nodup) (hs : s.conns.map (·.id) = alive s.log) (ev : Ev) :
    (step cfg s ev).conns.map (·.id) = alive (step cfg s ev).log := by
  have fr : CFr s (step cfg s ev) → (step cfg s ev).conns.map (·.id) = alive (step cfg s ev).log := by
    rintro ⟨-, ⟨h1, h2⟩ | ⟨h1, f, h2, h3⟩⟩
    · rw [h1, h2]; rfl
    · rw [h1, h2, ← hs, List.map_map]
      exact List.map_congr_left (fun k hk => (h3 k hk).id)
  have hcl : ∀ c, (close s c).conns.map (·.id) = alive (close s c).log := by
    intro c
    show (s.conns.filter (·.id != c)).map (·.id) = (alive s.log).filter _
    rw [map_filter_ids, hs]
  by_cases hu : s.ub = true
  · unfold step; rw [if_pos hu]; exact hs
  cases ev with
  | connect =>
    unfold step; rw [if_neg hu]
    show (s.conns ++ [_]).map (fun k : Conn => k.id) = alive s.log ++ [s.nextConn]
    rw [List.map_append, hs]; rfl
  | ccm c n =>
    unfold step; rw [if_neg hu]
    dsimp only
    split
    · exact hs
    · rename_i k hk
      unfold ccmCb
      split
      · exact hcl _
      · exact hcl _
      · show (setConn s _).conns.map (·.id) = alive s.log
        rw [setConn_ids]; exact hs
  | close c =>
    unfold step; rw [if_neg hu]
    dsimp only
    split
    · exact hs
    · exact hcl c
  | _ => exact fr (step_cfr cfg hn (by intro h; cases h) (by intro _ _ h; cases h) (by intro _ h; cases h))

/-! ## The names -/

/-- In the history `l` the last name that connection `c` gave while it was open is `n`. -/
def Gave (d : Db) (l : List (Cfg × Ev)) (c : ConnId) (n : Bytes) : Prop :=
  ∃ l1 cfg l2, l = l1 ++ (cfg, .ccm c (some n)) :: l2 ∧ c ∈ alive (run (init d) l1).log ∧ ∀ x ∈ l2, ∀ n', x.2 ≠ .ccm c n'

/-- Connection `c` did not identify itself while it was open. -/
def Silent (d : Db) (l : List (Cfg × Ev)) (c : ConnId) : Prop :=
  ∀ l1 cfg n l2, l = l1 ++ (cfg, .ccm c n) :: l2 → c ∉ alive (run (init d) l1).log

/-- Connection `c` sent a location update request for the domain, and it was for this HLR to handle. -/
def Served (d : Db) (l : List (Cfg × Ev)) (c : ConnId) (cs : Bool) : Prop :=
  ∃ l1 cfg k m e l2, l = l1 ++ (cfg, .rx c (some m) e) :: l2 ∧ Accepted cfg (run (init d) l1) c k m ∧ Local e m (run (init d) l1)
    ∧ m.typ = UPDATE_LOCATION ∧ m.isCs = cs

theorem snoc_eq {α : Type} {l l1 l2 : List α} {x y : α} (h : l ++ [x] = l1 ++ y :: l2) :
    (l2 = [] ∧ l = l1 ∧ x = y) ∨ ∃ l3, l2 = l3 ++ [x] ∧ l = l1 ++ y :: l3 := by
  rcases List.eq_nil_or_concat l2 with rfl | ⟨l3, z, rfl⟩
  · have := List.append_inj' h rfl
    exact .inl ⟨rfl, this.1, by simpa using this.2⟩
  · have h' : l ++ [x] = (l1 ++ y :: l3) ++ [z] := by simpa using h
    have := List.append_inj' h' rfl
    exact .inr ⟨l3, by simpa using this.2.symm, this.1⟩

theorem Gave.snoc {d : Db} {l : List (Cfg × Ev)} {c : ConnId} {n : Bytes} (h : Gave d l c n) (x : Cfg × Ev) (hx : ∀ n', x.2 ≠ .ccm c n') :
    Gave d (l ++ [x]) c n := by
  obtain ⟨l1, cfg, l2, rfl, h1, h2⟩ := h
  refine ⟨l1, cfg, l2 ++ [x], by simp, h1, ?_⟩
  intro y hy
  rcases List.mem_append.1 hy with hy | hy
  · exact h2 y hy
  · cases List.mem_singleton.1 hy; exact hx

theorem Silent.snoc {d : Db} {l : List (Cfg × Ev)} {c : ConnId} (h : Silent d l c) (x : Cfg × Ev)
    (hx : ∀ n', x.2 = .ccm c n' → c ∉ alive (run (init d) l).log) : Silent d (l ++ [x]) c := by
  intro l1 cfg n l2 he
  rcases snoc_eq he with ⟨rfl, rfl, rfl⟩ | ⟨l3, rfl, rfl⟩
  · exact hx n rfl
  · exact h l1 cfg n l3 rfl

/-- Two last names are the same. -/
theorem Gave.unique {d : Db} {l : List (Cfg × Ev)} {c : ConnId} {n n' : Bytes} (h : Gave d l c n) (h' : Gave d l c n') : n = n' := by
  obtain ⟨l1, cfg, l2, rfl, -, h2⟩ := h
  obtain ⟨l1', cfg', l2', he, -, h2'⟩ := h'
  rcases List.append_eq_append_iff.1 he with ⟨a, rfl, ha⟩ | ⟨a, rfl, ha⟩
  · cases a with
    | nil => simp only [List.nil_append, List.cons.injEq, Prod.mk.injEq, Ev.ccm.injEq, Option.some.injEq] at ha; exact ha.1.2.2
    | cons y a =>
      simp only [List.cons_append, List.cons.injEq] at ha
      exact absurd rfl (h2 (cfg', .ccm c (some n')) (by rw [ha.2]; simp) (some n'))
  · cases a with
    | nil => simp only [List.nil_append, List.cons.injEq, Prod.mk.injEq, Ev.ccm.injEq, Option.some.injEq] at ha; exact ha.1.2.2.symm
    | cons y a =>
      simp only [List.cons_append, List.cons.injEq] at ha
      exact absurd rfl (h2' (cfg, .ccm c (some n)) (by rw [ha.2]; simp) (some n))

theorem Gave.not_silent {d : Db} {l : List (Cfg × Ev)} {c : ConnId} {n : Bytes} (h : Gave d l c n) : ¬ Silent d l c := by
  obtain ⟨l1, cfg, l2, rfl, h1, -⟩ := h
  intro hs
  exact hs l1 cfg (some n) l2 rfl h1

theorem reach_alive {s : Sys} (h : Reach s) : s.conns.map (·.id) = alive s.log := by
  obtain ⟨d, evs, rfl⟩ := h
  suffices hh : ∀ l : List (Cfg × Ev), (run (init d) l.reverse).conns.map (·.id) = alive (run (init d) l.reverse).log by
    have := hh evs.reverse; rwa [List.reverse_reverse] at this
  intro l
  induction l with
  | nil => rfl
  | cons x l ih =>
    rw [List.reverse_cons, run_snoc x.1]
    exact alive_step x.1 (reach_nodup ⟨d, _, rfl⟩) ih x.2

/-- What a connection knows of its name, from the history. -/
def NameOk (d : Db) (l : List (Cfg × Ev)) (k : Conn) : Prop :=
  match k.ccm with
  | none => Silent d l k.id
  | some n => Gave d l k.id n

theorem NameOk.snoc {d : Db} {l : List (Cfg × Ev)} {k k' : Conn} (h : NameOk d l k) (hid : k'.id = k.id) (hc : k'.ccm = k.ccm)
    (x : Cfg × Ev) (hx : ∀ n', x.2 ≠ .ccm k.id n') : NameOk d (l ++ [x]) k' := by
  unfold NameOk at h ⊢
  rw [hid, hc]
  split at h
  · exact h.snoc x (fun n' he => absurd he (hx n'))
  · exact h.snoc x hx

theorem run_ids_fresh {s : Sys} (h : Reach s) : ∀ k ∈ s.conns, k.id < s.nextConn := by
  obtain ⟨P, hi, -⟩ := reach_done h
  exact hi.connFresh

/-- No open connection had the next number before. -/
theorem alive_lt (d : Db) (l : List (Cfg × Ev)) : ∀ c ∈ alive (run (init d) l).log, c < (run (init d) l).nextConn := by
  intro c hc
  rw [← reach_alive ⟨d, l, rfl⟩] at hc
  obtain ⟨k, hk, rfl⟩ := List.mem_map.1 hc
  exact run_ids_fresh ⟨d, l, rfl⟩ k hk

theorem step_nextConn (cfg : Cfg) {s : Sys} (hr : Reach s) (ev : Ev) : s.nextConn ≤ (step cfg s ev).nextConn := by
  by_cases hu : s.ub = true
  · unfold step; rw [if_pos hu]; exact Nat.le_refl _
  have fr : CFr s (step cfg s ev) → s.nextConn ≤ (step cfg s ev).nextConn := fun h => Nat.le_of_eq h.1.symm
  cases ev with
  | connect => unfold step; rw [if_neg hu]; exact Nat.le_succ _
  | ccm c n =>
    unfold step; rw [if_neg hu]
    dsimp only
    split
    · exact Nat.le_refl _
    · unfold ccmCb
      split <;> exact Nat.le_refl _
  | close c =>
    unfold step; rw [if_neg hu]
    dsimp only
    split <;> exact Nat.le_refl _
  | _ => exact fr (step_cfr cfg (reach_nodup hr) (by intro h; cases h) (by intro _ _ h; cases h) (by intro _ h; cases h))

theorem run_nextConn {s : Sys} (hr : Reach s) (l : List (Cfg × Ev)) : s.nextConn ≤ (run s l).nextConn := by
  induction l generalizing s with
  | nil => exact Nat.le_refl _
  | cons x l ih => exact Nat.le_trans (step_nextConn x.1 hr x.2) (ih (hr.step x.1 x.2))

theorem silent_fresh (d : Db) (l : List (Cfg × Ev)) : Silent d l (run (init d) l).nextConn := by
  intro l1 cfg n l2 he hc
  have h1 := alive_lt d l1 _ hc
  have h2 : (run (init d) l1).nextConn ≤ (run (init d) l).nextConn := by
    rw [he, run_append]; exact run_nextConn ⟨d, l1, rfl⟩ _
  exact absurd (Nat.lt_of_lt_of_le h1 h2) (Nat.lt_irrefl _)

/-- Names, from the history. -/
theorem nameOk (d : Db) (l : List (Cfg × Ev)) (hu : (run (init d) l).ub = false) : ∀ k ∈ (run (init d) l).conns, NameOk d l k := by
  suffices hh : ∀ l : List (Cfg × Ev), (run (init d) l.reverse).ub = false → ∀ k ∈ (run (init d) l.reverse).conns, NameOk d l.reverse k by
    have := hh l.reverse; rw [List.reverse_reverse] at this; exact this hu
  clear hu l
  intro l
  induction l with
  | nil => intro _ k hk; cases hk
  | cons x l ih =>
    rw [List.reverse_cons]
    generalize l.reverse = l at ih
    obtain ⟨cfg, ev⟩ := x
    intro hu
    have hr : Reach (run (init d) l) := ⟨d, l, rfl⟩
    have hu0 : (run (init d) l).ub = false := by rw [run_append] at hu; exact run_sound hu
    have ih := ih hu0
    rw [run_snoc cfg]
    have hfr : (∀ c n, ev ≠ .ccm c n) → CFr (run (init d) l) (step cfg (run (init d) l) ev)
        → ∀ k ∈ (step cfg (run (init d) l) ev).conns, NameOk d (l ++ [(cfg, ev)]) k := by
      rintro hne ⟨-, ⟨h1, -⟩ | ⟨-, f, h2, h3⟩⟩ k hk
      · rw [h1] at hk; cases hk
      · rw [h2] at hk
        obtain ⟨k0, hk0, rfl⟩ := List.mem_map.1 hk
        exact (ih k0 hk0).snoc (h3 k0 hk0).id (h3 k0 hk0).ccm _ (fun n' => hne _ n')
    have hcl : ∀ c, (∀ c' n, ev = .ccm c' n → c' = c) → ∀ k ∈ (close (run (init d) l) c).conns, NameOk d (l ++ [(cfg, ev)]) k := by
      intro c hc k hk
      obtain ⟨h1, h2⟩ := List.mem_filter.1 hk
      refine (ih k h1).snoc rfl rfl _ ?_
      intro n' he
      have := hc _ _ he
      rw [this] at h2
      simp at h2
    cases ev with
    | connect =>
      unfold step; rw [if_neg (by simp [hu0])]
      intro k hk
      rcases List.mem_append.1 hk with hk | hk
      · exact (ih k hk).snoc rfl rfl _ (fun n' h => nomatch h)
      · cases List.mem_singleton.1 hk
        show Silent d _ _
        exact (silent_fresh d l).snoc _ (fun n' h => nomatch h)
    | ccm c n =>
      unfold step; rw [if_neg (by simp [hu0])]
      dsimp only
      split
      · rename_i hc
        intro k hk
        refine (ih k hk).snoc rfl rfl _ ?_
        intro n' he
        cases he
        have := List.find?_eq_none.1 hc k hk
        simp at this
      · rename_i k0 hk0
        obtain ⟨hm0, hid0⟩ := conn?_some hk0
        unfold ccmCb
        split
        · exact hcl _ (fun c' n' h => by cases h; exact hid0.symm)
        · exact hcl _ (fun c' n' h => by cases h; exact hid0.symm)
        · rename_i y z
          dsimp only [setConn]
          intro k hk
          obtain ⟨k1, hk1, rfl⟩ := List.mem_map.1 hk
          split
          · rename_i h
            show Gave d _ k0.id (y :: z)
            refine ⟨l, cfg, [], by rw [hid0], ?_, fun _ h => nomatch h⟩
            rw [← reach_alive hr]
            exact List.mem_map_of_mem hm0
          · rename_i h
            refine (ih k1 hk1).snoc rfl rfl _ ?_
            intro n' he
            cases he
            simp [hid0] at h
    | close c =>
      unfold step; rw [if_neg (by simp [hu0])]
      dsimp only
      split
      · intro k hk
        exact (ih k hk).snoc rfl rfl _ (fun n' h => nomatch h)
      · exact hcl c (fun _ _ h => nomatch h)
    | _ => exact hfr (fun _ _ h => nomatch h) (step_cfr cfg (reach_nodup hr) (by intro h; cases h) (by intro _ _ h; cases h) (by intro _ h; cases h))

/-! ## The domains -/

/-- The domain of a connection. -/
def Conn.dom (k : Conn) (cs : Bool) : Bool := if cs then k.supportsCs else k.supportsPs

theorem SameConn.dom {k k' : Conn} (h : SameConn k k') {cs : Bool} (hd : k.dom cs = true) : k'.dom cs = true := by
  cases cs
  · exact h.ps hd
  · exact h.cs hd

/-- Connection `c`, if it is open, serves the domain. -/
def Flagged (c : ConnId) (cs : Bool) (s : Sys) : Prop := ∀ k ∈ s.conns, k.id = c → k.dom cs = true

theorem CFr.flagged {s t : Sys} (h : CFr s t) {c : ConnId} {cs : Bool} (hf : Flagged c cs s) : Flagged c cs t := by
  rcases h with ⟨-, ⟨h1, -⟩ | ⟨-, f, h2, h3⟩⟩
  · intro k hk; rw [h1] at hk; cases hk
  · intro k hk hid
    rw [h2] at hk
    obtain ⟨k0, hk0, rfl⟩ := List.mem_map.1 hk
    exact (h3 k0 hk0).dom (hf k0 hk0 (by rw [← (h3 k0 hk0).id]; exact hid))

theorem step_flagged (cfg : Cfg) {s : Sys} (hr : Reach s) (ev : Ev) {c : ConnId} (hc : c < s.nextConn) {cs : Bool} (hf : Flagged c cs s) :
    Flagged c cs (step cfg s ev) := by
  by_cases hu : s.ub = true
  · unfold step; rw [if_pos hu]; exact hf
  have hcl : ∀ c', Flagged c cs (close s c') := fun c' k hk hid => hf k (List.mem_filter.1 hk).1 hid
  cases ev with
  | connect =>
    unfold step; rw [if_neg hu]
    intro k hk hid
    rcases List.mem_append.1 hk with hk | hk
    · exact hf k hk hid
    · cases List.mem_singleton.1 hk
      exact absurd hid (Nat.ne_of_gt hc)
  | ccm c' n =>
    unfold step; rw [if_neg hu]
    dsimp only
    split
    · exact hf
    · rename_i k0 hk0
      obtain ⟨hm0, hid0⟩ := conn?_some hk0
      unfold ccmCb
      split
      · exact hcl _
      · exact hcl _
      · dsimp only [setConn]
        intro k hk hid
        obtain ⟨k1, hk1, rfl⟩ := List.mem_map.1 hk
        split at hid
        · rename_i h
          rw [if_pos h]
          have : k0.dom cs = true := hf k0 hm0 hid
          cases cs <;> exact this
        · rename_i h
          rw [if_neg h]
          exact hf k1 hk1 hid
  | close c' =>
    unfold step; rw [if_neg hu]
    dsimp only
    split
    · exact hf
    · exact hcl c'
  | _ => exact (step_cfr cfg (reach_nodup hr) (by intro h; cases h) (by intro _ _ h; cases h) (by intro _ h; cases h)).flagged hf

theorem run_flagged {s : Sys} (hr : Reach s) (l : List (Cfg × Ev)) {c : ConnId} (hc : c < s.nextConn) {cs : Bool} (hf : Flagged c cs s) :
    Flagged c cs (run s l) := by
  induction l generalizing s with
  | nil => exact hf
  | cons x l ih => exact ih (hr.step x.1 x.2) (Nat.lt_of_lt_of_le hc (step_nextConn x.1 hr x.2)) (step_flagged x.1 hr x.2 hc hf)

theorem setConn_setConn (s : Sys) (k : Conn) : setConn (setConn s k) k = setConn s k := by
  unfold setConn
  dsimp only
  rw [List.map_map]
  congr 1
  apply List.map_congr_left
  intro x _
  dsimp only [Function.comp]
  split
  · split <;> rfl
  · rfl

/-- A location update request that is for this HLR marks its connection. -/
theorem updLoc_flagged (cfg : Cfg) (e : Env) (k : Conn) (q : Req) (s : Sys) : Flagged k.id q.gsup.isCs (rxUpdLocReq cfg e k q s) := by
  generalize hk' : (if q.gsup.isCs then ({ k with supportsCs := true } : Conn) else { k with supportsPs := true }) = k'
  have hid : k'.id = k.id := by rw [← hk']; split <;> rfl
  have hdom : k'.dom q.gsup.isCs = true := by
    rw [← hk']; unfold Conn.dom
    cases q.gsup.isCs <;> rfl
  have he : rxUpdLocReq cfg e k q s = rxUpdLocReq cfg e k q (setConn s k') := by
    unfold rxUpdLocReq
    dsimp only
    rw [hk', setConn_setConn]
  rw [he]
  have h1 : Flagged k.id q.gsup.isCs (setConn s k') := by
    intro x hx hxid
    obtain ⟨y, hy, rfl⟩ := List.mem_map.1 hx
    split at hxid
    · rename_i h; rw [if_pos h]; exact hdom
    · rename_i h; exact absurd (hxid.trans hid.symm) (by simpa using h)
  refine CFr.flagged ?_ h1
  refine (cfr_prims cfg).updLoc e trivial k ?_ (fun t lu _ => .same rfl rfl rfl)
  rw [hk', setConn_setConn]
  exact .same rfl rfl rfl

theorem served_flagged {d : Db} {l : List (Cfg × Ev)} (hu : (run (init d) l).ub = false) {c : ConnId} {cs : Bool} (h : Served d l c cs) :
    Flagged c cs (run (init d) l) := by
  obtain ⟨l1, cfg, k, m, e, l2, rfl, ha, hl, ht, rfl⟩ := h
  rw [run_append] at hu ⊢
  have hr : Reach (run (init d) l1) := ⟨d, l1, rfl⟩
  have hu1 := run_sound hu
  generalize run (init d) l1 = s at *
  obtain ⟨hm, hid⟩ := conn?_some ha.conn
  have hlt : c < s.nextConn := by rw [← hid]; exact run_ids_fresh hr k hm
  show Flagged c m.isCs (run (step cfg s (.rx c (some m) e)) l2)
  refine run_flagged (hr.step _ _) _ (Nat.lt_of_lt_of_le hlt (step_nextConn cfg hr _)) ?_
  rw [step_accepted hr hu1 ha e hl]
  unfold dispatch
  rw [mkReq_gsup, ht, if_neg (by decide), if_pos rfl]
  have := updLoc_flagged cfg e k (mkReq k s.nextReq m) (received s c k m)
  rwa [mkReq_gsup, hid] at this

end Verif.Sys
