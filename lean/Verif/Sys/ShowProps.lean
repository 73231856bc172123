import Verif.Sys.Show
/-!
# C77: `show gsup-connections`
-/
namespace Verif.Sys.Props
open Verif Verif.Db Verif.Gsup Verif.Hlr Verif.Sys

/-- The line about a node of name `n`, connected from `peer`, serving the domains. -/
def line (n : Bytes) (peer : Bytes × Nat) (cs ps : Bool) : Bytes :=
  b " '" ++ n ++ b "' from " ++ peer.1 ++ b ":" ++ pad5 peer.2 ++ b ", CS=" ++ (if cs then b "1" else b "0") ++ b ", PS="
    ++ (if ps then b "1" else b "0") ++ b "\n"

example : line (b "MSC-1") (b "10.0.0.5", 4222) true false = b " 'MSC-1' from 10.0.0.5: 4222, CS=1, PS=0\n"
    ∧ line (b "MSC-1") (b "10.0.0.5", 65535) false true = b " 'MSC-1' from 10.0.0.5:65535, CS=0, PS=1\n"
    ∧ line (b "MSC-1") (b "10.0.0.5", 7) false false = b " 'MSC-1' from 10.0.0.5:    7, CS=0, PS=0\n" := by decide +kernel

/-- C77: the connections the list is made from are those that were made and not closed since, in the order in which they were made; a
restart closes all. -/
theorem c77_listed {s : Sys} (h : Reach s) : s.conns.map (·.id) = alive s.log ∧ (alive s.log).Nodup :=
  ⟨reach_alive h, reach_alive h ▸ reach_nodup h⟩

/-- C77: what `alive` is: a connection is open exactly if it was made and since then was not closed and the process not restarted. -/
theorem c77_alive (c : ConnId) (log : List Out) : c ∈ alive log ↔
    ∃ l1 l2, log = l1 ++ .connected c :: l2 ∧ .closed c ∉ l1 ∧ .restart ∉ l1 := by
  induction log with
  | nil => simp [alive]
  | cons o l ih =>
    have other : (alive (o :: l) = alive l) → o ≠ .closed c → o ≠ .restart → o ≠ .connected c →
        (c ∈ alive (o :: l) ↔ ∃ l1 l2, o :: l = l1 ++ .connected c :: l2 ∧ .closed c ∉ l1 ∧ .restart ∉ l1) := by
      intro he h1 h2 h3
      rw [he, ih]
      constructor
      · rintro ⟨l1, l2, rfl, h4, h5⟩
        exact ⟨o :: l1, l2, rfl, by simp [h4, Ne.symm h1], by simp [h5, Ne.symm h2]⟩
      · rintro ⟨l1, l2, he, h4, h5⟩
        cases l1 with
        | nil => simp only [List.nil_append, List.cons.injEq] at he; exact absurd he.1 h3
        | cons y l1 =>
          simp only [List.cons_append, List.cons.injEq] at he
          exact ⟨l1, l2, he.2, fun h => h4 (List.mem_cons_of_mem _ h), fun h => h5 (List.mem_cons_of_mem _ h)⟩
    cases o with
    | connected c' =>
      by_cases hc : c' = c
      · subst hc
        constructor
        · intro _; exact ⟨[], l, rfl, by simp, by simp⟩
        · intro _; simp [alive]
      · have e : c ∈ alive (.connected c' :: l) ↔ c ∈ alive l := by simp [alive, Ne.symm hc]
        rw [e, ih]
        constructor
        · rintro ⟨l1, l2, rfl, h4, h5⟩
          exact ⟨.connected c' :: l1, l2, rfl, by simp [h4], by simp [h5]⟩
        · rintro ⟨l1, l2, he, h4, h5⟩
          cases l1 with
          | nil => simp only [List.nil_append, List.cons.injEq, Out.connected.injEq] at he; exact absurd he.1 hc
          | cons y l1 =>
            simp only [List.cons_append, List.cons.injEq] at he
            exact ⟨l1, l2, he.2, fun h => h4 (List.mem_cons_of_mem _ h), fun h => h5 (List.mem_cons_of_mem _ h)⟩
    | closed c' =>
      by_cases hc : c' = c
      · subst hc
        constructor
        · intro h; simp [alive] at h
        · rintro ⟨l1, l2, he, h4, h5⟩
          cases l1 with
          | nil => simp at he
          | cons y l1 => simp only [List.cons_append, List.cons.injEq] at he; exact absurd (by rw [he.1]; simp) h4
      · have e : c ∈ alive (.closed c' :: l) ↔ c ∈ alive l := by simp [alive, Ne.symm hc]
        rw [e, ih]
        constructor
        · rintro ⟨l1, l2, rfl, h4, h5⟩
          exact ⟨.closed c' :: l1, l2, rfl, by simp [h4, Ne.symm hc], by simp [h5]⟩
        · rintro ⟨l1, l2, he, h4, h5⟩
          cases l1 with
          | nil => simp at he
          | cons y l1 =>
            simp only [List.cons_append, List.cons.injEq] at he
            exact ⟨l1, l2, he.2, fun h => h4 (List.mem_cons_of_mem _ h), fun h => h5 (List.mem_cons_of_mem _ h)⟩
    | restart =>
      constructor
      · intro h; cases h
      · rintro ⟨l1, l2, he, h4, h5⟩
        cases l1 with
        | nil => simp at he
        | cons y l1 => simp only [List.cons_append, List.cons.injEq] at he; exact absurd (by rw [he.1]; simp) h5
    | _ => exact other rfl (by intro h; cases h) (by intro h; cases h) (by intro h; cases h)

/-- C77: the name kept of a connection is the last one it gave; it has none as long as it gave none. -/
theorem c77_name (d : Db) (l : List (Cfg × Ev)) (hu : (run (init d) l).ub = false) {k : Conn} (hk : k ∈ (run (init d) l).conns) :
    (k.ccm = none ↔ Silent d l k.id) ∧ ∀ n, k.ccm = some n ↔ Gave d l k.id n := by
  have h := nameOk d l hu k hk
  unfold NameOk at h
  split at h
  · rename_i hc
    rw [hc]
    exact ⟨⟨fun _ => h, fun _ => rfl⟩, fun n => ⟨fun hn => (nomatch hn), fun hn => absurd h hn.not_silent⟩⟩
  · rename_i n' hc
    rw [hc]
    exact ⟨⟨fun hn => (nomatch hn), fun hs => absurd hs h.not_silent⟩, fun n => ⟨fun hn => by cases hn; exact h, fun hn => by rw [h.unique hn]⟩⟩

/-- C77: a connection on which a location update request was handled by this HLR is shown with the domain; one that is shown with a
domain has sent such a request. -/
theorem c77_domains (d : Db) (l : List (Cfg × Ev)) (hu : (run (init d) l).ub = false) {k : Conn} (hk : k ∈ (run (init d) l).conns) :
    (Served d l k.id true → k.supportsCs = true) ∧ (Served d l k.id false → k.supportsPs = true)
    ∧ (k.supportsCs = true → ∃ nr m, .rx nr k.id (some m) ∈ (run (init d) l).log ∧ m.typ = UPDATE_LOCATION ∧ m.isCs = true)
    ∧ (k.supportsPs = true → ∃ nr m, .rx nr k.id (some m) ∈ (run (init d) l).log ∧ m.typ = UPDATE_LOCATION ∧ m.isCs = false) :=
  ⟨fun h => served_flagged hu h k hk rfl, fun h => served_flagged hu h k hk rfl, c33_serving_domains ⟨d, l, rfl⟩ hk⟩

/-- The lines, from the connections. -/
theorem showConns_lines (peer : ConnId → Bytes × Nat) (nm : ConnId → Bytes) (cs ps : ConnId → Bool) (l : List Conn)
    (h : ∀ k ∈ l, ∃ w, NoNul (nm k.id) ∧ k.ccm = some (nm k.id ++ 0 :: w) ∧ cs k.id = k.supportsCs ∧ ps k.id = k.supportsPs) :
    showConns peer l = some ((l.map (·.id)).flatMap fun c => line (nm c) (peer c) (cs c) (ps c)) := by
  induction l with
  | nil => rfl
  | cons k l ih =>
    obtain ⟨w, h1, h2, h3, h4⟩ := h k (by simp)
    have hs : showConn (peer k.id) k = some (line (nm k.id) (peer k.id) (cs k.id) (ps k.id)) := by
      unfold showConn
      rw [h2]
      dsimp only
      rw [if_pos (by simp), show Verif.cstr (nm k.id ++ 0 :: w) = nm k.id from cstr_terminated h1 rfl, h3, h4]
      rfl
    unfold showConns
    rw [hs, ih (fun k hk => h k (List.mem_cons_of_mem _ hk))]
    rfl

theorem find_id {l : List Conn} (hn : (l.map (·.id)).Nodup) {k : Conn} (hk : k ∈ l) : l.find? (·.id == k.id) = some k := by
  induction l with
  | nil => cases hk
  | cons a l ih =>
    rw [List.map_cons, List.nodup_cons] at hn
    rw [List.find?_cons]
    rcases List.mem_cons.1 hk with rfl | hk
    · rw [beq_self_eq_true]
    · have : (a.id == k.id) = false := by
        rw [beq_eq_false_iff_ne]
        intro h
        exact hn.1 (by rw [h]; exact List.mem_map_of_mem hk)
      rw [this]
      exact ih hn.2 hk

/-- C77, where every open connection has identified itself with a terminated name: there is one line for each open connection, in the
order in which they were made, with the name given last, the address and port, and the domains; a domain is shown if a location update
request for it was handled here, and only if one was received on that connection.
Missing: a connection that has not identified itself, or whose name is not terminated (see the violations below). -/
theorem c77_shown_partial (d : Db) (l : List (Cfg × Ev)) (hu : (run (init d) l).ub = false) (peer : ConnId → Bytes × Nat) (nm : ConnId → Bytes)
    (hn : ∀ c ∈ alive (run (init d) l).log, NoNul (nm c) ∧ ∃ w, Gave d l c (nm c ++ 0 :: w)) :
    ∃ cs ps : ConnId → Bool,
      showConns peer (run (init d) l).conns
        = some ((alive (run (init d) l).log).flatMap fun c => line (nm c) (peer c) (cs c) (ps c))
      ∧ ∀ c ∈ alive (run (init d) l).log,
        (Served d l c true → cs c = true) ∧ (Served d l c false → ps c = true)
        ∧ (cs c = true → ∃ nr m, .rx nr c (some m) ∈ (run (init d) l).log ∧ m.typ = UPDATE_LOCATION ∧ m.isCs = true)
        ∧ (ps c = true → ∃ nr m, .rx nr c (some m) ∈ (run (init d) l).log ∧ m.typ = UPDATE_LOCATION ∧ m.isCs = false) := by
  have hr : Reach (run (init d) l) := ⟨d, l, rfl⟩
  have hnd := reach_nodup hr
  have hal := reach_alive hr
  refine ⟨fun c => ((run (init d) l).conn? c).elim false (·.supportsCs), fun c => ((run (init d) l).conn? c).elim false (·.supportsPs), ?_, ?_⟩
  · rw [← hal]
    apply showConns_lines
    intro k hk
    have hm : k.id ∈ alive (run (init d) l).log := hal ▸ List.mem_map_of_mem hk
    obtain ⟨h1, w, h2⟩ := hn _ hm
    have hf : (run (init d) l).conn? k.id = some k := find_id hnd hk
    exact ⟨w, h1, ((c77_name d l hu hk).2 _).2 h2, by rw [hf]; rfl, by rw [hf]; rfl⟩
  · intro c hc
    rw [← hal] at hc
    obtain ⟨k, hk, rfl⟩ := List.mem_map.1 hc
    have hf : (run (init d) l).conn? k.id = some k := find_id hnd hk
    have := c77_domains d l hu hk
    dsimp only
    rw [hf]
    exact this

theorem showConns_none (peer : ConnId → Bytes × Nat) (l : List Conn) : showConns peer l = none
    ↔ ∃ k ∈ l, k.ccm = none ∨ ∃ n, k.ccm = some n ∧ 0 ∉ n := by
  induction l with
  | nil => simp [showConns]
  | cons k l ih =>
    have hk : showConn (peer k.id) k = none ↔ (k.ccm = none ∨ ∃ n, k.ccm = some n ∧ 0 ∉ n) := by
      unfold showConn
      split
      · rename_i h; simp [h]
      · rename_i n h
        split
        · rename_i h0
          simp [h, h0]
        · rename_i h0
          simp [h, h0]
    unfold showConns
    constructor
    · intro h
      split at h
      · rename_i h1; exact ⟨k, by simp, hk.1 h1⟩
      · obtain ⟨k', hk', h'⟩ := ih.1 (by simpa using h)
        exact ⟨k', List.mem_cons_of_mem _ hk', h'⟩
    · rintro ⟨k', hk', h'⟩
      split
      · rfl
      · rename_i h1
        rcases List.mem_cons.1 hk' with rfl | hk'
        · rw [hk.2 h'] at h1; cases h1
        · rw [ih.2 ⟨k', hk', h'⟩]; rfl

/-- C77: when the behaviour of the command is undefined: exactly if an open connection has not identified itself, or the name it gave
last has no NUL. -/
theorem c77_undefined (d : Db) (l : List (Cfg × Ev)) (hu : (run (init d) l).ub = false) (peer : ConnId → Bytes × Nat) :
    showConns peer (run (init d) l).conns = none
    ↔ ∃ c ∈ alive (run (init d) l).log, Silent d l c ∨ ∃ n, Gave d l c n ∧ 0 ∉ n := by
  rw [showConns_none, ← reach_alive ⟨d, l, rfl⟩]
  constructor
  · rintro ⟨k, hk, h⟩
    have hn := c77_name d l hu hk
    refine ⟨k.id, List.mem_map_of_mem hk, ?_⟩
    rcases h with h | ⟨n, h, h0⟩
    · exact .inl (hn.1.1 h)
    · exact .inr ⟨n, (hn.2 n).1 h, h0⟩
  · rintro ⟨c, hc, h⟩
    obtain ⟨k, hk, rfl⟩ := List.mem_map.1 hc
    have hn := c77_name d l hu hk
    refine ⟨k, hk, ?_⟩
    rcases h with h | ⟨n, h, h0⟩
    · exact .inl (hn.1.2 h)
    · exact .inr ⟨n, (hn.2 n).2 h, h0⟩

/-- Where the nodes of the examples are. -/
def exPeer (c : ConnId) : Bytes × Nat := (b "10.0.0." ++ udec c, 4000 + c)

-- Three nodes connect; the first serves CS (its request is still waiting for the subscriber data), the second is gone, the third took
-- another name.
def exShow : List Ev := exTwo ++ [.rx 1 (some ulMsg) {}, .connect, .ccm 3 (some (b "MSC-3" ++ [0])), .close 2, .ccm 3 (some (b "SGSN-3" ++ [0]))]

example : (runWith exCfg (init {}) exShow).ub = false ∧ alive (runWith exCfg (init {}) exShow).log = [1, 3] := by decide +kernel

example : showConns exPeer (runWith exCfg (init {}) exShow).conns
    = some (b " 'MSC-1' from 10.0.0.1: 4001, CS=1, PS=0\n" ++ b " 'SGSN-3' from 10.0.0.3: 4003, CS=0, PS=0\n") := by decide +kernel

-- The hypotheses of `c77_shown_partial` are met.
example : (run (init {}) (exShow.map fun ev => (exCfg, ev))).ub = false
    ∧ ∀ c ∈ alive (run (init {}) (exShow.map fun ev => (exCfg, ev))).log,
      NoNul (if c = 1 then b "MSC-1" else b "SGSN-3")
      ∧ ∃ w, Gave {} (exShow.map fun ev => (exCfg, ev)) c ((if c = 1 then b "MSC-1" else b "SGSN-3") ++ 0 :: w) := by
  refine ⟨by decide +kernel, ?_⟩
  have ha : alive (run (init {}) (exShow.map fun ev => (exCfg, ev))).log = [1, 3] := by decide +kernel
  rw [ha]
  intro c hc
  have : c = 1 ∨ c = 3 := by simpa using hc
  have no : ∀ {k : ConnId} {l2 : List Ev}, (l2.all fun ev => match ev with | .ccm c' _ => c' != k | _ => true) = true →
      ∀ x ∈ l2.map (fun ev => (exCfg, ev)), ∀ n', x.2 ≠ .ccm k n' := by
    intro k l2 h x hx n' he
    obtain ⟨ev, hev, rfl⟩ := List.mem_map.1 hx
    have := List.all_eq_true.1 h ev hev
    dsimp only at he
    rw [he] at this
    simp at this
  rcases this with rfl | rfl
  · refine ⟨by unfold NoNul; decide +kernel, [], (exTwo.take 3).map (fun ev => (exCfg, ev)), exCfg,
      (exShow.drop 4).map (fun ev => (exCfg, ev)), rfl, by decide +kernel, no (by rfl)⟩
  · refine ⟨by unfold NoNul; decide +kernel, [], (exShow.take 10).map (fun ev => (exCfg, ev)), exCfg, [], rfl, by decide +kernel,
      fun _ h => nomatch h⟩

-- The first node's request is one that is handled here.
example : Served {} (exShow.map fun ev => (exCfg, ev)) 1 true :=
  ⟨exTwo.map (fun ev => (exCfg, ev)), exCfg, _, ulMsg, {}, (exShow.drop 7).map (fun ev => (exCfg, ev)), rfl,
    { conn := rfl, src := by decide, imsi := isNDigits_spec.1 (by decide +kernel), free := .inl rfl, mine := .inl rfl }, .inl rfl, rfl, by decide +kernel⟩

/-- C77: a node that has connected and not yet identified itself: the command uses a pointer that was never set. -/
theorem c77_unidentified_violated : ∃ s, Reach s ∧ s.ub = false ∧ alive s.log = [1] ∧ ∀ peer, showConns peer s.conns = none :=
  ⟨runWith exCfg (init {}) [.connect], ⟨_, _, rfl⟩, by decide +kernel, by decide +kernel, fun _ => rfl⟩

/-- C77: a node that gives its name without NUL: the command reads beyond the end of the name. -/
theorem c77_unterminated_violated : ∃ s, Reach s ∧ s.ub = false ∧ alive s.log = [1] ∧ ∀ peer, showConns peer s.conns = none :=
  ⟨runWith exCfg (init {}) [.connect, .ccm 1 (some (b "MSC-1"))], ⟨_, _, rfl⟩, by decide +kernel, by decide +kernel, fun _ => rfl⟩

end Verif.Sys.Props
