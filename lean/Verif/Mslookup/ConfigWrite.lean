import Verif.Mslookup.ConfigProps
import Verif.Db.Invariants
/-!
# C49: writing the configuration of services and reading it back
-/
namespace Verif.Mslookup.Props
open Verif Verif.Sys Verif.Gsup Verif.Mslookup

/-- All names of MSCs are empty or made of characters that are written as they are. -/
def PlainNames (l : Services) : Prop := ∀ m ∈ l, m.name.name = []
  ∨ ∃ s : Bytes, m.name.name = s ++ [0] ∧ s.length ≤ 127 ∧ s.all plainChar = true

def Node.Plain : Node → Prop
  | .server => True
  | .msc s => s.all plainChar = true

/-- The node a command is given in has such a name. -/
def Cmd.Plain : Cmd → Prop
  | .enter n => Node.Plain n
  | .service n _ _ => Node.Plain n
  | .noService n _ => Node.Plain n
  | .noServiceAt n _ _ => Node.Plain n

theorem plain_add {l : Services} (h : PlainNames l) {n : Node} (hn : Node.Plain n) : PlainNames (mscAdd l n.ipa) := by
  unfold mscAdd
  split
  · exact h
  · intro m hm
    rcases List.mem_append.1 hm with hm | hm
    · exact h m hm
    · rw [List.mem_singleton] at hm
      subst hm
      dsimp only
      rw [Node.ipa_name]
      cases n with
      | server => exact .inl rfl
      | msc s =>
        refine .inr ⟨s.take 127, rfl, List.length_take_le _ _, ?_⟩
        rw [List.all_eq_true]
        intro x hx
        exact List.all_eq_true.1 hn x (List.mem_of_mem_take hx)

theorem onMsc_names {n : IpaName} {f : MscCfg → MscCfg} (hf : ∀ m, (f m).name = m.name) (l : Services) :
    ∀ m ∈ onMsc n f l, ∃ m' ∈ l, m.name = m'.name := by
  induction l with
  | nil => intro m hm; cases hm
  | cons x l ih =>
    intro m hm
    unfold onMsc at hm
    split at hm
    · rcases List.mem_cons.1 hm with rfl | hm
      · exact ⟨x, List.mem_cons_self, hf x⟩
      · exact ⟨m, List.mem_cons_of_mem _ hm, rfl⟩
    · rcases List.mem_cons.1 hm with rfl | hm
      · exact ⟨m, List.mem_cons_self, rfl⟩
      · obtain ⟨m', h1, h2⟩ := ih m hm
        exact ⟨m', List.mem_cons_of_mem _ h1, h2⟩

theorem plain_exec {l : Services} (h : PlainNames l) {c : Cmd} (hc : Cmd.Plain c) : PlainNames (c.exec l).2 := by
  have key : ∀ n : Node, Node.Plain n → ∀ f : MscCfg → Int × MscCfg, (∀ m, (f m).2.name = m.name) →
      PlainNames (atMsc l n.ipa f).2 := by
    intro n hn f hf
    unfold atMsc
    dsimp only
    split
    · exact plain_add h hn
    · intro m hm
      obtain ⟨m', h1, h2⟩ := onMsc_names hf _ m hm
      rw [h2]
      exact plain_add h hn m' h1
  cases c with
  | enter n =>
    cases n with
    | server => exact h
    | msc s => exact plain_add h hc
  | service n svc a =>
    unfold Cmd.exec
    dsimp only
    split
    · exact plain_add h hc
    · exact key n hc _ fun m => serviceSet_name m svc a
  | noService n svc => exact key n hc _ fun _ => rfl
  | noServiceAt n svc a =>
    unfold Cmd.exec
    dsimp only
    split
    · exact plain_add h hc
    · exact key n hc _ fun _ => rfl

theorem plain_execAll {l : Services} (h : PlainNames l) {cs : List Cmd} (hc : ∀ c ∈ cs, Cmd.Plain c) :
    PlainNames (execAll l cs).2 := by
  induction cs generalizing l with
  | nil => exact h
  | cons c cs ih =>
    exact ih (plain_exec h (hc c List.mem_cons_self)) fun x hx => hc x (List.mem_cons_of_mem _ hx)

theorem escape_plain (esc : UInt8 → Bytes) {s : Bytes} (h : s.all plainChar = true) : escape esc s = s := by
  unfold escape
  induction s with
  | nil => rfl
  | cons c s ih =>
    rw [List.all_cons, Bool.and_eq_true] at h
    rw [List.flatMap_cons, ih h.2, if_pos h.1]
    rfl

/-- The text written for a plain name is read back as that name. -/
theorem key_text (esc : UInt8 → Bytes) {n : IpaName} (hw : n.WF) {s : Bytes} (h : n.name = s ++ [0])
    (hl : s.length ≤ 127) (hp : s.all plainChar = true) : Spec.key (.msc (nameText esc n)) = n.name := by
  have hlen : n.len = s.length + 1 := by rw [← hw.name_length, h]; simp
  have hv : n.val = (s ++ [0]) ++ n.val.drop n.len := by
    rw [← h]; exact (List.take_append_drop n.len n.val).symm
  have h0 : n.val.getD (n.len - 1) 0 = 0 := by
    rw [hv, hlen]
    simp
  have ht : n.val.take (n.len - 1) = s := by
    rw [hv, hlen]
    simp
  unfold nameText
  rw [if_neg (by omega), if_pos h0, ht, escape_plain esc hp, h]
  show s.take 127 ++ [0] = _
  rw [List.take_of_length_le hl]

/-- A command that sets a valid service, or enters a node. -/
def Sets : Cmd → Prop
  | .enter _ => True
  | .service _ svc a => svc ≠ [] ∧ svc.length ≤ 64 ∧ a.ip ≠ 0 ∧ a.port ≠ 0
  | _ => False

theorem run_sets {w : List Cmd} (hw : ∀ c ∈ w, Sets c) (m : Spec.Map) {k svc : Bytes} {v6 : Bool} {a0 : Addr}
    (hu : ∀ n a, Cmd.service n svc a ∈ w → Spec.key n = k → a.v6 = v6 → a = a0) :
    ((∃ n a, Cmd.service n svc a ∈ w ∧ Spec.key n = k ∧ a.v6 = v6) → (Spec.run m w).2 k svc v6 = some a0)
    ∧ ((¬ ∃ n a, Cmd.service n svc a ∈ w ∧ Spec.key n = k ∧ a.v6 = v6) → (Spec.run m w).2 k svc v6 = m k svc v6) := by
  induction w generalizing m with
  | nil => exact ⟨(fun ⟨_, _, h, _⟩ => by cases h), fun _ => rfl⟩
  | cons c w ih =>
    have ih := fun m => ih (fun x hx => hw x (List.mem_cons_of_mem _ hx)) m
      fun n a h => hu n a (List.mem_cons_of_mem _ h)
    have hc := hw c List.mem_cons_self
    show (_ → (Spec.run (Spec.step m c).2 w).2 k svc v6 = _) ∧ (_ → (Spec.run (Spec.step m c).2 w).2 k svc v6 = _)
    obtain ⟨i1, i2⟩ := ih (Spec.step m c).2
    by_cases hm : ∃ n a, c = Cmd.service n svc a ∧ Spec.key n = k ∧ a.v6 = v6
    · obtain ⟨n, a, rfl, hk, hv⟩ := hm
      refine ⟨fun _ => ?_, fun h => absurd ⟨n, a, List.mem_cons_self, hk, hv⟩ h⟩
      by_cases hr : ∃ n a, Cmd.service n svc a ∈ w ∧ Spec.key n = k ∧ a.v6 = v6
      · exact i1 hr
      · rw [i2 hr]
        have hs : Spec.step m (.service n svc a) = (true, Spec.put m (Spec.key n) svc a.v6 (some a)) := if_pos hc
        rw [hs]
        unfold Spec.put
        dsimp only
        rw [if_pos ⟨hk.symm, rfl, hv.symm⟩, hu n a List.mem_cons_self hk hv]
    · have hsame : (Spec.step m c).2 k svc v6 = m k svc v6 := by
        cases c with
        | enter n => rfl
        | service n s a =>
          have hs : Spec.step m (.service n s a) = (true, Spec.put m (Spec.key n) s a.v6 (some a)) := if_pos hc
          rw [hs]
          unfold Spec.put
          dsimp only
          rw [if_neg]
          rintro ⟨h1, rfl, h3⟩
          exact hm ⟨n, a, rfl, h1.symm, h3.symm⟩
        | noService n s => cases hc
        | noServiceAt n s a => cases hc
      constructor
      · rintro ⟨n, a, h1, h2, h3⟩
        rcases List.mem_cons.1 h1 with rfl | h1
        · exact absurd ⟨n, a, rfl, h2, h3⟩ hm
        · exact i1 ⟨n, a, h1, h2, h3⟩
      · intro h
        rw [i2 fun ⟨n, a, h1, h2⟩ => h ⟨n, a, List.mem_cons_of_mem _ h1, h2⟩, hsame]

theorem reports_sets {l : Services} (hl : CfgOk l) {m : Spec.Map} (hm : Holds l m) {w : List Cmd} (hw : ∀ c ∈ w, Sets c) :
    ∀ r ∈ (execAll l w).1, r = true := by
  induction w generalizing l m with
  | nil => intro r hr; cases hr
  | cons c w ih =>
    intro r hr
    have hc := hw c List.mem_cons_self
    have he := exec_holds hl hm c
    rcases List.mem_cons.1 hr with rfl | hr
    · cases c with
      | enter n => rfl
      | service n s a =>
        rw [he.2 trivial]
        have hs : Spec.step m (.service n s a) = (true, Spec.put m (Spec.key n) s a.v6 (some a)) := if_pos hc
        rw [hs]
      | noService n s => cases hc
      | noServiceAt n s a => cases hc
    · exact ih (Cmd.exec_ok hl c) he.1 (fun x hx => hw x (List.mem_cons_of_mem _ hx)) r hr

theorem mem_writeHosts {n : Node} {hs : List Host} {c : Cmd} :
    c ∈ writeHosts n hs ↔ ∃ h ∈ hs, ∃ v6 a, offer h v6 = some a ∧ c = .service n h.service a := by
  unfold writeHosts
  rw [List.mem_flatMap]
  refine exists_congr fun h => and_congr_right fun _ => ?_
  rw [List.mem_append]
  have e4 : offer h false = if h.v4.nonzero then some h.v4 else none := by
    unfold offer
    simp only [Bool.false_eq_true, if_false]
    by_cases hz : h.v4.nonzero = true
    · rw [if_pos ((nonzero_iff _).1 hz), if_pos hz]
    · rw [if_neg (fun e => hz ((nonzero_iff _).2 e)), if_neg hz]
  have e6 : offer h true = if h.v6.nonzero then some h.v6 else none := by
    unfold offer
    simp only [if_true]
    by_cases hz : h.v6.nonzero = true
    · rw [if_pos ((nonzero_iff _).1 hz), if_pos hz]
    · rw [if_neg (fun e => hz ((nonzero_iff _).2 e)), if_neg hz]
  constructor
  · rintro (hc | hc)
    · split at hc
      · rename_i hz
        rw [List.mem_singleton] at hc
        exact ⟨false, h.v4, by rw [e4, if_pos hz], hc⟩
      · cases hc
    · split at hc
      · rename_i hz
        rw [List.mem_singleton] at hc
        exact ⟨true, h.v6, by rw [e6, if_pos hz], hc⟩
      · cases hc
  · rintro ⟨v6, a, ho, rfl⟩
    cases v6
    · rw [e4] at ho
      split at ho
      · cases ho; exact .inl (by rename_i hz; rw [if_pos hz]; exact List.mem_singleton_self _)
      · cases ho
    · rw [e6] at ho
      split at ho
      · cases ho; exact .inr (by rename_i hz; rw [if_pos hz]; exact List.mem_singleton_self _)
      · cases ho

/-- The node the commands for an MSC are written in. -/
def nodeFor (esc : UInt8 → Bytes) (m : MscCfg) : Node := if m.name.name = [] then .server else .msc (nameText esc m.name)

theorem key_nodeFor (esc : UInt8 → Bytes) {l : Services} (hl : CfgOk l) (hp : PlainNames l) {m : MscCfg} (hm : m ∈ l) :
    Spec.key (nodeFor esc m) = m.name.name := by
  unfold nodeFor
  split
  · rename_i h; exact h.symm
  · rename_i h
    rcases hp m hm with h' | ⟨s, h1, h2, h3⟩
    · exact absurd h' h
    · exact key_text esc (hl.mscs m hm).wf h1 h2 h3

theorem mem_write (esc : UInt8 → Bytes) {l : Services} (hl : CfgOk l) {n : Node} {svc : Bytes} {a : Addr} :
    Cmd.service n svc a ∈ writeServices esc l ↔
      ∃ m ∈ l, n = nodeFor esc m ∧ ∃ h ∈ m.hosts, svc = h.service ∧ ∃ v6, offer h v6 = some a := by
  have hcmp : ∀ m ∈ l, (ipaCmp {} m.name ≠ 0 ↔ m.name.name ≠ []) := by
    intro m hm
    rw [ne_eq, Gsup.Props.c25_cmp_eq empty_wf (hl.mscs m hm).wf]
    exact not_congr ⟨fun h => h.symm, fun h => h.symm⟩
  unfold writeServices
  rw [List.mem_append, List.mem_flatMap]
  constructor
  · rintro (h | ⟨m, hm, h⟩)
    · split at h
      · rename_i m hg
        obtain ⟨x, hx, v6, a', ho, he⟩ := mem_writeHosts.1 h
        cases he
        obtain ⟨h1, h2⟩ := mscGet_mem hg
        have hn : m.name.name = [] := (Gsup.Props.c25_cmp_eq (hl.mscs m h1).wf empty_wf).1 h2
        exact ⟨m, h1, by rw [nodeFor, if_pos hn], x, hx, rfl, v6, ho⟩
      · cases h
    · rw [List.mem_filter] at hm
      obtain ⟨hm, hne⟩ := hm
      have hne : m.name.name ≠ [] := (hcmp m hm).1 (by simpa using hne)
      rcases List.mem_cons.1 h with h | h
      · cases h
      · obtain ⟨x, hx, v6, a', ho, he⟩ := mem_writeHosts.1 h
        cases he
        exact ⟨m, hm, by rw [nodeFor, if_neg hne], x, hx, rfl, v6, ho⟩
  · rintro ⟨m, hm, rfl, x, hx, rfl, v6, ho⟩
    by_cases hn : m.name.name = []
    · refine .inl ?_
      have hg : mscGet l {} = some m := by
        rw [mscGet_eq (wfs hl) empty_wf]
        cases hf : l.find? (fun m => decide (m.name.name = ({} : IpaName).name)) with
        | none =>
          rw [List.find?_eq_none] at hf
          exact absurd (hf m hm) (by simp [hn]; rfl)
        | some y =>
          have h1 := List.find?_some hf
          have h1 : y.name.name = ({} : IpaName).name := by simpa using h1
          rw [Db.eq_of_nodup_map hl.nodup (List.mem_of_find?_eq_some hf) hm (h1.trans (hn.symm ▸ rfl))]
      rw [hg]
      dsimp only
      rw [nodeFor, if_pos hn]
      exact mem_writeHosts.2 ⟨x, hx, v6, a, ho, rfl⟩
    · refine .inr ⟨m, List.mem_filter.2 ⟨hm, by simpa using (hcmp m hm).2 hn⟩, List.mem_cons_of_mem _ ?_⟩
      rw [nodeFor, if_neg hn]
      exact mem_writeHosts.2 ⟨x, hx, v6, a, ho, rfl⟩

theorem write_sets (esc : UInt8 → Bytes) {l : Services} (hl : CfgOk l) : ∀ c ∈ writeServices esc l, Sets c := by
  have key : ∀ n (hs : List Host), (∀ h ∈ hs, h.Ok) → ∀ c ∈ writeHosts n hs, Sets c := by
    intro n hs hk c hc
    obtain ⟨h, hh, v6, a, ho, rfl⟩ := mem_writeHosts.1 hc
    exact ⟨(hk h hh).2.2.2.1, (hk h hh).2.2.2.2, (offer_some ho).2⟩
  intro c hc
  unfold writeServices at hc
  rcases List.mem_append.1 hc with hc | hc
  · split at hc
    · rename_i m hg
      exact key _ _ (hl.mscs m (mscGet_mem hg).1).hosts c hc
    · cases hc
  · obtain ⟨m, hm, hc⟩ := List.mem_flatMap.1 hc
    rcases List.mem_cons.1 hc with rfl | hc
    · trivial
    · exact key _ _ (hl.mscs m (List.mem_filter.1 hm).1).hosts c hc

theorem offer_family {h : Host} (hk : h.Ok) {v6 : Bool} {a : Addr} (ho : offer h v6 = some a) : a.v6 = v6 := by
  obtain ⟨h1, h2⟩ := offer_some ho
  cases v6
  · exact h1 ▸ hk.2.1
  · have h1 : h.v6 = a := h1
    rw [← h1] at h2 ⊢
    exact hk.2.2.1 ((nonzero_iff _).2 h2)

/-- What the server finds, as entries of the lists. -/
theorem view_iff {l : Services} (hl : CfgOk l) {n : IpaName} (hn : n.WF) {svc : Bytes} {v6 : Bool} {a : Addr} :
    Spec.view l n svc v6 = some a ↔
      ∃ m ∈ l, m.name.name = n.name ∧ ∃ h ∈ m.hosts, h.service = svc ∧ offer h v6 = some a := by
  rw [view_eq]
  unfold serviceGet hostGet
  constructor
  · intro h
    obtain ⟨x, h1, h2⟩ := Option.bind_eq_some_iff.1 h
    obtain ⟨m, h3, h4⟩ := Option.bind_eq_some_iff.1 h1
    obtain ⟨h5, h6⟩ := mscGet_mem h3
    have h7 := List.find?_some h4
    exact ⟨m, h5, (Gsup.Props.c25_cmp_eq (hl.mscs m h5).wf hn).1 h6, x, List.mem_of_find?_eq_some h4, by simpa using h7, h2⟩
  · rintro ⟨m, hm, hq, x, hx, rfl, ho⟩
    have h1 : mscGet l n = some m := by
      rw [mscGet_eq (wfs hl) hn]
      cases hf : l.find? (fun m => decide (m.name.name = n.name)) with
      | none =>
        rw [List.find?_eq_none] at hf
        exact absurd (hf m hm) (by simp [hq])
      | some y =>
        have h1 := List.find?_some hf
        have h1 : y.name.name = n.name := by simpa using h1
        rw [Db.eq_of_nodup_map hl.nodup (List.mem_of_find?_eq_some hf) hm (h1.trans hq.symm)]
    rw [h1]
    show (m.hosts.find? _).bind _ = _
    have h2 : m.hosts.find? (·.service == x.service) = some x := by
      cases hf : m.hosts.find? (·.service == x.service) with
      | none =>
        rw [List.find?_eq_none] at hf
        exact absurd (hf x hx) (by simp)
      | some y =>
        have h1 := List.find?_some hf
        have h1 : y.service = x.service := by simpa using h1
        rw [Db.eq_of_nodup_map (hl.mscs m hm).nodup (List.mem_of_find?_eq_some hf) hx h1]
    rw [h2]
    exact ho

theorem reload {l : Services} (hl : CfgOk l) (hp : PlainNames l) (esc : UInt8 → Bytes) {n : IpaName} (hn : n.WF)
    (svc : Bytes) (v6 : Bool) :
    Spec.view (execAll [] (writeServices esc l)).2 n svc v6 = Spec.view l n svc v6 := by
  rw [c42_map (writeServices esc l) n hn]
  have hw := write_sets esc hl
  -- every command for this key carries the address the server finds
  have huniq : ∀ k a, Cmd.service k svc a ∈ writeServices esc l → Spec.key k = n.name → a.v6 = v6 →
      Spec.view l n svc v6 = some a := by
    intro k a hc hk hv
    obtain ⟨m, hm, rfl, h, hh, rfl, f, ho⟩ := (mem_write esc hl).1 hc
    rw [key_nodeFor esc hl hp hm] at hk
    have hf := offer_family ((hl.mscs m hm).hosts h hh) ho
    rw [hv] at hf
    subst hf
    exact (view_iff hl hn).2 ⟨m, hm, hk, h, hh, rfl, ho⟩
  cases hv : Spec.view l n svc v6 with
  | none =>
    refine (run_sets hw emptyMap (a0 := {}) ?_).2 ?_
    · intro k a h1 h2 h3
      rw [huniq k a h1 h2 h3] at hv
      cases hv
    · rintro ⟨k, a, h1, h2, h3⟩
      rw [huniq k a h1 h2 h3] at hv
      cases hv
  | some a0 =>
    refine (run_sets hw emptyMap (a0 := a0) ?_).1 ?_
    · intro k a h1 h2 h3
      rw [huniq k a h1 h2 h3] at hv
      exact Option.some.inj hv
    · obtain ⟨m, hm, hq, h, hh, hs, ho⟩ := (view_iff hl hn).1 hv
      exact ⟨nodeFor esc m, a0, (mem_write esc hl).2 ⟨m, hm, rfl, h, hh, hs.symm, v6, ho⟩,
        (key_nodeFor esc hl hp hm).trans hq, offer_family ((hl.mscs m hm).hosts h hh) ho⟩

/-- C49: a configuration made of MSC names with ordinary characters survives being written
and read back: no written command is refused and the server finds the same addresses. -/
theorem c49_reload_partial (cs : List Cmd) (hc : ∀ c ∈ cs, Cmd.Plain c) (esc : UInt8 → Bytes) :
    (∀ r ∈ (execAll [] (writeServices esc (execAll [] cs).2)).1, r = true)
    ∧ ∀ n : IpaName, n.WF → ∀ svc v6,
      Spec.view (execAll [] (writeServices esc (execAll [] cs).2)).2 n svc v6 = Spec.view (execAll [] cs).2 n svc v6 := by
  have hl := execAll_ok nil_ok cs
  refine ⟨reports_sets nil_ok holds_nil (write_sets esc hl), fun n hn svc v6 => ?_⟩
  exact reload hl (plain_execAll (fun _ h => by cases h) hc) esc hn svc v6

example : (∀ c ∈ exCmds, Cmd.Plain c)
    ∧ writeServices (fun _ => []) (execAll [] exCmds).2
      = [.service .server (b "sip.voice") a4, .enter (.msc (b "msc-1")), .service (.msc (b "msc-1")) (b "sip.voice") b4,
         .service (.msc (b "msc-1")) (b "sip.voice") a6] := by
  refine ⟨?_, by decide +kernel⟩
  intro c hc
  simp only [exCmds, List.mem_cons, List.not_mem_nil, or_false] at hc
  rcases hc with rfl | rfl | rfl | rfl | rfl | rfl | rfl | rfl
  · trivial
  · show (b "msc-1").all plainChar = true; decide +kernel
  · show (b "msc-1").all plainChar = true; decide +kernel
  · show (b "msc-1").all plainChar = true; decide +kernel
  · trivial
  · trivial
  · show (b "msc-1").all plainChar = true; decide +kernel
  · trivial

/-- osmo_escape_str() puts a backslash before a double quote or a backslash. -/
def quoteEsc (c : UInt8) : Bytes := [92, c]

/-- C49 fails for a name with a double quote: it is written with a backslash, which becomes
part of the name when it is read back. -/
theorem c49_reload_violated : ∃ (cs : List Cmd) (n : IpaName) (svc : Bytes), n.WF
    ∧ Spec.view (execAll [] cs).2 n svc false = some a4
    ∧ Spec.view (execAll [] (writeServices quoteEsc (execAll [] cs).2)).2 n svc false = none :=
  ⟨[.service (.msc [109, 34]) [115] a4], (Node.msc [109, 34]).ipa, [115], Node.ipa_wf _,
    by decide +kernel, by decide +kernel⟩

end Verif.Mslookup.Props
