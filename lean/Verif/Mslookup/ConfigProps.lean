import Verif.Mslookup.ConfigLemmas
/-!
# C42: the service configuration is a map; C49: writing and reading it back
-/
namespace Verif.Mslookup.Props
open Verif Verif.Sys Verif.Gsup Verif.Mslookup

/-- The configuration holds what the map says. -/
def Holds (l : Services) (m : Spec.Map) : Prop := ∀ n : IpaName, n.WF → ∀ svc v6, Spec.view l n svc v6 = m n.name svc v6

theorem nonzero_iff (a : Addr) : a.nonzero = true ↔ a.ip ≠ 0 ∧ a.port ≠ 0 := by
  simp [Addr.nonzero]

/-- The address of a family an entry offers. -/
def offer (h : Host) (v6 : Bool) : Option Addr :=
  let a := if v6 then h.v6 else h.v4
  if a.ip ≠ 0 ∧ a.port ≠ 0 then some a else none

theorem view_eq (l : Services) (n : IpaName) (svc : Bytes) (v6 : Bool) :
    Spec.view l n svc v6 = (serviceGet l n svc).bind (fun h => offer h v6) := rfl

section
variable {l : Services} (h : CfgOk l)
include h

theorem wfs : ∀ m ∈ l, m.name.WF := fun m hm => (h.mscs m hm).wf

theorem view_add {n n' : IpaName} (hn : n.WF) (hn' : n'.WF) (svc : Bytes) (v6 : Bool) :
    Spec.view (mscAdd l n) n' svc v6 = Spec.view l n' svc v6 := by
  rw [view_eq, view_eq]
  unfold serviceGet
  rw [mscGet_mscAdd (wfs h) hn hn']
  split
  · rename_i hq
    have : mscGet l n' = mscGet l n := by rw [mscGet_eq (wfs h) hn', mscGet_eq (wfs h) hn, hq]
    rw [this]
    cases mscGet l n with
    | none => rfl
    | some m => rfl
  · rfl

/-- What a change of the MSC `n` is seen as. -/
theorem view_at {n n' : IpaName} (hn : n.WF) (hn' : n'.WF) {f : MscCfg → Int × MscCfg}
    (hf : ∀ m, (f m).2.name = m.name) (svc : Bytes) (v6 : Bool) :
    Spec.view (atMsc l n f).2 n' svc v6 =
      if n'.name = n.name then (hostGet (f ((mscGet l n).getD { name := n })).2 svc).bind (fun h => offer h v6)
      else Spec.view l n' svc v6 := by
  have hk := mscAdd_ok h hn
  have hg := mscGet_mscAdd (wfs h) hn hn
  rw [if_pos rfl] at hg
  unfold atMsc
  dsimp only
  rw [hg]
  dsimp only
  rw [view_eq]
  unfold serviceGet
  rw [mscGet_onMsc hf (wfs hk) hn hn']
  split
  · rw [hg]; rfl
  · exact view_add h hn hn' svc v6

theorem at_rc {n : IpaName} (hn : n.WF) (f : MscCfg → Int × MscCfg) :
    (atMsc l n f).1 = (f ((mscGet l n).getD { name := n })).1 := by
  have hg := mscGet_mscAdd (wfs h) hn hn
  rw [if_pos rfl] at hg
  unfold atMsc
  dsimp only
  rw [hg]

/-- The MSC a command works on is in order. -/
theorem msc_ok {n : IpaName} (hn : n.WF) : MscOk ((mscGet l n).getD { name := n }) := by
  cases hm : mscGet l n with
  | none => exact ⟨hn, List.nodup_nil, fun _ h => by cases h⟩
  | some m => exact h.mscs m (mscGet_mem hm).1

theorem view_msc (n : IpaName) (svc : Bytes) (v6 : Bool) :
    (hostGet ((mscGet l n).getD { name := n }) svc).bind (fun h => offer h v6) = Spec.view l n svc v6 := by
  rw [view_eq]
  unfold serviceGet
  cases mscGet l n with
  | none => rfl
  | some m => rfl
end

theorem offer_set (h : Host) (a : Addr) (ha : a.nonzero = true) (v6 : Bool) :
    offer (h.set a) v6 = if v6 = a.v6 then some a else offer h v6 := by
  have := (nonzero_iff a).1 ha
  unfold offer Host.set
  cases hv : a.v6 <;> cases v6 <;> simp [this]

theorem offer_none (svc : Bytes) (v6 : Bool) : offer { service := svc } v6 = none := by
  cases v6 <;> rfl

theorem offer_some {h : Host} {v6 : Bool} {a : Addr} (e : offer h v6 = some a) :
    (if v6 then h.v6 else h.v4) = a ∧ a.ip ≠ 0 ∧ a.port ≠ 0 := by
  unfold offer at e
  cases v6
  · simp only [Bool.false_eq_true, if_false] at e ⊢
    split at e
    · cases e; exact ⟨rfl, by assumption⟩
    · cases e
  · simp only [if_true] at e ⊢
    split at e
    · cases e; exact ⟨rfl, by assumption⟩
    · cases e

/-- What deleting an address from an entry leaves. -/
theorem offer_del {h : Host} (hk : h.Ok) (a : Addr) (ha : a.nonzero = true) (v6 : Bool) :
    (delHost h.service (some a) h).bind (fun h => offer h v6) =
      (if offer h a.v6 = some a ∧ v6 = a.v6 then none else offer h v6)
    ∧ ((delHost h.service (some a) h).isNone = true ↔ offer h a.v6 = some a ∧ offer h (!a.v6) = none) := by
  have hz := (nonzero_iff a).1 ha
  have hs : ¬ (!(h.service == h.service)) = true := by simp
  unfold delHost
  rw [if_neg hs]
  dsimp only
  have e4 := nonzero_iff h.v4
  have e6 := nonzero_iff h.v6
  obtain ⟨k1, k2, k3, -⟩ := hk
  by_cases h4 : a = h.v4
  · rw [if_pos h4]
    have hv : a.v6 = false := h4 ▸ k2
    have hz4 : h.v4.ip ≠ 0 ∧ h.v4.port ≠ 0 := h4 ▸ hz
    cases hn : h.v6.nonzero with
    | false =>
      have hn' : ¬ (h.v6.ip ≠ 0 ∧ h.v6.port ≠ 0) := fun e => by rw [e6.2 e] at hn; cases hn
      have o6 : offer h true = none := by unfold offer; simp only [if_true]; exact if_neg hn'
      have o4 : offer h false = some a := by unfold offer; simp only [Bool.false_eq_true, if_false]; rw [if_pos hz4, h4]
      cases v6 <;> simp [hv, o4, o6]
    | true =>
      have hn' := e6.1 hn
      have o6 : offer h true = some h.v6 := by unfold offer; simp only [if_true]; exact if_pos hn'
      have o4 : offer h false = some a := by unfold offer; simp only [Bool.false_eq_true, if_false]; rw [if_pos hz4, h4]
      have p4 : offer { h with v4 := {} } false = none := rfl
      have p6 : offer { h with v4 := {} } true = some h.v6 := by unfold offer; simp only [if_true]; exact if_pos hn'
      cases v6 <;> simp [hv, o4, o6, p4, p6]
  · rw [if_neg h4]
    by_cases h6 : a = h.v6
    · rw [if_pos h6]
      have hz6 : h.v6.ip ≠ 0 ∧ h.v6.port ≠ 0 := h6 ▸ hz
      have hv : a.v6 = true := by rw [h6]; exact k3 (e6.2 hz6)
      have o6 : offer h true = some a := by unfold offer; simp only [if_true]; rw [if_pos hz6, h6]
      cases hn : h.v4.nonzero with
      | false =>
        have hn' : ¬ (h.v4.ip ≠ 0 ∧ h.v4.port ≠ 0) := fun e => by rw [e4.2 e] at hn; cases hn
        have o4 : offer h false = none := by unfold offer; simp only [Bool.false_eq_true, if_false]; exact if_neg hn'
        cases v6 <;> simp [hv, o4, o6]
      | true =>
        have hn' := e4.1 hn
        have o4 : offer h false = some h.v4 := by unfold offer; simp only [Bool.false_eq_true, if_false]; exact if_pos hn'
        have p6 : offer { h with v6 := {} } true = none := rfl
        have p4 : offer { h with v6 := {} } false = some h.v4 := by
          unfold offer; simp only [Bool.false_eq_true, if_false]; exact if_pos hn'
        cases v6 <;> simp [hv, o4, o6, p4, p6]
    · rw [if_neg h6]
      have : ¬ offer h a.v6 = some a := by
        intro e
        have e := (offer_some e).1
        split at e
        · exact h6 e.symm
        · exact h4 e.symm
      simp [this]

theorem offer_ok {h : Host} (hk : h.Ok) : ∃ v6, offer h v6 ≠ none := by
  rcases hk.1 with h1 | h1
  · refine ⟨false, ?_⟩
    unfold offer
    simp only [Bool.false_eq_true, if_false]
    rw [if_pos ((nonzero_iff _).1 h1)]
    simp
  · refine ⟨true, ?_⟩
    unfold offer
    simp only [if_true]
    rw [if_pos ((nonzero_iff _).1 h1)]
    simp

/-- Is the report of a command the one it should make?  Not always that of `no service NAME
at ADDRESS` if an address of the other family is configured too. -/
def RightReport (m : Spec.Map) : Cmd → Prop
  | .noServiceAt n svc a => m (Spec.key n) svc (!a.v6) = none ∨ m (Spec.key n) svc a.v6 ≠ some a
  | _ => True

theorem exec_holds {l : Services} (h : CfgOk l) {m : Spec.Map} (hh : Holds l m) (c : Cmd) :
    Holds (c.exec l).2 (Spec.step m c).2 ∧ (RightReport m c → (c.exec l).1 = (Spec.step m c).1) := by
  cases c with
  | enter n =>
    refine ⟨?_, fun _ => rfl⟩
    cases n with
    | server => exact hh
    | msc s =>
      intro k hk svc v6
      show Spec.view (mscAdd l (Node.msc s).ipa) k svc v6 = _
      rw [view_add h (Node.msc s).ipa_wf hk]
      exact hh k hk svc v6
  | service n svc a =>
    have hn := n.ipa_wf
    unfold Cmd.exec
    dsimp only
    cases ha : a.nonzero with
    | false =>
      have ha' : ¬ (a.ip ≠ 0 ∧ a.port ≠ 0) := fun e => by rw [(nonzero_iff a).2 e] at ha; cases ha
      have hs : Spec.step m (.service n svc a) = (false, m) := by
        exact if_neg fun e => ha' e.2.2
      rw [if_pos (by rfl), hs]
      exact ⟨fun k hk s v6 => (view_add h hn hk s v6).trans (hh k hk s v6), fun _ => rfl⟩
    | true =>
      have ha' := (nonzero_iff a).1 ha
      rw [if_neg (by decide)]
      dsimp only
      rw [at_rc h hn]
      by_cases hv : svc ≠ [] ∧ svc.length ≤ 64
      · have hs : Spec.step m (.service n svc a) = (true, Spec.put m (Spec.key n) svc a.v6 (some a)) := by
          exact if_pos ⟨hv.1, hv.2, ha'⟩
        have hset : ∀ x : MscCfg, serviceSet x svc a = (0, { x with hosts := setHost svc a x.hosts }) := by
          intro x
          unfold serviceSet
          rw [if_neg, if_neg]
          · simp [ha]
          · rintro (e | e)
            · exact hv.1 (by simpa using e)
            · exact absurd hv.2 (by unfold SERVICE_MAXLEN at e; omega)
        rw [hs, hset]
        refine ⟨fun k hk s v6 => ?_, fun _ => rfl⟩
        rw [view_at h hn hk (fun x => serviceSet_name x svc a), Node.ipa_name]
        unfold Spec.put
        by_cases hq : k.name = Spec.key n
        · rw [if_pos hq, hset]
          unfold hostGet
          dsimp only
          rw [find_setHost]
          have hview : ∀ s v6, (((mscGet l n.ipa).getD { name := n.ipa }).hosts.find? (·.service == s)).bind
              (fun h => offer h v6) = m k.name s v6 := by
            intro s v6
            have := view_msc h n.ipa s v6
            rw [hh _ hn, Node.ipa_name, ← hq] at this
            exact this
          by_cases hsv : s = svc
          · subst hsv
            rw [if_pos rfl]
            show offer _ v6 = _
            rw [offer_set _ _ ha]
            by_cases hf : v6 = a.v6
            · rw [if_pos hf, if_pos ⟨hq, rfl, hf⟩]
            · rw [if_neg hf, if_neg (fun e => hf e.2.2), ← hview s v6]
              cases ((mscGet l n.ipa).getD { name := n.ipa }).hosts.find? (·.service == s) with
              | none => exact offer_none s v6
              | some x => rfl
          · rw [if_neg hsv, if_neg (fun e => hsv e.2.1)]
            exact hview s v6
        · rw [if_neg hq]
          exact (hh k hk s v6).trans (if_neg (fun e => hq e.1)).symm
      · have hs : Spec.step m (.service n svc a) = (false, m) := by
          exact if_neg fun e => hv ⟨e.1, e.2.1⟩
        have hset : ∀ x : MscCfg, serviceSet x svc a = (-EINVAL, x) := by
          intro x
          unfold serviceSet
          rw [if_pos]
          by_cases e : svc = []
          · exact .inl (by simp [e])
          · exact .inr (Nat.lt_of_not_le fun e' => hv ⟨e, e'⟩)
        rw [hs, hset]
        refine ⟨fun k hk s v6 => ?_, fun _ => rfl⟩
        rw [view_at h hn hk (fun x => serviceSet_name x svc a)]
        by_cases hq : k.name = n.ipa.name
        · rw [if_pos hq, hset]
          dsimp only
          rw [view_msc h, hh _ hn, hq]
        · rw [if_neg hq]
          exact hh k hk s v6
  | noService n svc =>
    have hn := n.ipa_wf
    have hok := msc_ok h hn
    have hview : ∀ s v6, (((mscGet l n.ipa).getD { name := n.ipa }).hosts.find? (·.service == s)).bind
        (fun h => offer h v6) = m (Spec.key n) s v6 := by
      intro s v6
      have := view_msc h n.ipa s v6
      rw [hh _ hn, Node.ipa_name] at this
      exact this
    have hdel : ∀ x : Host, x.service = svc → delHost svc none x = none := by
      intro x hx
      unfold delHost
      rw [if_neg (by simp [hx])]
    constructor
    · intro k hk s v6
      show Spec.view (atMsc l n.ipa _).2 k s v6 = Spec.put (Spec.put m _ _ _ _) _ _ _ _ _ _ _
      rw [view_at h hn hk (fun _ => rfl), Node.ipa_name]
      unfold Spec.put
      by_cases hq : k.name = Spec.key n
      · rw [if_pos hq]
        unfold hostGet serviceDel
        dsimp only
        rw [(find_del hok.nodup svc s none).1]
        by_cases hs : s = svc
        · subst hs
          rw [if_pos rfl]
          have : ((((mscGet l n.ipa).getD { name := n.ipa }).hosts.find? (·.service == s)).bind (delHost s none)) = none := by
            cases hf : ((mscGet l n.ipa).getD { name := n.ipa }).hosts.find? (·.service == s) with
            | none => rfl
            | some x =>
              have := List.find?_some hf
              exact hdel x (by simpa using this)
          rw [this]
          cases v6 <;> simp [hq]
        · rw [if_neg hs, hview, if_neg (fun e => hs e.2.1), if_neg (fun e => hs e.2.1), hq]
      · rw [if_neg hq, if_neg (fun e => hq e.1), if_neg (fun e => hq e.1)]
        exact hh k hk s v6
    · intro _
      show decide (¬ (atMsc l n.ipa _).1 < 1) = decide _
      rw [at_rc h hn]
      unfold serviceDel
      dsimp only
      rw [(find_del hok.nodup svc svc none).2]
      refine decide_eq_decide.2 ?_
      cases hf : ((mscGet l n.ipa).getD { name := n.ipa }).hosts.find? (·.service == svc) with
      | none =>
        refine ⟨fun h => absurd (by show (0 : Int) < 1; decide) h, fun ⟨v6, h⟩ => absurd ?_ h⟩
        rw [← hview, hf]; rfl
      | some x =>
        have hx := List.find?_some hf
        have hx : x.service = svc := by simpa using hx
        dsimp only
        rw [hdel x hx]
        constructor
        · intro _
          obtain ⟨v6, h6⟩ := offer_ok (hok.hosts x (List.mem_of_find?_eq_some hf))
          refine ⟨v6, ?_⟩
          rw [← hview, hf]
          exact h6
        · intro _; decide
  | noServiceAt n svc a =>
    have hn := n.ipa_wf
    have hok := msc_ok h hn
    have hview : ∀ s v6, (((mscGet l n.ipa).getD { name := n.ipa }).hosts.find? (·.service == s)).bind
        (fun h => offer h v6) = m (Spec.key n) s v6 := by
      intro s v6
      have := view_msc h n.ipa s v6
      rw [hh _ hn, Node.ipa_name] at this
      exact this
    have hstep : Spec.step m (.noServiceAt n svc a) =
      if m (Spec.key n) svc a.v6 = some a then (true, Spec.put m (Spec.key n) svc a.v6 none) else (false, m) := rfl
    rw [hstep]
    unfold Cmd.exec
    dsimp only
    cases ha : a.nonzero with
    | false =>
      have hs : ¬ m (Spec.key n) svc a.v6 = some a := by
        rw [← hview]
        intro e
        obtain ⟨x, -, hx⟩ := Option.bind_eq_some_iff.1 e
        rw [(nonzero_iff a).2 (offer_some hx).2] at ha
        cases ha
      rw [if_pos (by rfl), if_neg hs]
      exact ⟨fun k hk s v6 => (view_add h hn hk s v6).trans (hh k hk s v6), fun _ => rfl⟩
    | true =>
      rw [if_neg (by decide)]
      dsimp only
      rw [at_rc h hn]
      have hcount := (find_del hok.nodup svc svc (some a)).2
      have hfind := fun s => (find_del hok.nodup svc s (some a)).1
      unfold serviceDel
      dsimp only
      rw [hcount]
      constructor
      · intro k hk s v6
        rw [view_at h hn hk (fun _ => rfl), Node.ipa_name]
        have goal2 : (if m (Spec.key n) svc a.v6 = some a then (true, Spec.put m (Spec.key n) svc a.v6 none)
            else (false, m)).2 k.name s v6 =
            if k.name = Spec.key n ∧ s = svc ∧ m (Spec.key n) svc a.v6 = some a ∧ v6 = a.v6 then none else m k.name s v6 := by
          by_cases hm : m (Spec.key n) svc a.v6 = some a
          · rw [if_pos hm]
            unfold Spec.put
            simp only [hm, true_and]
          · rw [if_neg hm, if_neg (fun e => hm e.2.2.1)]
        rw [goal2]
        by_cases hq : k.name = Spec.key n
        · rw [if_pos hq]
          unfold hostGet
          dsimp only
          rw [hfind]
          by_cases hs : s = svc
          · subst hs
            rw [if_pos rfl]
            cases hf : ((mscGet l n.ipa).getD { name := n.ipa }).hosts.find? (·.service == s) with
            | none =>
              have e : ∀ v6, m (Spec.key n) s v6 = none := fun v6 => by rw [← hview, hf]; rfl
              rw [hq, e, e]
              simp
            | some x =>
              have hx := List.find?_some hf
              have hx : x.service = s := by simpa using hx
              have e : ∀ v6, m (Spec.key n) s v6 = offer x v6 := fun v6 => by rw [← hview, hf]; rfl
              have := (offer_del (hok.hosts x (List.mem_of_find?_eq_some hf)) a ha v6).1
              rw [hx] at this
              show (delHost s (some a) x).bind _ = _
              rw [this, hq, e, e]
              simp
          · rw [if_neg hs, hview, if_neg (fun e => hs e.2.1), hq]
        · rw [if_neg hq, if_neg (fun e => hq e.1)]
          exact hh k hk s v6
      · intro hr
        have hr : m (Spec.key n) svc (!a.v6) = none ∨ m (Spec.key n) svc a.v6 ≠ some a := hr
        cases hf : ((mscGet l n.ipa).getD { name := n.ipa }).hosts.find? (·.service == svc) with
        | none =>
          have e : ∀ v6, m (Spec.key n) svc v6 = none := fun v6 => by rw [← hview, hf]; rfl
          rw [if_neg (by rw [e]; simp)]
          rfl
        | some x =>
          have hx := List.find?_some hf
          have hx : x.service = svc := by simpa using hx
          have e : ∀ v6, m (Spec.key n) svc v6 = offer x v6 := fun v6 => by rw [← hview, hf]; rfl
          have := (offer_del (hok.hosts x (List.mem_of_find?_eq_some hf)) a ha a.v6).2
          rw [hx] at this
          rw [e, e] at hr
          rw [e]
          dsimp only
          by_cases hm : offer x a.v6 = some a
          · rw [if_pos hm]
            refine decide_eq_true ?_
            rw [if_pos (this.2 ⟨hm, hr.resolve_right (fun h => h hm)⟩)]
            decide
          · rw [if_neg hm]
            refine decide_eq_false ?_
            rw [if_neg (fun h => hm (this.1 h).1)]
            decide

/-- The map of an empty configuration. -/
def emptyMap : Spec.Map := fun _ _ _ => none

theorem holds_nil : Holds [] emptyMap := fun _ _ _ _ => rfl

theorem run_holds {l : Services} (h : CfgOk l) {m : Spec.Map} (hh : Holds l m) (cs : List Cmd) :
    Holds (execAll l cs).2 (Spec.run m cs).2 := by
  induction cs generalizing l m with
  | nil => exact hh
  | cons c cs ih => exact ih (Cmd.exec_ok h c) (exec_holds h hh c).1

/-- C42: after any sequence of configuration commands the server finds, for every MSC,
service and address family, exactly what a map would hold. -/
theorem c42_map (cs : List Cmd) : Holds (execAll [] cs).2 (Spec.run emptyMap cs).2 := run_holds nil_ok holds_nil cs

/-- C42: every command reports success exactly if it should, except that `no service NAME at
ADDRESS` may report failure if another address is configured for the service. -/
theorem c42_reports_partial (cs : List Cmd) (c : Cmd) (h : RightReport (Spec.run emptyMap cs).2 c) :
    (c.exec (execAll [] cs).2).1 = (Spec.step (Spec.run emptyMap cs).2 c).1 :=
  (exec_holds (execAll_ok nil_ok cs) (c42_map cs) c).2 h

/-- C42 fails: a command that removes one of the two addresses of a service removes it but
reports failure. -/
theorem c42_report_violated : ∃ cs c, (Spec.step (Spec.run emptyMap cs).2 c).1 = true
    ∧ (c.exec (execAll [] cs).2).1 = false :=
  ⟨[.service .server [115] { v6 := false, ip := 1, port := 5 }, .service .server [115] { v6 := true, ip := 2, port := 5 }],
   .noServiceAt .server [115] { v6 := false, ip := 1, port := 5 }, by decide +kernel, by decide +kernel⟩

/-- C42: an entry the server finds always offers an address. -/
theorem c42_offers (cs : List Cmd) {n : IpaName} {svc : Bytes} {h : Host}
    (hg : serviceGet (execAll [] cs).2 n svc = some h) : h.service = svc ∧ ∃ v6, offer h v6 ≠ none := by
  obtain ⟨m, hm, hh⟩ := Option.bind_eq_some_iff.1 hg
  refine ⟨?_, offer_ok (((execAll_ok nil_ok cs).mscs m (mscGet_mem hm).1).hosts h (List.mem_of_find?_eq_some hh))⟩
  have := List.find?_some hh
  simpa using this

/-! The configuration of two MSCs and the wildcard. -/

def a4 : Addr := { ip := 0x0a090801, port := 5060 }
def a6 : Addr := { v6 := true, ip := 1, port := 5060 }
def b4 : Addr := { ip := 0x0a090802, port := 2775 }

def exCmds : List Cmd :=
  [.service .server (b "sip.voice") a4, .enter (.msc (b "msc-1")), .service (.msc (b "msc-1")) (b "sip.voice") b4,
   .service (.msc (b "msc-1")) (b "sip.voice") a6, .service .server (b "smpp.sms") b4, .noService .server (b "smpp.sms"),
   .noServiceAt (.msc (b "msc-1")) (b "sip.voice") a4, .service .server [] a4]

example : (execAll [] exCmds).1 = [true, true, true, true, true, true, false, false]
    ∧ (Spec.run emptyMap exCmds).1 = [true, true, true, true, true, true, false, false]
    ∧ Spec.view (execAll [] exCmds).2 (Node.msc (b "msc-1")).ipa (b "sip.voice") false = some b4
    ∧ Spec.view (execAll [] exCmds).2 {} (b "sip.voice") false = some a4
    ∧ Spec.view (execAll [] exCmds).2 {} (b "smpp.sms") false = none := by decide +kernel

end Verif.Mslookup.Props
