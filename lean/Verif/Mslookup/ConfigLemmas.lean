import Verif.Mslookup.ConfigSpec
/-! # Lemmas on the service configuration -/
namespace Verif.Mslookup
open Verif Verif.Sys Verif.Gsup

/-- An entry offers at least one address, each of its own family. -/
def Host.Ok (h : Host) : Prop :=
  (h.v4.nonzero = true ∨ h.v6.nonzero = true) ∧ h.v4.v6 = false ∧ (h.v6.nonzero = true → h.v6.v6 = true)
    ∧ h.service ≠ [] ∧ h.service.length ≤ 64

structure MscOk (m : MscCfg) : Prop where
  wf : m.name.WF
  nodup : (m.hosts.map (·.service)).Nodup
  hosts : ∀ h ∈ m.hosts, h.Ok

structure CfgOk (l : Services) : Prop where
  mscs : ∀ m ∈ l, MscOk m
  nodup : (l.map (·.name.name)).Nodup

theorem empty_wf : ({} : IpaName).WF := ⟨List.length_replicate, Nat.zero_le _⟩

theorem Node.ipa_wf (n : Node) : n.ipa.WF := by
  cases n with
  | server => exact empty_wf
  | msc s => exact ipaSetStr_wf empty_wf s

theorem Node.ipa_name (n : Node) : n.ipa.name = Spec.key n := by
  cases n with
  | server => rfl
  | msc s =>
    have h : ((s.take 127) ++ [0]).length = (s.take 127).length + 1 := by simp
    show ((s.take 127 ++ [0]) ++ _).take ((s.take 127).length + 1) = s.take 127 ++ [0]
    rw [← h, List.take_left']
    rfl

theorem mscGet_eq {l : Services} (h : ∀ m ∈ l, m.name.WF) {n : IpaName} (hn : n.WF) :
    mscGet l n = l.find? (fun m => decide (m.name.name = n.name)) := by
  unfold mscGet
  induction l with
  | nil => rfl
  | cons m l ih =>
    have := ih fun x hx => h x (List.mem_cons_of_mem _ hx)
    simp only [List.find?_cons, this, Gsup.Props.c25_cmp_eq (h m List.mem_cons_self) hn]

theorem mscGet_mem {l : Services} {n : IpaName} {m : MscCfg} (h : mscGet l n = some m) :
    m ∈ l ∧ ipaCmp m.name n = 0 := by
  refine ⟨List.mem_of_find?_eq_some h, ?_⟩
  have := List.find?_some h
  simpa using this

theorem onMsc_wf {l : Services} {n : IpaName} {f : MscCfg → MscCfg} (hf : ∀ m, (f m).name = m.name)
    (h : ∀ m ∈ l, m.name.WF) : ∀ m ∈ onMsc n f l, m.name.WF := by
  induction l with
  | nil => simp [onMsc]
  | cons m l ih =>
    intro x hx
    unfold onMsc at hx
    split at hx
    · rcases List.mem_cons.1 hx with rfl | hx
      · rw [hf]; exact h m List.mem_cons_self
      · exact h x (List.mem_cons_of_mem _ hx)
    · rcases List.mem_cons.1 hx with rfl | hx
      · exact h x List.mem_cons_self
      · exact ih (fun y hy => h y (List.mem_cons_of_mem _ hy)) x hx

theorem mscGet_onMsc {l : Services} {n n' : IpaName} {f : MscCfg → MscCfg} (hf : ∀ m, (f m).name = m.name)
    (h : ∀ m ∈ l, m.name.WF) (hn : n.WF) (hn' : n'.WF) :
    mscGet (onMsc n f l) n' = if n'.name = n.name then (mscGet l n).map f else mscGet l n' := by
  induction l with
  | nil => simp [onMsc, mscGet]
  | cons m l ih =>
    have ih := ih fun x hx => h x (List.mem_cons_of_mem _ hx)
    have hm := h m List.mem_cons_self
    have e := Gsup.Props.c25_cmp_eq hm hn
    have e' := Gsup.Props.c25_cmp_eq hm hn'
    unfold onMsc
    by_cases hc : ipaCmp m.name n = 0
    · rw [if_pos hc]
      by_cases hq : n'.name = n.name
      · have h1 : ipaCmp (f m).name n' = 0 := by rw [hf]; exact e'.2 ((e.1 hc).trans hq.symm)
        simp [mscGet, hq, hc, h1]
      · have h1 : ¬ ipaCmp (f m).name n' = 0 := by
          rw [hf]; exact fun h => hq ((e'.1 h).symm.trans (e.1 hc))
        have h2 : ¬ ipaCmp m.name n' = 0 := by rw [← hf]; exact h1
        simp [mscGet, hq, h1, h2]
    · rw [if_neg hc]
      by_cases hq : n'.name = n.name
      · have h2 : ¬ ipaCmp m.name n' = 0 := fun h => hc (e.2 ((e'.1 h).trans hq))
        rw [if_pos hq] at ih ⊢
        simpa [mscGet, hc, h2] using ih
      · rw [if_neg hq] at ih ⊢
        by_cases h2 : ipaCmp m.name n' = 0
        · simp [mscGet, h2]
        · simpa [mscGet, h2] using ih

theorem mscGet_mscAdd {l : Services} {n n' : IpaName} (h : ∀ m ∈ l, m.name.WF) (hn : n.WF) (hn' : n'.WF) :
    mscGet (mscAdd l n) n' = if n'.name = n.name then some ((mscGet l n).getD { name := n }) else mscGet l n' := by
  have hl : mscGet l n' = l.find? (fun m => decide (m.name.name = n'.name)) := mscGet_eq h hn'
  unfold mscAdd
  split
  · rename_i hs
    obtain ⟨m, hm⟩ := Option.isSome_iff_exists.1 hs
    by_cases hq : n'.name = n.name
    · rw [if_pos hq, hl, hq, ← mscGet_eq h hn, hm]; rfl
    · rw [if_neg hq]
  · rename_i hs
    have hs : mscGet l n = none := by simpa using hs
    have ha : ∀ m ∈ l ++ [{ name := n }], m.name.WF := by
      intro m hm
      rcases List.mem_append.1 hm with hm | hm
      · exact h m hm
      · rw [List.mem_singleton] at hm; subst hm; exact hn
    rw [mscGet_eq ha hn', List.find?_append, ← hl]
    by_cases hq : n'.name = n.name
    · rw [if_pos hq, hs, hl, hq, ← mscGet_eq h hn, hs]
      simp
    · rw [if_neg hq]
      cases hg : mscGet l n' with
      | some x => simp
      | none =>
        have : ¬ n.name = n'.name := fun h => hq h.symm
        simp [this]

theorem find_setHost (svc svc' : Bytes) (a : Addr) (l : List Host) :
    (setHost svc a l).find? (·.service == svc') =
      if svc' = svc then some (((l.find? (·.service == svc)).getD { service := svc }).set a)
      else l.find? (·.service == svc') := by
  have hset : ∀ h : Host, (h.set a).service = h.service := fun h => by unfold Host.set; split <;> rfl
  induction l with
  | nil =>
    by_cases h : svc' = svc
    · subst h; simp [setHost, hset]
    · have h' : ¬ svc = svc' := fun e => h e.symm
      simp [setHost, hset, h, h']
  | cons x l ih =>
    unfold setHost
    by_cases hx : x.service = svc
    · have hb : (x.service == svc) = true := by simpa using hx
      rw [if_pos hb]
      by_cases h : svc' = svc
      · subst h; simp [List.find?_cons, hset, hx]
      · have h' : ¬ svc = svc' := fun e => h e.symm
        simp [List.find?_cons, hset, hx, h, h']
    · have hb : ¬ (x.service == svc) = true := by simpa using hx
      have hb' : (x.service == svc) = false := by simpa using hx
      rw [if_neg hb, List.find?_cons, ih, List.find?_cons, List.find?_cons, hb']
      by_cases h : svc' = svc
      · subst h; rw [hb', if_pos rfl]
      · rw [if_neg h, if_neg h]

theorem delHost_service {svc : Bytes} {a : Option Addr} {h h' : Host} (e : delHost svc a h = some h') :
    h'.service = h.service := by
  unfold delHost at e
  split at e
  · cases e; rfl
  · cases a with
    | none => simp at e
    | some a =>
      dsimp only at e
      split at e
      · split at e
        · cases e; rfl
        · cases e
      · split at e
        · split at e
          · cases e; rfl
          · cases e
        · cases e; rfl

theorem delHost_other {svc : Bytes} {a : Option Addr} {h : Host} (hs : h.service ≠ svc) :
    delHost svc a h = some h := by
  unfold delHost
  rw [if_pos]
  simpa using fun e => hs e.symm

theorem delHost_id {svc : Bytes} {a : Option Addr} {l : List Host} (h : ∀ x ∈ l, x.service ≠ svc) :
    l.filterMap (delHost svc a) = l ∧ l.countP (fun x => (delHost svc a x).isNone) = 0 := by
  induction l with
  | nil => exact ⟨rfl, rfl⟩
  | cons x l ih =>
    obtain ⟨h1, h2⟩ := ih fun y hy => h y (List.mem_cons_of_mem _ hy)
    have hx := delHost_other (a := a) (h x List.mem_cons_self)
    refine ⟨?_, ?_⟩
    · rw [List.filterMap_cons, hx]; exact congrArg _ h1
    · rw [List.countP_cons, h2, hx]; rfl

theorem find_del {l : List Host} (hn : (l.map (·.service)).Nodup) (svc svc' : Bytes) (a : Option Addr) :
    (l.filterMap (delHost svc a)).find? (·.service == svc') =
        (if svc' = svc then (l.find? (·.service == svc)).bind (delHost svc a) else l.find? (·.service == svc'))
    ∧ l.countP (fun x => (delHost svc a x).isNone) =
        (match l.find? (·.service == svc) with
          | some h => if (delHost svc a h).isNone then 1 else 0
          | none => 0) := by
  induction l with
  | nil => simp
  | cons x l ih =>
    rw [List.map_cons, List.nodup_cons] at hn
    obtain ⟨h1, h2⟩ := ih hn.2
    by_cases hx : x.service = svc
    · subst hx
      have hid := delHost_id (a := a) (l := l) (svc := x.service) fun y hy e =>
        hn.1 (e ▸ List.mem_map_of_mem (f := (·.service)) hy)
      have hb : (x.service == x.service) = true := by simp
      have hnone : l.find? (·.service == x.service) = none := by
        rw [List.find?_eq_none]
        intro y hy
        have : ¬ y.service = x.service := fun e => hn.1 (e ▸ List.mem_map_of_mem (f := (·.service)) hy)
        simpa using this
      rw [List.countP_cons, hid.2, List.find?_cons, hb, List.filterMap_cons, hid.1]
      constructor
      · by_cases hs : svc' = x.service
        · subst hs
          rw [if_pos rfl]
          cases hd : delHost x.service a x with
          | none => simp [hd, hnone]
          | some h' => simp [hd, delHost_service hd]
        · rw [if_neg hs]
          have hs' : (x.service == svc') = false := by simpa using fun e => hs e.symm
          cases hd : delHost x.service a x with
          | none => simp [hs']
          | some h' => simp [hs', delHost_service hd]
      · cases hd : delHost x.service a x <;> simp [hd]
    · have hb : (x.service == svc) = false := by simpa using hx
      have hd := delHost_other (a := a) hx
      rw [List.countP_cons, List.find?_cons, hb, List.filterMap_cons, hd]
      refine ⟨?_, by simpa using h2⟩
      dsimp only
      rw [List.find?_cons, h1]
      by_cases hs : svc' = svc
      · subst hs; simp [hb]
      · rw [if_neg hs, if_neg hs, List.find?_cons]

theorem setHost_services (svc : Bytes) (a : Addr) (l : List Host) :
    (setHost svc a l).map (·.service) = if svc ∈ l.map (·.service) then l.map (·.service) else l.map (·.service) ++ [svc] := by
  have hset : ∀ h : Host, (h.set a).service = h.service := fun h => by unfold Host.set; split <;> rfl
  induction l with
  | nil => simp [setHost, hset]
  | cons x l ih =>
    unfold setHost
    by_cases hx : x.service = svc
    · simp [hx, hset]
    · have hx' : ¬ svc = x.service := fun e => hx e.symm
      have hb : ¬ (x.service == svc) = true := by simpa using hx
      rw [if_neg hb, List.map_cons, ih, List.map_cons]
      by_cases hm : svc ∈ l.map (·.service)
      · rw [if_pos hm, if_pos (List.mem_cons_of_mem _ hm)]
      · rw [if_neg hm, if_neg (by rw [List.mem_cons]; exact fun h => h.elim hx' hm)]; rfl

theorem Host.Ok.set {h : Host} {a : Addr} (ha : a.nonzero = true) (h4 : h.v4.v6 = false)
    (h6 : h.v6.nonzero = true → h.v6.v6 = true) (h1 : h.service ≠ []) (h2 : h.service.length ≤ 64) : (h.set a).Ok := by
  unfold Host.set
  cases hv : a.v6
  · exact ⟨.inl ha, hv, h6, h1, h2⟩
  · exact ⟨.inr ha, h4, fun _ => hv, h1, h2⟩

theorem serviceSet_ok {m : MscCfg} (h : MscOk m) (svc : Bytes) (a : Addr) : MscOk (serviceSet m svc a).2 := by
  unfold serviceSet
  split
  · exact h
  rename_i hs
  split
  · exact h
  rename_i ha
  have ha : a.nonzero = true := by simpa using ha
  have hs1 : svc ≠ [] := fun e => hs (.inl (by simp [e]))
  have hs2 : svc.length ≤ 64 := Nat.not_lt.1 fun e => hs (.inr e)
  refine ⟨h.wf, ?_, ?_⟩
  · dsimp only
    rw [setHost_services]
    split
    · exact h.nodup
    · rename_i hn
      rw [List.nodup_append]
      refine ⟨h.nodup, (by simp), ?_⟩
      intro x hx y hy
      rw [List.mem_singleton] at hy
      subst hy
      exact fun e => hn (e ▸ hx)
  · dsimp only
    have : ∀ l : List Host, (∀ x ∈ l, x.Ok) → ∀ x ∈ setHost svc a l, x.Ok := by
      intro l
      induction l with
      | nil =>
        intro _ x hx
        rw [setHost, List.mem_singleton] at hx
        subst hx
        exact Host.Ok.set (h := { service := svc }) ha rfl (fun h => by cases h) hs1 hs2
      | cons y l ih =>
        intro hl x hx
        have hy := hl y List.mem_cons_self
        unfold setHost at hx
        split at hx
        · rcases List.mem_cons.1 hx with rfl | hx
          · exact Host.Ok.set ha hy.2.1 hy.2.2.1 hy.2.2.2.1 hy.2.2.2.2
          · exact hl x (List.mem_cons_of_mem _ hx)
        · rcases List.mem_cons.1 hx with rfl | hx
          · exact hy
          · exact ih (fun z hz => hl z (List.mem_cons_of_mem _ hz)) x hx
    exact this m.hosts h.hosts

theorem serviceDel_ok {m : MscCfg} (h : MscOk m) (svc : Bytes) (a : Option Addr) : MscOk (serviceDel m svc a).2 := by
  refine ⟨h.wf, ?_, ?_⟩
  · have : ∀ l : List Host, ((l.filterMap (delHost svc a)).map (·.service)).Sublist (l.map (·.service)) := by
      intro l
      induction l with
      | nil => exact .slnil
      | cons x l ih =>
        rw [List.filterMap_cons]
        cases hd : delHost svc a x with
        | none => exact ih.cons _
        | some y =>
          dsimp only
          rw [List.map_cons, List.map_cons, delHost_service hd]
          exact ih.cons_cons _
    exact h.nodup.sublist (this m.hosts)
  · intro y hy
    obtain ⟨x, hx, he⟩ := List.mem_filterMap.1 hy
    have hk := h.hosts x hx
    unfold delHost at he
    split at he
    · cases he; exact hk
    · cases a with
      | none => simp at he
      | some a =>
        dsimp only at he
        split at he
        · split at he
          · rename_i h6
            cases he
            exact ⟨.inr h6, rfl, hk.2.2.1, hk.2.2.2⟩
          · cases he
        · split at he
          · split at he
            · rename_i h4
              cases he
              exact ⟨.inl h4, hk.2.1, (fun h => by cases h), hk.2.2.2⟩
            · cases he
          · cases he; exact hk

theorem mscAdd_ok {l : Services} (h : CfgOk l) {n : IpaName} (hn : n.WF) : CfgOk (mscAdd l n) := by
  unfold mscAdd
  split
  · exact h
  rename_i hs
  have hs : mscGet l n = none := by simpa using hs
  constructor
  · intro m hm
    rcases List.mem_append.1 hm with hm | hm
    · exact h.mscs m hm
    · rw [List.mem_singleton] at hm
      subst hm
      exact ⟨hn, List.nodup_nil, fun _ h => by cases h⟩
  · rw [List.map_append, List.nodup_append]
    refine ⟨h.nodup, (by simp), ?_⟩
    intro x hx y hy
    obtain ⟨m, hm, rfl⟩ := List.mem_map.1 hx
    simp only [List.map_cons, List.map_nil, List.mem_singleton] at hy
    subst hy
    rw [mscGet_eq (fun m hm => (h.mscs m hm).wf) hn, List.find?_eq_none] at hs
    simpa using hs m hm

theorem onMsc_ok {l : Services} (h : CfgOk l) {n : IpaName} {f : MscCfg → MscCfg} (hf : ∀ m, (f m).name = m.name)
    (hk : ∀ m ∈ l, MscOk m → MscOk (f m)) : CfgOk (onMsc n f l) := by
  have hmap : ∀ l : Services, (onMsc n f l).map (·.name.name) = l.map (·.name.name) := by
    intro l
    induction l with
    | nil => rfl
    | cons m l ih =>
      unfold onMsc
      split
      · rw [List.map_cons, List.map_cons, hf]
      · rw [List.map_cons, List.map_cons, ih]
  refine ⟨?_, by rw [hmap]; exact h.nodup⟩
  have : ∀ l : Services, (∀ m ∈ l, MscOk m) → (∀ m ∈ l, MscOk m → MscOk (f m)) → ∀ m ∈ onMsc n f l, MscOk m := by
    intro l
    induction l with
    | nil => intro _ _ m hm; cases hm
    | cons x l ih =>
      intro h1 h2 m hm
      unfold onMsc at hm
      split at hm
      · rcases List.mem_cons.1 hm with rfl | hm
        · exact h2 x List.mem_cons_self (h1 x List.mem_cons_self)
        · exact h1 m (List.mem_cons_of_mem _ hm)
      · rcases List.mem_cons.1 hm with rfl | hm
        · exact h1 m List.mem_cons_self
        · exact ih (fun y hy => h1 y (List.mem_cons_of_mem _ hy)) (fun y hy => h2 y (List.mem_cons_of_mem _ hy)) m hm
  exact this l h.mscs hk

theorem serviceSet_name (m : MscCfg) (svc : Bytes) (a : Addr) : (serviceSet m svc a).2.name = m.name := by
  unfold serviceSet
  split
  · rfl
  · split <;> rfl

theorem Cmd.exec_ok {l : Services} (h : CfgOk l) (c : Cmd) : CfgOk (c.exec l).2 := by
  have at_ok : ∀ n : Node, ∀ f : MscCfg → Int × MscCfg, (∀ m, (f m).2.name = m.name) → (∀ m, MscOk m → MscOk (f m).2) →
      CfgOk (atMsc l n.ipa f).2 := by
    intro n f h1 h2
    unfold atMsc
    dsimp only
    split
    · exact mscAdd_ok h n.ipa_wf
    · exact onMsc_ok (mscAdd_ok h n.ipa_wf) h1 fun m _ => h2 m
  cases c with
  | enter n =>
    cases n with
    | server => exact h
    | msc s => exact mscAdd_ok h (Node.msc s).ipa_wf
  | service n svc a =>
    unfold Cmd.exec
    dsimp only
    split
    · exact mscAdd_ok h n.ipa_wf
    · exact at_ok n _ (fun m => serviceSet_name m svc a) fun m hm => serviceSet_ok hm svc a
  | noService n svc =>
    exact at_ok n _ (fun m => rfl) fun m hm => serviceDel_ok hm svc none
  | noServiceAt n svc a =>
    unfold Cmd.exec
    dsimp only
    split
    · exact mscAdd_ok h n.ipa_wf
    · exact at_ok n _ (fun m => rfl) fun m hm => serviceDel_ok hm svc (some a)

theorem execAll_ok {l : Services} (h : CfgOk l) (cs : List Cmd) : CfgOk (execAll l cs).2 := by
  induction cs generalizing l with
  | nil => exact h
  | cons c cs ih => exact ih (Cmd.exec_ok h c)

theorem nil_ok : CfgOk [] := ⟨(fun _ h => by cases h), List.nodup_nil⟩

end Verif.Mslookup
