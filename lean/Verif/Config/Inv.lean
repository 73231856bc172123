import Verif.Config.Lemmas2
/-! # What holds of every configuration that commands can make -/
namespace Verif.Config
open Verif Verif.Sys Verif.Mslookup Verif.Mslookup.Mdns Verif.Config.Spec

/-- What is known of the arguments of a command made of words. -/
def CmdOk (e : Env) : Cmd → Prop
  | .profile c => 1 ≤ c ∧ c ≤ 10
  | .noProfile c => 1 ≤ c ∧ c ≤ 10
  | .apn a => GoodWord a
  | .bindIp a => GoodWord a ∧ e.ipv4 a = true
  | .ipaName x => GoodWord x
  | .database x => GoodWord x
  | .euse x => GoodWord x
  | .routeInt p _ => GoodWord p
  | .routeExt p x => GoodWord p ∧ GoodWord x
  | .guard t => t ≤ 255
  | .smscEntity x => GoodWord x
  | .smscRoute p x => GoodWord p ∧ GoodWord x
  | .cod m _ _ => ∀ l, m = .randMsisdn l → 3 ≤ l ∧ l ≤ 15
  | _ => True

theorem parseNoHlr_ok {e : Env} {ws : List Bytes} {c : Cmd} (h : parseNoHlr ws = some c) : CmdOk e c := by
  unfold parseNoHlr at h
  repeat' split at h
  all_goals cases h
  all_goals trivial

theorem codMode_ok {w : Bytes} {m : Hlr.CodMode} (h : codMode w = some m) {l : Nat} (hl : m = .randMsisdn l) : 3 ≤ l ∧ l ≤ 15 := by
  unfold codMode at h
  split at h
  · cases h; cases hl
  · cases h; cases hl
  · obtain ⟨v, hv, rfl⟩ := Option.map_eq_some_iff.1 h
    cases hl
    exact rangeVal_bounds hv

theorem parseHlr_ok {e : Env} {ws : List Bytes} (hw : ∀ w ∈ ws, GoodWord w) {c : Cmd} (h : parseHlr ws = some c) : CmdOk e c := by
  unfold parseHlr at h
  repeat' split at h
  all_goals first
    | exact parseNoHlr_ok h
    | (cases h; done)
    | (cases h; trivial)
    | (obtain ⟨v, hv, rfl⟩ := Option.map_eq_some_iff.1 h; exact (rangeVal_bounds hv).2)
    | (obtain ⟨v, hv, rfl⟩ := Option.map_eq_some_iff.1 h; trivial)
    | (cases h; intro l hl; exact codMode_ok (by assumption) hl)
    | (cases h; exact hw _ (by simp))
    | (cases h; exact ⟨hw _ (by simp), hw _ (by simp)⟩)

theorem parseMsl_ok {e : Env} {n : Node} {ws : List Bytes} {c : Cmd} (h : parseMsl e n ws = some c) : CmdOk e c := by
  unfold parseMsl at h
  repeat' split at h
  all_goals first
    | (cases h; done)
    | (cases h; trivial)
    | (obtain ⟨v, hv, rfl⟩ := Option.map_eq_some_iff.1 h; trivial)

theorem parse_ok {e : Env} {n : Node} {ws : List Bytes} (hw : ∀ w ∈ ws, GoodWord w) {c : Cmd} (h : parse e n ws = some c) :
    CmdOk e c := by
  unfold parse at h
  split at h
  case h_2 => exact parseHlr_ok hw h
  case h_9 => exact parseMsl_ok h
  all_goals repeat' split at h
  all_goals first
    | (cases h; done)
    | (cases h; trivial)
    | (obtain ⟨v, hv, rfl⟩ := Option.map_eq_some_iff.1 h; exact rangeVal_bounds hv)
    | (cases h; exact hw _ (by simp))
    | (cases h; exact ⟨hw _ (by simp), by assumption⟩)

/-- A slot of the table of profiles. -/
def PdpOk (p : Pdp) : Prop :=
  (p.ctx ≠ 0 → p.info = true) ∧ p.ctx ≤ 10 ∧ (∀ x, p.apn = some x → ∃ a, x = apnEnc a ∧ GoodWord a ∧ a.length ≤ 99)

/-- The context ids in use. -/
def ctxs (l : List Pdp) : List Nat := l.filterMap fun p => if p.ctx = 0 then none else some p.ctx

/-- What holds of every configuration that commands can make. -/
structure Inv (e : Env) (s : St) : Prop where
  db : GoodWord s.db
  ipa : GoodWord s.ipa
  bind : ∀ a, s.bind = some a → GoodWord a ∧ e.ipv4 a = true
  guard : s.guard ≤ 255
  cod : ∀ l, s.cod = .randMsisdn l → 3 ≤ l ∧ l ≤ 15
  euseGood : ∀ x ∈ s.euses, GoodWord x.name
  euseNames : (s.euses.map (·.name)).Nodup
  euseIds : (s.euses.map (·.id)).Nodup
  euseNew : ∀ x ∈ s.euses, x.id < s.nextId
  routeGood : ∀ r ∈ s.routes, GoodWord r.pfx
  routePfx : (s.routes.map (·.pfx)).Nodup
  smscGood : ∀ x ∈ s.smscs, GoodWord x.name
  smscNames : (s.smscs.map (·.name)).Nodup
  smscIds : (s.smscs.map (·.id)).Nodup
  smscNew : ∀ x ∈ s.smscs, x.id < s.nextId
  smscRouteGood : ∀ r ∈ s.smscRoutes, GoodWord r.num
  smscRouteNum : (s.smscRoutes.map (·.num)).Nodup
  slots : s.slots.length = 10
  pdp : ∀ p ∈ s.slots, PdpOk p
  ctx : (ctxs s.slots).Nodup
  num : s.num = (ctxs s.slots).length

theorem inv_init (e : Env) : Inv e {} where
  db := by decide +kernel
  ipa := by decide +kernel
  bind := nofun
  guard := by decide
  cod := nofun
  euseGood := nofun
  euseNames := List.nodup_nil
  euseIds := List.nodup_nil
  euseNew := nofun
  routeGood := nofun
  routePfx := List.nodup_nil
  smscGood := nofun
  smscNames := List.nodup_nil
  smscIds := List.nodup_nil
  smscNew := nofun
  smscRouteGood := nofun
  smscRouteNum := List.nodup_nil
  slots := rfl
  pdp := by
    intro p hp
    have : p = {} := by simpa using hp
    subst this
    exact ⟨nofun, Nat.zero_le _, nofun⟩
  ctx := by decide
  num := rfl

/-! ## Lists -/

theorem entFind_none {l : List Ent} {x : Bytes} (h : entFind l x = none) : x ∉ l.map (·.name) := by
  intro hx
  obtain ⟨y, hy, rfl⟩ := List.mem_map.1 hx
  have := List.find?_eq_none.1 h y hy
  simp at this

theorem entFind_mem {l : List Ent} {x : Bytes} {y : Ent} (h : entFind l x = some y) : y ∈ l ∧ y.name = x :=
  ⟨List.mem_of_find?_eq_some h, by have := List.find?_some h; simpa using this⟩

theorem nodup_snoc {α : Type} {l : List α} {x : α} (h : l.Nodup) (hx : x ∉ l) : (l ++ [x]).Nodup := by
  rw [List.nodup_append]
  refine ⟨h, by simp, ?_⟩
  intro a ha c hc e
  have : c = x := by simpa using hc
  subst this
  subst e
  exact hx ha

theorem routeFind_none {l : List URoute} {x : Bytes} (h : routeFind l x = none) : x ∉ l.map (·.pfx) := by
  intro hx
  obtain ⟨y, hy, rfl⟩ := List.mem_map.1 hx
  have := List.find?_eq_none.1 h y hy
  simp at this

theorem smscRouteFind_none {l : List SRoute} {x : Bytes} (h : smscRouteFind l x = none) : x ∉ l.map (·.num) := by
  intro hx
  obtain ⟨y, hy, rfl⟩ := List.mem_map.1 hx
  have := List.find?_eq_none.1 h y hy
  simp at this

theorem routeDel_sub (p : Bytes) (l : List URoute) : (routeDel p l).Sublist l := by
  induction l with
  | nil => exact List.Sublist.refl _
  | cons r l ih =>
    unfold routeDel
    split
    · exact List.sublist_cons_self _ _
    · exact ih.cons_cons _

theorem smscRouteDel_sub (p : Bytes) (l : List SRoute) : (smscRouteDel p l).Sublist l := by
  induction l with
  | nil => exact List.Sublist.refl _
  | cons r l ih =>
    unfold smscRouteDel
    split
    · exact List.sublist_cons_self _ _
    · exact ih.cons_cons _

/-! ## The table of profiles -/

theorem ctxs_cons (p : Pdp) (l : List Pdp) : ctxs (p :: l) = if p.ctx = 0 then ctxs l else p.ctx :: ctxs l := by
  unfold ctxs
  by_cases h : p.ctx = 0
  · rw [List.filterMap_cons_none (by rw [if_pos h]), if_pos h]
  · rw [List.filterMap_cons_some (b := p.ctx) (by rw [if_neg h]), if_neg h]

theorem mem_ctxs {l : List Pdp} {c : Nat} : c ∈ ctxs l ↔ c ≠ 0 ∧ ∃ p ∈ l, p.ctx = c := by
  induction l with
  | nil => simp [ctxs]
  | cons p l ih =>
    rw [ctxs_cons]
    split
    · rename_i h
      rw [ih]
      constructor
      · rintro ⟨h1, q, hq, h2⟩; exact ⟨h1, q, List.mem_cons_of_mem _ hq, h2⟩
      · rintro ⟨h1, q, hq, h2⟩
        rcases List.mem_cons.1 hq with rfl | hq
        · omega
        · exact ⟨h1, q, hq, h2⟩
    · rename_i h
      rw [List.mem_cons, ih]
      constructor
      · rintro (rfl | ⟨h1, q, hq, h2⟩)
        · exact ⟨h, p, List.mem_cons_self, rfl⟩
        · exact ⟨h1, q, List.mem_cons_of_mem _ hq, h2⟩
      · rintro ⟨h1, q, hq, h2⟩
        rcases List.mem_cons.1 hq with rfl | hq
        · exact Or.inl h2.symm
        · exact Or.inr ⟨h1, q, hq, h2⟩

theorem getPdp_some {c : Nat} {l : List Pdp} {i : Nat} (h : getPdp c l = some i) :
    ∃ hi : i < l.length, l[i].ctx = c ∧ ∀ j (hj : j < i), (l[j]'(by omega)).ctx ≠ c := by
  unfold getPdp at h
  rw [List.findIdx?_eq_some_iff_getElem] at h
  obtain ⟨hi, h1, h2⟩ := h
  refine ⟨hi, by simpa using h1, fun j hj => ?_⟩
  simpa using h2 j hj

theorem getPdp_none {c : Nat} {l : List Pdp} (h : getPdp c l = none) : ∀ p ∈ l, p.ctx ≠ c := by
  unfold getPdp at h
  rw [List.findIdx?_eq_none_iff] at h
  intro p hp
  simpa using h p hp

/-- Taking a free slot. -/
theorem ctxs_set_free {l : List Pdp} {i : Nat} (hi : i < l.length) (h0 : l[i].ctx = 0) {q : Pdp} (hq : q.ctx ≠ 0) :
    (ctxs (l.set i q)).Perm (q.ctx :: ctxs l) := by
  induction l generalizing i with
  | nil => cases hi
  | cons p l ih =>
    cases i with
    | zero =>
      rw [List.set_cons_zero, ctxs_cons, if_neg hq, ctxs_cons, if_pos (by simpa using h0)]
    | succ i =>
      have ih := ih (i := i) (by simpa using hi) (by simpa using h0)
      rw [List.set_cons_succ, ctxs_cons, ctxs_cons]
      split
      · exact ih
      · exact (ih.cons _).trans (List.Perm.swap _ _ _)

/-- Freeing a slot. -/
theorem ctxs_set_used {l : List Pdp} {i : Nat} (hi : i < l.length) (h0 : l[i].ctx ≠ 0) {q : Pdp} (hq : q.ctx = 0) :
    (ctxs l).Perm (l[i].ctx :: ctxs (l.set i q)) := by
  induction l generalizing i with
  | nil => cases hi
  | cons p l ih =>
    cases i with
    | zero =>
      rw [List.set_cons_zero, ctxs_cons, ctxs_cons (l := l) (p := q), if_pos hq, if_neg (by simpa using h0)]
      exact List.Perm.refl _
    | succ i =>
      have ih := ih (i := i) (by simpa using hi) (by simpa using h0)
      rw [List.set_cons_succ, ctxs_cons, ctxs_cons]
      split
      · exact ih
      · exact (ih.cons _).trans (List.Perm.swap _ _ _)

/-- Changing an APN. -/
theorem ctxs_modify {l : List Pdp} {f : Pdp → Pdp} (hf : ∀ p, (f p).ctx = p.ctx) (i : Nat) : ctxs (l.modify i f) = ctxs l := by
  induction l generalizing i with
  | nil => cases i <;> rfl
  | cons p l ih =>
    cases i with
    | zero => rw [List.modify_zero_cons, ctxs_cons, ctxs_cons, hf]
    | succ i => rw [List.modify_succ_cons, ctxs_cons, ctxs_cons, ih]

theorem mem_modify {α : Type} {l : List α} {f : α → α} {i : Nat} {x : α} (h : x ∈ l.modify i f) : x ∈ l ∨ ∃ y ∈ l, x = f y := by
  induction l generalizing i with
  | nil => cases i <;> cases h
  | cons p l ih =>
    cases i with
    | zero =>
      rw [List.modify_zero_cons] at h
      rcases List.mem_cons.1 h with rfl | h
      · exact Or.inr ⟨p, List.mem_cons_self, rfl⟩
      · exact Or.inl (List.mem_cons_of_mem _ h)
    | succ i =>
      rw [List.modify_succ_cons] at h
      rcases List.mem_cons.1 h with rfl | h
      · exact Or.inl List.mem_cons_self
      · rcases ih h with h | ⟨y, hy, e⟩
        · exact Or.inl (List.mem_cons_of_mem _ h)
        · exact Or.inr ⟨y, List.mem_cons_of_mem _ hy, e⟩

/-! ## Commands -/

/-- The parts of the configuration that the commands of dgsm_vty.c leave alone. -/
theorem execMsl_msl (n : Node) (s : St) (c : Cmd) : ∃ m, (execMsl n s c).2.2 = { s with msl := m } := by
  unfold execMsl
  split
  all_goals try unfold svcCmd
  all_goals repeat' split
  all_goals exact ⟨_, rfl⟩

theorem inv_msl {e : Env} {s : St} (h : Inv e s) (m : Msl) : Inv e { s with msl := m } :=
  { db := h.db, ipa := h.ipa, bind := h.bind, guard := h.guard, cod := h.cod, euseGood := h.euseGood,
    euseNames := h.euseNames, euseIds := h.euseIds, euseNew := h.euseNew, routeGood := h.routeGood, routePfx := h.routePfx,
    smscGood := h.smscGood, smscNames := h.smscNames, smscIds := h.smscIds, smscNew := h.smscNew,
    smscRouteGood := h.smscRouteGood, smscRouteNum := h.smscRouteNum, slots := h.slots, pdp := h.pdp, ctx := h.ctx, num := h.num }

theorem inv_profile {e : Env} {s : St} (h : Inv e s) {c : Nat} (hc : 1 ≤ c ∧ c ≤ 10) (hn : getPdp c s.slots = none)
    {i : Nat} {s' : St} (hs : createPdp c s = some (i, s')) : Inv e s' := by
  unfold createPdp at hs
  obtain ⟨j, hj, hs⟩ := Option.map_eq_some_iff.1 hs
  cases hs
  obtain ⟨hi, h0, -⟩ := getPdp_some hj
  have hp := ctxs_set_free hi h0 (q := { ctx := c, info := true }) (by dsimp only; omega)
  refine { h with slots := ?_, pdp := ?_, ctx := ?_, num := ?_ }
  · exact (List.length_set ..).trans h.slots
  · intro p hp
    rcases List.mem_or_eq_of_mem_set hp with hp | rfl
    · exact h.pdp p hp
    · exact ⟨fun _ => rfl, hc.2, nofun⟩
  · refine hp.nodup_iff.2 (List.nodup_cons.2 ⟨?_, h.ctx⟩)
    intro hm
    obtain ⟨-, q, hq, e⟩ := mem_ctxs.1 hm
    exact getPdp_none hn q hq e
  · rw [hp.length_eq, List.length_cons, ← h.num]

theorem inv_noProfile {e : Env} {s : St} (h : Inv e s) {c : Nat} (hc : 1 ≤ c) {i : Nat} (hi : getPdp c s.slots = some i) :
    Inv e (destroyPdp i s) := by
  obtain ⟨hi, h0, -⟩ := getPdp_some hi
  have hp := ctxs_set_used hi (by omega) (q := {}) rfl
  refine { h with slots := ?_, pdp := ?_, ctx := ?_, num := ?_ }
  · exact (List.length_set ..).trans h.slots
  · intro p hp
    rcases List.mem_or_eq_of_mem_set hp with hp | rfl
    · exact h.pdp p hp
    · exact ⟨nofun, Nat.zero_le _, nofun⟩
  · exact (List.nodup_cons.1 (hp.nodup_iff.1 h.ctx)).2
  · have hn := h.num
    rw [hp.length_eq, List.length_cons] at hn
    show (if s.num = 0 then 2 ^ 64 - 1 else s.num - 1) = _
    rw [if_neg (by omega)]
    exact Nat.sub_eq_of_eq_add hn

theorem inv_modify {e : Env} {s : St} (h : Inv e s) {f : Pdp → Pdp} (hf : ∀ p, (f p).ctx = p.ctx)
    (hg : ∀ p, PdpOk p → PdpOk (f p)) (i : Nat) : Inv e { s with slots := s.slots.modify i f } := by
  refine { h with slots := ?_, pdp := ?_, ctx := ?_, num := ?_ }
  · exact (List.length_modify ..).trans h.slots
  · intro p hp
    rcases mem_modify hp with hp | ⟨q, hq, rfl⟩
    · exact h.pdp p hp
    · exact hg q (h.pdp q hq)
  · show (ctxs (s.slots.modify i f)).Nodup
    rw [ctxs_modify hf]; exact h.ctx
  · show s.num = (ctxs (s.slots.modify i f)).length
    rw [ctxs_modify hf]; exact h.num

theorem inv_exec {e : Env} {s : St} (h : Inv e s) (file : Bool) (n : Node) {c : Cmd} (hc : CmdOk e c) :
    Inv e (exec file n s c).2.2 := by
  cases c with
  | hlr => exact h
  | gsup => exact h
  | ps => exact h
  | pdpProfiles => exact { h with }
  | noPdpProfiles => exact { h with }
  | profile c =>
    unfold exec
    dsimp only
    split
    · exact h
    · rename_i hn
      split
      · rename_i i s' hs; exact inv_profile h hc hn hs
      · exact h
  | noProfile c =>
    unfold exec
    dsimp only
    split
    · rename_i i hi; exact inv_noProfile h hc.1 hi
    · exact h
  | apn a =>
    unfold exec
    dsimp only
    split
    · split
      · exact h
      · rename_i hl
        refine inv_modify h ?_ ?_ _
        · intro p; rfl
        · intro p hp
          exact ⟨hp.1, hp.2.1, fun x hx => ⟨a, by cases hx; rfl, hc, by unfold APN_MAXLEN at hl; omega⟩⟩
    · exact h
  | noApn =>
    unfold exec
    dsimp only
    split
    · refine inv_modify h ?_ ?_ _
      · intro p; rfl
      · intro p hp; exact ⟨hp.1, hp.2.1, nofun⟩
    · exact h
  | bindIp a => exact { h with bind := by intro x hx; cases hx; exact hc }
  | ipaName x =>
    unfold exec
    dsimp only
    split
    · exact { h with ipa := hc }
    · exact h
  | database p => exact { h with db := hc }
  | euse x =>
    unfold exec
    dsimp only
    split
    · exact h
    · rename_i hn
      refine { h with euseGood := ?_, euseNames := ?_, euseIds := ?_, euseNew := ?_, smscNew := ?_ }
      · intro y hy
        rcases List.mem_append.1 hy with hy | hy
        · exact h.euseGood y hy
        · cases List.mem_singleton.1 hy; exact hc
      · dsimp only
        rw [List.map_append]
        exact nodup_snoc h.euseNames (entFind_none hn)
      · dsimp only
        rw [List.map_append]
        refine nodup_snoc h.euseIds ?_
        intro hm
        obtain ⟨y, hy, e⟩ := List.mem_map.1 hm
        have := h.euseNew y hy
        dsimp only at e
        omega
      · intro y hy
        show _ < s.nextId + 1
        rcases List.mem_append.1 hy with hy | hy
        · have := h.euseNew y hy; omega
        · cases List.mem_singleton.1 hy; exact Nat.lt_succ_self _
      · intro y hy
        show _ < s.nextId + 1
        have := h.smscNew y hy; omega
  | noEuse x =>
    unfold exec
    dsimp only
    split
    · exact h
    · split
      · exact h
      · have hs : ∀ i, (entDel i s.euses).Sublist s.euses := fun i => List.filter_sublist
        exact { h with
          euseGood := fun y hy => h.euseGood y ((hs _).subset hy)
          euseNames := h.euseNames.sublist ((hs _).map _)
          euseIds := h.euseIds.sublist ((hs _).map _)
          euseNew := fun y hy => h.euseNew y ((hs _).subset hy) }
  | routeInt p i =>
    unfold exec
    dsimp only
    split
    · exact h
    · rename_i hn
      refine { h with routeGood := ?_, routePfx := ?_ }
      · intro y hy
        rcases List.mem_append.1 hy with hy | hy
        · exact h.routeGood y hy
        · cases List.mem_singleton.1 hy; exact hc
      · dsimp only
        rw [List.map_append]
        exact nodup_snoc h.routePfx (routeFind_none hn)
  | routeExt p x =>
    unfold exec
    dsimp only
    split
    · exact h
    · exact h
    · rename_i hn _
      refine { h with routeGood := ?_, routePfx := ?_ }
      · intro y hy
        rcases List.mem_append.1 hy with hy | hy
        · exact h.routeGood y hy
        · cases List.mem_singleton.1 hy; exact hc.1
      · dsimp only
        rw [List.map_append]
        exact nodup_snoc h.routePfx (routeFind_none hn)
  | noRoute p =>
    unfold exec
    dsimp only
    split
    · exact h
    · exact { h with
        routeGood := fun y hy => h.routeGood y ((routeDel_sub _ _).subset hy)
        routePfx := h.routePfx.sublist ((routeDel_sub _ _).map _) }
  | ussdDefault x =>
    unfold exec
    dsimp only
    split
    · exact h
    · exact { h with }
  | noUssdDefault => exact { h with }
  | guard t => exact { h with guard := hc }
  | smscEntity x =>
    unfold exec
    dsimp only
    split
    · exact h
    · rename_i hn
      refine { h with smscGood := ?_, smscNames := ?_, smscIds := ?_, smscNew := ?_, euseNew := ?_ }
      · intro y hy
        show _ < s.nextId + 1
        have := h.euseNew y hy; omega
      · intro y hy
        rcases List.mem_append.1 hy with hy | hy
        · exact h.smscGood y hy
        · cases List.mem_singleton.1 hy; exact hc
      · dsimp only
        rw [List.map_append]
        exact nodup_snoc h.smscNames (entFind_none hn)
      · dsimp only
        rw [List.map_append]
        refine nodup_snoc h.smscIds ?_
        intro hm
        obtain ⟨y, hy, e⟩ := List.mem_map.1 hm
        have := h.smscNew y hy
        dsimp only at e
        omega
      · intro y hy
        show _ < s.nextId + 1
        rcases List.mem_append.1 hy with hy | hy
        · have := h.smscNew y hy; omega
        · cases List.mem_singleton.1 hy; exact Nat.lt_succ_self _
  | noSmscEntity x =>
    unfold exec
    dsimp only
    split
    · exact h
    · split
      · exact h
      · have hs : ∀ i, (entDel i s.smscs).Sublist s.smscs := fun i => List.filter_sublist
        exact { h with
          smscGood := fun y hy => h.smscGood y ((hs _).subset hy)
          smscNames := h.smscNames.sublist ((hs _).map _)
          smscIds := h.smscIds.sublist ((hs _).map _)
          smscNew := fun y hy => h.smscNew y ((hs _).subset hy) }
  | smscRoute num x =>
    unfold exec
    dsimp only
    split
    · exact h
    · exact h
    · rename_i hn _
      refine { h with smscRouteGood := ?_, smscRouteNum := ?_ }
      · intro y hy
        rcases List.mem_append.1 hy with hy | hy
        · exact h.smscRouteGood y hy
        · cases List.mem_singleton.1 hy; exact hc.1
      · dsimp only
        rw [List.map_append]
        exact nodup_snoc h.smscRouteNum (smscRouteFind_none hn)
  | noSmscRoute num =>
    unfold exec
    dsimp only
    split
    · exact h
    · exact { h with
        smscRouteGood := fun y hy => h.smscRouteGood y ((smscRouteDel_sub _ _).subset hy)
        smscRouteNum := h.smscRouteNum.sublist ((smscRouteDel_sub _ _).map _) }
  | smscDefault x =>
    unfold exec
    dsimp only
    split
    · exact h
    · exact { h with }
  | noSmscDefault => exact { h with }
  | reject proxy r =>
    unfold exec
    dsimp only
    split
    · exact { h with }
    · exact { h with }
  | storeImei => exact { h with }
  | noStoreImei => exact { h with }
  | cod m cs ps => exact { h with cod := hc }
  | noCod => exact { h with cod := nofun }
  | _ =>
    obtain ⟨m, hm⟩ := execMsl_msl n s _
    unfold exec
    rw [hm]
    exact inv_msl h m

theorem inv_config (e : Env) (h : List Input) (hv : ∀ x ∈ h, x.valid = true) : Inv e (config e h) := by
  suffices H : ∀ (h : List Input) s, (∀ x ∈ h, x.valid = true) → Inv e s → Inv e (h.foldl (after e) s) from H h _ hv (inv_init e)
  intro h
  induction h with
  | nil => intro s _ hi; exact hi
  | cons x h ih =>
    intro s hv hi
    refine ih _ (fun y hy => hv y (List.mem_cons_of_mem _ hy)) ?_
    unfold after
    split
    · exact hi
    · rename_i c hc
      refine inv_exec hi _ _ (parse_ok ?_ hc)
      intro w hw
      exact (goodWord_iff w).1 (List.all_eq_true.1 (hv x List.mem_cons_self) w hw)

end Verif.Config
