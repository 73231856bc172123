import Verif.Config.Reload2
/-! # The routing tables and what the user configured -/
namespace Verif.Config
open Verif Verif.Sys Verif.Mslookup Verif.Mslookup.Mdns Verif.Config.Spec

/-! ## Objects -/

theorem deref_append {l : List Ent} {id : Nat} {x : Ent} (h : deref l id = some x) (m : List Ent) : deref (l ++ m) id = some x := by
  unfold deref at *
  rw [List.find?_append, h]
  rfl

theorem deref_del {l : List Ent} {id d : Nat} (h : id ≠ d) : deref (entDel d l) id = deref l id := by
  unfold deref entDel
  induction l with
  | nil => rfl
  | cons x l ih =>
    rw [List.filter_cons]
    by_cases hx : x.id = d
    · have h1 : (x.id != d) = false := by simp [hx]
      have h2 : (x.id == id) = false := by rw [beq_eq_false_iff_ne]; intro e; exact h (e.symm.trans hx)
      rw [h1, if_neg (by decide), List.find?_cons, h2]
      exact ih
    · rw [if_pos (by simpa using hx), List.find?_cons, List.find?_cons, ih]

theorem entFind_iff {l : List Ent} {n : Bytes} : entFind l n = none ↔ n ∉ l.map (·.name) :=
  ⟨entFind_none, fun h => List.find?_eq_none.2 fun x hx e => h (by
    have e : x.name = n := by simpa using e
    exact e ▸ List.mem_map_of_mem hx)⟩

theorem ent_eq {l : List Ent} (hn : (l.map (·.name)).Nodup) {x y : Ent} (hx : x ∈ l) (hy : y ∈ l) (h : x.name = y.name) : x = y := by
  induction l with
  | nil => cases hx
  | cons z l ih =>
    rw [List.map_cons, List.nodup_cons] at hn
    rcases List.mem_cons.1 hx with hx1 | hx1
    · rcases List.mem_cons.1 hy with hy1 | hy1
      · rw [hx1, hy1]
      · exact absurd (by rw [← hx1, h]; exact List.mem_map_of_mem hy1) hn.1
    · rcases List.mem_cons.1 hy with hy1 | hy1
      · exact absurd (by rw [← hy1, ← h]; exact List.mem_map_of_mem hx1) hn.1
      · exact ih hn.2 hx1 hy1

theorem entDel_names {l : List Ent} (hn : (l.map (·.name)).Nodup) (hi : (l.map (·.id)).Nodup) {y : Ent} (hy : y ∈ l) :
    (entDel y.id l).map (·.name) = (l.map (·.name)).filter (· ≠ y.name) := by
  unfold entDel
  rw [List.filter_map]
  congr 1
  refine List.filter_congr fun x hx => ?_
  by_cases h : x.id = y.id
  · have : x = y := by
      have h1 := deref_mem hi hx
      have h2 := deref_mem hi hy
      rw [h] at h1
      exact Option.some.inj (h1.symm.trans h2)
    subst this
    simp
  · have : x.name ≠ y.name := fun e => h (by rw [ent_eq hn hx hy e])
    simp [h, this]

/-! ## USSD -/

def absTgt (l : List Ent) : Tgt → Option (Bytes ⊕ Iuse)
  | .int i => some (.inr i)
  | .ext id => (deref l id).map fun x => .inl x.name

/-- The configuration is what the user configured, and no pointer leads to a freed object. -/
structure URel (s : St) (t : Ussd) : Prop where
  ents : s.euses.map (·.name) = t.euses
  routes : s.routes.map (fun r => (r.pfx, absTgt s.euses r.tgt)) = t.routes.map fun r => (r.1, some r.2)
  dflt : s.euseDefault.map (fun id => (deref s.euses id).map (·.name)) = t.dflt.map some

theorem URel.pfx {s t} (h : URel s t) : s.routes.map (·.pfx) = t.routes.map (·.1) := by
  have := congrArg (List.map Prod.fst) h.routes
  rw [List.map_map, List.map_map] at this
  exact this

theorem routeFind_iff {l : List URoute} {p : Bytes} : routeFind l p = none ↔ p ∉ l.map (·.pfx) :=
  ⟨routeFind_none, fun h => List.find?_eq_none.2 fun x hx e => h (by
    have e : x.pfx = p := by simpa using e
    exact e ▸ List.mem_map_of_mem hx)⟩

theorem routeDel_filter {l : List URoute} (hn : (l.map (·.pfx)).Nodup) (p : Bytes) : routeDel p l = l.filter (·.pfx ≠ p) := by
  induction l with
  | nil => rfl
  | cons r l ih =>
    rw [List.map_cons, List.nodup_cons] at hn
    unfold routeDel
    by_cases h : r.pfx = p
    · rw [if_pos (by simpa using h), List.filter_cons, if_neg (by simpa using h), List.filter_eq_self.2]
      intro x hx
      have : x.pfx ≠ p := fun e => hn.1 (h.trans e.symm ▸ List.mem_map_of_mem hx)
      simpa using this
    · rw [if_neg (by simpa using h), List.filter_cons, if_pos (by simpa using h), ih hn.2]

theorem URel.mem {s t} (h : URel s t) {r : URoute} (hr : r ∈ s.routes) : ∃ y, absTgt s.euses r.tgt = some y ∧ (r.pfx, y) ∈ t.routes := by
  have : (r.pfx, absTgt s.euses r.tgt) ∈ t.routes.map fun r => (r.1, some r.2) := by
    rw [← h.routes]
    exact List.mem_map_of_mem (f := fun r : URoute => (r.pfx, absTgt s.euses r.tgt)) hr
  obtain ⟨y, hy, e⟩ := List.mem_map.1 this
  have e1 : y.1 = r.pfx := congrArg Prod.fst e
  have e2 : some y.2 = absTgt s.euses r.tgt := congrArg Prod.snd e
  exact ⟨y.2, e2.symm, by rw [← e1]; exact hy⟩

/-- The commands of USSD. -/
def isUssd : Cmd → Bool
  | .euse _ | .noEuse _ | .routeInt _ _ | .routeExt _ _ | .noRoute _ | .ussdDefault _ | .noUssdDefault => true
  | _ => false

theorem exec_notUssd (file : Bool) (n : Node) (s : St) {c : Cmd} (h : isUssd c = false) :
    (exec file n s c).2.2.euses = s.euses ∧ (exec file n s c).2.2.routes = s.routes ∧
    (exec file n s c).2.2.euseDefault = s.euseDefault := by
  cases c with
  | profile c =>
    unfold exec createPdp
    dsimp only
    split
    · exact ⟨rfl, rfl, rfl⟩
    · split
      · rename_i i s' hs
        obtain ⟨j, hj, hs⟩ := Option.map_eq_some_iff.1 hs
        cases hs
        exact ⟨rfl, rfl, rfl⟩
      · exact ⟨rfl, rfl, rfl⟩
  | _ =>
    first
      | cases h; done
      | (unfold exec
         try dsimp only
         repeat' split
         all_goals first
           | exact ⟨rfl, rfl, rfl⟩
           | (obtain ⟨m, hm⟩ := execMsl_msl n s _; rw [hm]; exact ⟨rfl, rfl, rfl⟩))

theorem cmd_notUssd (t : Ussd) {c : Cmd} (h : isUssd c = false) : t.cmd c = (true, t) := by
  cases c <;> first | (cases h; done) | rfl

/-- One command. -/
theorem urel_exec {e : Env} {s : St} {t : Ussd} (hi : Inv e s) (h : URel s t) (file : Bool) (n : Node) (c : Cmd)
    (ho : ∀ x, c = .noEuse x → (t.cmd c).1 = true → ∀ p, (p, .inl x) ∉ t.routes) :
    URel (exec file n s c).2.2 (t.cmd c).2 ∧ (isUssd c = true → ((exec file n s c).1 = .ok ↔ (t.cmd c).1 = true)) := by
  by_cases hu : isUssd c = true
  case neg =>
    have hu : isUssd c = false := by simpa using hu
    obtain ⟨h1, h2, h3⟩ := exec_notUssd file n s hu
    rw [cmd_notUssd t hu]
    refine ⟨⟨?_, ?_, ?_⟩, fun h => absurd h (by simp [hu])⟩
    · rw [h1]; exact h.ents
    · rw [h1, h2]; exact h.routes
    · rw [h1, h3]; exact h.dflt
  cases c with
  | euse x =>
    unfold exec Ussd.cmd
    dsimp only
    cases hf : entFind s.euses x with
    | some y =>
      have : x ∈ t.euses := by
        rw [← h.ents, ← (entFind_mem hf).2]; exact List.mem_map_of_mem (entFind_mem hf).1
      rw [if_pos this]
      exact ⟨h, fun _ => by simp⟩
    | none =>
      have : x ∉ t.euses := by rw [← h.ents]; exact entFind_none hf
      rw [if_neg this]
      refine ⟨⟨?_, ?_, ?_⟩, fun _ => by simp⟩
      · dsimp only; rw [List.map_append, h.ents]; rfl
      · dsimp only
        rw [← h.routes]
        refine List.map_congr_left fun r hr => ?_
        obtain ⟨y, hy, -⟩ := h.mem hr
        congr 1
        revert hy
        cases r.tgt with
        | int i => intro _; rfl
        | ext id =>
          intro hy
          obtain ⟨z, hz, -⟩ := Option.map_eq_some_iff.1 hy
          show (deref _ id).map _ = (deref _ id).map _
          rw [deref_append hz, hz]
      · dsimp only
        rw [← h.dflt]
        cases hd : s.euseDefault with
        | none => rfl
        | some id =>
          have hd2 := h.dflt
          rw [hd, Option.map_some] at hd2
          obtain ⟨z, hz⟩ : ∃ z, deref s.euses id = some z := by
            cases hz : deref s.euses id with
            | some z => exact ⟨z, rfl⟩
            | none =>
              rw [hz] at hd2
              cases hdt : t.dflt with
              | none => rw [hdt] at hd2; cases hd2
              | some y => rw [hdt] at hd2; cases hd2
          rw [Option.map_some, Option.map_some, deref_append hz, hz]
  | noEuse x =>
    have ho := ho x rfl
    unfold exec Ussd.cmd
    dsimp only
    cases hf : entFind s.euses x with
    | none =>
      have : x ∉ t.euses := by rw [← h.ents]; exact entFind_none hf
      rw [if_neg (fun hh => this hh.1)]
      exact ⟨h, fun _ => by simp⟩
    | some y =>
      obtain ⟨hy, hyn⟩ := entFind_mem hf
      have hx : x ∈ t.euses := by
        rw [← h.ents, ← hyn]; exact List.mem_map_of_mem hy
      have hyd := deref_mem hi.euseIds hy
      dsimp only
      by_cases hd : s.euseDefault = some y.id
      · have : t.dflt = some x := by
          have hd2 := h.dflt
          rw [hd, Option.map_some, hyd] at hd2
          cases hdt : t.dflt with
          | none => rw [hdt] at hd2; cases hd2
          | some z => rw [hdt] at hd2; cases hd2; exact congrArg some hyn
        rw [if_pos hd, if_neg (fun hh => hh.2 this)]
        exact ⟨h, fun _ => by simp⟩
      · have hne : t.dflt ≠ some x := by
          intro hdt
          have hd2 := h.dflt
          rw [hdt] at hd2
          cases hsd : s.euseDefault with
          | none => rw [hsd] at hd2; cases hd2
          | some id =>
            rw [hsd] at hd2
            have hd2 : (deref s.euses id).map (·.name) = some x := Option.some.inj hd2
            obtain ⟨z, hz, hzn⟩ := Option.map_eq_some_iff.1 hd2
            have : z = y := ent_eq hi.euseNames (deref_some hz).1 hy (hzn.trans hyn.symm)
            subst this
            exact hd (by rw [hsd, (deref_some hz).2])
        rw [if_neg hd, if_pos ⟨hx, hne⟩]
        have HH : (t.cmd (.noEuse x)).1 = true := congrArg Prod.fst (if_pos (α := Bool × Ussd) ⟨hx, hne⟩)
        refine ⟨⟨?_, ?_, ?_⟩, fun _ => by simp⟩
        · dsimp only
          rw [entDel_names hi.euseNames hi.euseIds hy, hyn, h.ents]
        · dsimp only
          rw [← h.routes]
          refine List.map_congr_left fun r hr => ?_
          obtain ⟨z, hz, hzm⟩ := h.mem hr
          congr 1
          revert hz
          cases r.tgt with
          | int i => intro _; rfl
          | ext id =>
            intro hz
            show (deref _ id).map _ = (deref _ id).map _
            rw [deref_del]
            rintro rfl
            have hz : (deref s.euses y.id).map (fun x => (Sum.inl x.name : Bytes ⊕ Iuse)) = some z := hz
            rw [hyd] at hz
            cases hz
            dsimp only at hzm
            rw [hyn] at hzm
            exact ho HH _ hzm
        · dsimp only
          rw [← h.dflt]
          cases hsd : s.euseDefault with
          | none => rfl
          | some id =>
            rw [Option.map_some, Option.map_some, deref_del]
            rintro rfl
            exact hd hsd
  | routeInt p i =>
    unfold exec Ussd.cmd
    dsimp only
    cases hf : routeFind s.routes p with
    | some r =>
      have : p ∈ t.routes.map (·.1) := by
        rw [← h.pfx]
        by_cases hm : p ∈ s.routes.map (·.pfx)
        · exact hm
        · rw [routeFind_iff.2 hm] at hf; cases hf
      rw [if_pos this]
      exact ⟨h, fun _ => by simp⟩
    | none =>
      have : p ∉ t.routes.map (·.1) := by rw [← h.pfx]; exact routeFind_none hf
      rw [if_neg this]
      refine ⟨⟨h.ents, ?_, h.dflt⟩, fun _ => by simp⟩
      dsimp only
      rw [List.map_append, List.map_append, h.routes]
      rfl
  | routeExt p x =>
    unfold exec Ussd.cmd
    dsimp only
    cases hf : routeFind s.routes p with
    | some r =>
      have : p ∈ t.routes.map (·.1) := by
        rw [← h.pfx]
        by_cases hm : p ∈ s.routes.map (·.pfx)
        · exact hm
        · rw [routeFind_iff.2 hm] at hf; cases hf
      rw [if_pos (Or.inl this)]
      exact ⟨h, fun _ => by simp⟩
    | none =>
      have hp : p ∉ t.routes.map (·.1) := by rw [← h.pfx]; exact routeFind_none hf
      cases hx : entFind s.euses x with
      | none =>
        have : x ∉ t.euses := by rw [← h.ents]; exact entFind_none hx
        rw [if_pos (Or.inr this)]
        exact ⟨h, fun _ => by simp⟩
      | some y =>
        obtain ⟨hy, hyn⟩ := entFind_mem hx
        have hx : x ∈ t.euses := by
          rw [← h.ents, ← hyn]; exact List.mem_map_of_mem hy
        rw [if_neg (by rintro (hh | hh); exact hp hh; exact hh hx)]
        refine ⟨⟨h.ents, ?_, h.dflt⟩, fun _ => by simp⟩
        dsimp only
        rw [List.map_append, List.map_append, h.routes]
        congr 1
        show [(p, (deref s.euses y.id).map _)] = _
        rw [deref_mem hi.euseIds hy, ← hyn]
        rfl
  | noRoute p =>
    unfold exec Ussd.cmd
    dsimp only
    cases hf : routeFind s.routes p with
    | none =>
      have : p ∉ t.routes.map (·.1) := by rw [← h.pfx]; exact routeFind_none hf
      rw [if_neg this]
      exact ⟨h, fun _ => by simp⟩
    | some r =>
      have : p ∈ t.routes.map (·.1) := by
        rw [← h.pfx]
        by_cases hm : p ∈ s.routes.map (·.pfx)
        · exact hm
        · rw [routeFind_iff.2 hm] at hf; cases hf
      rw [if_pos this]
      refine ⟨⟨h.ents, ?_, h.dflt⟩, fun _ => by simp⟩
      dsimp only
      rw [routeDel_filter hi.routePfx]
      have := congrArg (List.filter fun x => decide (x.1 ≠ p)) h.routes
      rw [List.filter_map, List.filter_map] at this
      exact this
  | ussdDefault x =>
    unfold exec Ussd.cmd
    dsimp only
    cases hf : entFind s.euses x with
    | none =>
      have : x ∉ t.euses := by rw [← h.ents]; exact entFind_none hf
      rw [if_neg this]
      exact ⟨h, fun _ => by simp⟩
    | some y =>
      obtain ⟨hy, hyn⟩ := entFind_mem hf
      have hx : x ∈ t.euses := by
        rw [← h.ents, ← hyn]; exact List.mem_map_of_mem hy
      rw [if_pos hx]
      refine ⟨⟨h.ents, h.routes, ?_⟩, fun _ => by simp⟩
      show some ((deref s.euses y.id).map (·.name)) = some (some x)
      rw [deref_mem hi.euseIds hy, ← hyn]
      rfl
  | noUssdDefault => exact ⟨⟨h.ents, h.routes, rfl⟩, fun _ => by simp [exec, Ussd.cmd]⟩
  | _ => cases hu

theorem urel_config (e : Env) (h : List Input) : ∀ (s : St) (t : Ussd), (∀ x ∈ h, x.valid = true) → Inv e s → URel s t → t.orderly e h = true →
    URel (h.foldl (after e) s) (h.foldl (Ussd.after e) t) ∧ Inv e (h.foldl (after e) s) := by
  induction h with
  | nil => intro s t _ hi hr _; exact ⟨hr, hi⟩
  | cons x h ih =>
    intro s t hv hi hr ho
    rw [Ussd.orderly, Bool.and_eq_true] at ho
    refine ih _ _ (fun y hy => hv y (List.mem_cons_of_mem _ hy)) ?_ ?_ ho.2
    · unfold after
      split
      · exact hi
      · rename_i c hc
        refine inv_exec hi _ _ (parse_ok ?_ hc)
        intro w hw
        exact (goodWord_iff w).1 (List.all_eq_true.1 (hv x List.mem_cons_self) w hw)
    · unfold after Ussd.after
      cases hc : parse e x.node x.words with
      | none => exact hr
      | some c =>
        refine (urel_exec hi hr _ _ c ?_).1
        rintro n rfl
        intro ha p hp
        have := ho.1
        rw [hc] at this
        dsimp only at this
        rw [ha] at this
        have := List.all_eq_true.1 this _ hp
        simp at this

theorem urel_lookup {s : St} {t : Ussd} (h : URel s t) (code : Bytes) : ussdFor s code = some (t.lookup code) := by
  have hl : (ussdLookup code s.routes).map (fun r => (r.pfx, absTgt s.euses r.tgt)) =
      (t.routes.find? fun r => r.1.isPrefixOf code).map fun r => (r.1, some r.2) := by
    have := congrArg (List.find? fun r => r.1.isPrefixOf code) h.routes
    rw [List.find?_map, List.find?_map] at this
    exact this
  unfold ussdFor Ussd.lookup
  cases hu : ussdLookup code s.routes with
  | some r =>
    rw [hu, Option.map_some] at hl
    cases hv : t.routes.find? fun r => r.1.isPrefixOf code with
    | none => rw [hv] at hl; cases hl
    | some q =>
      rw [hv, Option.map_some] at hl
      have hl := Option.some.inj hl
      have h2 : absTgt s.euses r.tgt = some q.2 := congrArg Prod.snd hl
      dsimp only
      revert h2
      cases r.tgt with
      | int i => intro h2; dsimp only; rw [← Option.some.inj h2]
      | ext id =>
        intro h2
        obtain ⟨x, hx, hx2⟩ := Option.map_eq_some_iff.1 h2
        dsimp only
        rw [hx, ← hx2]
        rfl
  | none =>
    rw [hu, Option.map_none] at hl
    cases hv : t.routes.find? fun r => r.1.isPrefixOf code with
    | some q => rw [hv] at hl; cases hl
    | none =>
      dsimp only
      have hd := h.dflt
      cases hs : s.euseDefault with
      | none =>
        rw [hs] at hd
        cases ht : t.dflt with
        | none => rfl
        | some y => rw [ht] at hd; cases hd
      | some id =>
        rw [hs, Option.map_some] at hd
        cases ht : t.dflt with
        | none => rw [ht] at hd; cases hd
        | some y =>
          rw [ht, Option.map_some] at hd
          obtain ⟨x, hx, hx2⟩ := Option.map_eq_some_iff.1 (Option.some.inj hd)
          dsimp only
          rw [hx, ← hx2]
          rfl

/-- Nothing freed is read when the routes are written. -/
theorem urel_write {s : St} {t : Ussd} (h : URel s t) : ∃ u, writeEuse s = some u := by
  have all : ∀ {α β : Type} (f : α → Option β) (l : List α), (∀ x ∈ l, ∃ y, f x = some y) → ∃ m, allSome (l.map f) = some m := by
    intro α β f l
    induction l with
    | nil => intro _; exact ⟨[], rfl⟩
    | cons x l ih =>
      intro hl
      obtain ⟨y, hy⟩ := hl x List.mem_cons_self
      obtain ⟨m, hm⟩ := ih fun z hz => hl z (List.mem_cons_of_mem _ hz)
      exact ⟨y :: m, by rw [List.map_cons, hy, allSome, hm]; rfl⟩
  obtain ⟨rs, hrs⟩ := all (writeRoute s) s.routes (by
    intro r hr
    obtain ⟨y, hy, -⟩ := h.mem hr
    unfold writeRoute
    revert hy
    cases r.tgt with
    | int i => intro _; exact ⟨_, rfl⟩
    | ext id =>
      intro hy
      obtain ⟨x, hx, -⟩ := Option.map_eq_some_iff.1 hy
      dsimp only
      rw [hx]
      exact ⟨_, rfl⟩)
  obtain ⟨d, hd⟩ : ∃ d, writeUssdDefault s = some d := by
    unfold writeUssdDefault
    have hd := h.dflt
    cases hs : s.euseDefault with
    | none => exact ⟨_, rfl⟩
    | some id =>
      rw [hs, Option.map_some] at hd
      cases ht : t.dflt with
      | none => rw [ht] at hd; cases hd
      | some y =>
        rw [ht, Option.map_some] at hd
        obtain ⟨x, hx, hx2⟩ := Option.map_eq_some_iff.1 (Option.some.inj hd)
        dsimp only
        rw [hx]
        exact ⟨_, rfl⟩
  unfold writeEuse
  rw [hrs, hd]
  exact ⟨_, rfl⟩

/-! ## SMSCs -/

def absS (l : List Ent) (id : Nat) : Option Bytes := (deref l id).map (·.name)

/-- The configuration is what the user configured, and no pointer leads to a freed object. -/
structure SRel (s : St) (t : Smsc) : Prop where
  ents : s.smscs.map (·.name) = t.smscs
  routes : s.smscRoutes.map (fun r => (r.num, absS s.smscs r.smsc)) = t.routes.map fun r => (r.1, some r.2)
  dflt : s.smscDefault.map (fun id => (deref s.smscs id).map (·.name)) = t.dflt.map some

theorem SRel.num {s t} (h : SRel s t) : s.smscRoutes.map (·.num) = t.routes.map (·.1) := by
  have := congrArg (List.map Prod.fst) h.routes
  rw [List.map_map, List.map_map] at this
  exact this

theorem smscRouteFind_iff {l : List SRoute} {p : Bytes} : smscRouteFind l p = none ↔ p ∉ l.map (·.num) :=
  ⟨smscRouteFind_none, fun h => List.find?_eq_none.2 fun x hx e => h (by
    have e : x.num = p := by simpa using e
    exact e ▸ List.mem_map_of_mem hx)⟩

theorem smscRouteDel_filter {l : List SRoute} (hn : (l.map (·.num)).Nodup) (p : Bytes) : smscRouteDel p l = l.filter (·.num ≠ p) := by
  induction l with
  | nil => rfl
  | cons r l ih =>
    rw [List.map_cons, List.nodup_cons] at hn
    unfold smscRouteDel
    by_cases h : r.num = p
    · rw [if_pos (by simpa using h), List.filter_cons, if_neg (by simpa using h), List.filter_eq_self.2]
      intro x hx
      have : x.num ≠ p := fun e => hn.1 (h.trans e.symm ▸ List.mem_map_of_mem hx)
      simpa using this
    · rw [if_neg (by simpa using h), List.filter_cons, if_pos (by simpa using h), ih hn.2]

theorem SRel.mem {s t} (h : SRel s t) {r : SRoute} (hr : r ∈ s.smscRoutes) : ∃ y, absS s.smscs r.smsc = some y ∧ (r.num, y) ∈ t.routes := by
  have : (r.num, absS s.smscs r.smsc) ∈ t.routes.map fun r => (r.1, some r.2) := by
    rw [← h.routes]
    exact List.mem_map_of_mem (f := fun r : SRoute => (r.num, absS s.smscs r.smsc)) hr
  obtain ⟨y, hy, e⟩ := List.mem_map.1 this
  have e1 : y.1 = r.num := congrArg Prod.fst e
  have e2 : some y.2 = absS s.smscs r.smsc := congrArg Prod.snd e
  exact ⟨y.2, e2.symm, by rw [← e1]; exact hy⟩

/-- The commands of USSD. -/
def isSmsc : Cmd → Bool
  | .smscEntity _ | .noSmscEntity _ | .smscRoute _ _ | .noSmscRoute _ | .smscDefault _ | .noSmscDefault => true
  | _ => false

theorem exec_notSmsc (file : Bool) (n : Node) (s : St) {c : Cmd} (h : isSmsc c = false) :
    (exec file n s c).2.2.smscs = s.smscs ∧ (exec file n s c).2.2.smscRoutes = s.smscRoutes ∧
    (exec file n s c).2.2.smscDefault = s.smscDefault := by
  cases c with
  | profile c =>
    unfold exec createPdp
    dsimp only
    split
    · exact ⟨rfl, rfl, rfl⟩
    · split
      · rename_i i s' hs
        obtain ⟨j, hj, hs⟩ := Option.map_eq_some_iff.1 hs
        cases hs
        exact ⟨rfl, rfl, rfl⟩
      · exact ⟨rfl, rfl, rfl⟩
  | _ =>
    first
      | cases h; done
      | (unfold exec
         try dsimp only
         repeat' split
         all_goals first
           | exact ⟨rfl, rfl, rfl⟩
           | (obtain ⟨m, hm⟩ := execMsl_msl n s _; rw [hm]; exact ⟨rfl, rfl, rfl⟩))

theorem cmd_notSmsc (t : Smsc) {c : Cmd} (h : isSmsc c = false) : t.cmd c = (true, t) := by
  cases c <;> first | (cases h; done) | rfl

/-- One command. -/
theorem srel_exec {e : Env} {s : St} {t : Smsc} (hi : Inv e s) (h : SRel s t) (file : Bool) (n : Node) (c : Cmd)
    (ho : ∀ x, c = .noSmscEntity x → (t.cmd c).1 = true → ∀ p, (p, x) ∉ t.routes) :
    SRel (exec file n s c).2.2 (t.cmd c).2 ∧ (isSmsc c = true → ((exec file n s c).1 = .ok ↔ (t.cmd c).1 = true)) := by
  by_cases hu : isSmsc c = true
  case neg =>
    have hu : isSmsc c = false := by simpa using hu
    obtain ⟨h1, h2, h3⟩ := exec_notSmsc file n s hu
    rw [cmd_notSmsc t hu]
    refine ⟨⟨?_, ?_, ?_⟩, fun h => absurd h (by simp [hu])⟩
    · rw [h1]; exact h.ents
    · rw [h1, h2]; exact h.routes
    · rw [h1, h3]; exact h.dflt
  cases c with
  | smscEntity x =>
    unfold exec Smsc.cmd
    dsimp only
    cases hf : entFind s.smscs x with
    | some y =>
      have : x ∈ t.smscs := by
        rw [← h.ents, ← (entFind_mem hf).2]; exact List.mem_map_of_mem (entFind_mem hf).1
      rw [if_pos this]
      exact ⟨h, fun _ => by simp⟩
    | none =>
      have : x ∉ t.smscs := by rw [← h.ents]; exact entFind_none hf
      rw [if_neg this]
      refine ⟨⟨?_, ?_, ?_⟩, fun _ => by simp⟩
      · dsimp only; rw [List.map_append, h.ents]; rfl
      · dsimp only
        rw [← h.routes]
        refine List.map_congr_left fun r hr => ?_
        obtain ⟨y, hy, -⟩ := h.mem hr
        congr 1
        obtain ⟨z, hz, -⟩ := Option.map_eq_some_iff.1 hy
        show (deref _ _).map _ = (deref _ _).map _
        rw [deref_append hz, hz]
      · dsimp only
        rw [← h.dflt]
        cases hd : s.smscDefault with
        | none => rfl
        | some id =>
          have hd2 := h.dflt
          rw [hd, Option.map_some] at hd2
          obtain ⟨z, hz⟩ : ∃ z, deref s.smscs id = some z := by
            cases hz : deref s.smscs id with
            | some z => exact ⟨z, rfl⟩
            | none =>
              rw [hz] at hd2
              cases hdt : t.dflt with
              | none => rw [hdt] at hd2; cases hd2
              | some y => rw [hdt] at hd2; cases hd2
          rw [Option.map_some, Option.map_some, deref_append hz, hz]
  | noSmscEntity x =>
    have ho := ho x rfl
    unfold exec Smsc.cmd
    dsimp only
    cases hf : entFind s.smscs x with
    | none =>
      have : x ∉ t.smscs := by rw [← h.ents]; exact entFind_none hf
      rw [if_neg (fun hh => this hh.1)]
      exact ⟨h, fun _ => by simp⟩
    | some y =>
      obtain ⟨hy, hyn⟩ := entFind_mem hf
      have hx : x ∈ t.smscs := by
        rw [← h.ents, ← hyn]; exact List.mem_map_of_mem hy
      have hyd := deref_mem hi.smscIds hy
      dsimp only
      by_cases hd : s.smscDefault = some y.id
      · have : t.dflt = some x := by
          have hd2 := h.dflt
          rw [hd, Option.map_some, hyd] at hd2
          cases hdt : t.dflt with
          | none => rw [hdt] at hd2; cases hd2
          | some z => rw [hdt] at hd2; cases hd2; exact congrArg some hyn
        rw [if_pos hd, if_neg (fun hh => hh.2 this)]
        exact ⟨h, fun _ => by simp⟩
      · have hne : t.dflt ≠ some x := by
          intro hdt
          have hd2 := h.dflt
          rw [hdt] at hd2
          cases hsd : s.smscDefault with
          | none => rw [hsd] at hd2; cases hd2
          | some id =>
            rw [hsd] at hd2
            have hd2 : (deref s.smscs id).map (·.name) = some x := Option.some.inj hd2
            obtain ⟨z, hz, hzn⟩ := Option.map_eq_some_iff.1 hd2
            have : z = y := ent_eq hi.smscNames (deref_some hz).1 hy (hzn.trans hyn.symm)
            subst this
            exact hd (by rw [hsd, (deref_some hz).2])
        rw [if_neg hd, if_pos ⟨hx, hne⟩]
        have HH : (t.cmd (.noSmscEntity x)).1 = true := congrArg Prod.fst (if_pos (α := Bool × Smsc) ⟨hx, hne⟩)
        refine ⟨⟨?_, ?_, ?_⟩, fun _ => by simp⟩
        · dsimp only
          rw [entDel_names hi.smscNames hi.smscIds hy, hyn, h.ents]
        · dsimp only
          rw [← h.routes]
          refine List.map_congr_left fun r hr => ?_
          obtain ⟨z, hz, hzm⟩ := h.mem hr
          congr 1
          show (deref _ _).map _ = (deref _ _).map _
          rw [deref_del]
          intro hid
          have hz : (deref s.smscs r.smsc).map (·.name) = some z := hz
          rw [hid, hyd] at hz
          cases hz
          dsimp only at hzm
          rw [hyn] at hzm
          exact ho HH _ hzm
        · dsimp only
          rw [← h.dflt]
          cases hsd : s.smscDefault with
          | none => rfl
          | some id =>
            rw [Option.map_some, Option.map_some, deref_del]
            rintro rfl
            exact hd hsd
  | smscRoute p x =>
    unfold exec Smsc.cmd
    dsimp only
    cases hf : smscRouteFind s.smscRoutes p with
    | some r =>
      have : p ∈ t.routes.map (·.1) := by
        rw [← h.num]
        by_cases hm : p ∈ s.smscRoutes.map (·.num)
        · exact hm
        · rw [smscRouteFind_iff.2 hm] at hf; cases hf
      rw [if_pos (Or.inl this)]
      exact ⟨h, fun _ => by simp⟩
    | none =>
      have hp : p ∉ t.routes.map (·.1) := by rw [← h.num]; exact smscRouteFind_none hf
      cases hx : entFind s.smscs x with
      | none =>
        have : x ∉ t.smscs := by rw [← h.ents]; exact entFind_none hx
        rw [if_pos (Or.inr this)]
        exact ⟨h, fun _ => by simp⟩
      | some y =>
        obtain ⟨hy, hyn⟩ := entFind_mem hx
        have hx : x ∈ t.smscs := by
          rw [← h.ents, ← hyn]; exact List.mem_map_of_mem hy
        rw [if_neg (by rintro (hh | hh); exact hp hh; exact hh hx)]
        refine ⟨⟨h.ents, ?_, h.dflt⟩, fun _ => by simp⟩
        dsimp only
        rw [List.map_append, List.map_append, h.routes]
        congr 1
        show [(p, (deref s.smscs y.id).map _)] = _
        rw [deref_mem hi.smscIds hy, ← hyn]
        rfl
  | noSmscRoute p =>
    unfold exec Smsc.cmd
    dsimp only
    cases hf : smscRouteFind s.smscRoutes p with
    | none =>
      have : p ∉ t.routes.map (·.1) := by rw [← h.num]; exact smscRouteFind_none hf
      rw [if_neg this]
      exact ⟨h, fun _ => by simp⟩
    | some r =>
      have : p ∈ t.routes.map (·.1) := by
        rw [← h.num]
        by_cases hm : p ∈ s.smscRoutes.map (·.num)
        · exact hm
        · rw [smscRouteFind_iff.2 hm] at hf; cases hf
      rw [if_pos this]
      refine ⟨⟨h.ents, ?_, h.dflt⟩, fun _ => by simp⟩
      dsimp only
      rw [smscRouteDel_filter hi.smscRouteNum]
      have := congrArg (List.filter fun x => decide (x.1 ≠ p)) h.routes
      rw [List.filter_map, List.filter_map] at this
      exact this
  | smscDefault x =>
    unfold exec Smsc.cmd
    dsimp only
    cases hf : entFind s.smscs x with
    | none =>
      have : x ∉ t.smscs := by rw [← h.ents]; exact entFind_none hf
      rw [if_neg this]
      exact ⟨h, fun _ => by simp⟩
    | some y =>
      obtain ⟨hy, hyn⟩ := entFind_mem hf
      have hx : x ∈ t.smscs := by
        rw [← h.ents, ← hyn]; exact List.mem_map_of_mem hy
      rw [if_pos hx]
      refine ⟨⟨h.ents, h.routes, ?_⟩, fun _ => by simp⟩
      show some ((deref s.smscs y.id).map (·.name)) = some (some x)
      rw [deref_mem hi.smscIds hy, ← hyn]
      rfl
  | noSmscDefault => exact ⟨⟨h.ents, h.routes, rfl⟩, fun _ => by simp [exec, Smsc.cmd]⟩
  | _ => cases hu

theorem srel_config (e : Env) (h : List Input) : ∀ (s : St) (t : Smsc), (∀ x ∈ h, x.valid = true) → Inv e s → SRel s t → t.orderly e h = true →
    SRel (h.foldl (after e) s) (h.foldl (Smsc.after e) t) ∧ Inv e (h.foldl (after e) s) := by
  induction h with
  | nil => intro s t _ hi hr _; exact ⟨hr, hi⟩
  | cons x h ih =>
    intro s t hv hi hr ho
    rw [Smsc.orderly, Bool.and_eq_true] at ho
    refine ih _ _ (fun y hy => hv y (List.mem_cons_of_mem _ hy)) ?_ ?_ ho.2
    · unfold after
      split
      · exact hi
      · rename_i c hc
        refine inv_exec hi _ _ (parse_ok ?_ hc)
        intro w hw
        exact (goodWord_iff w).1 (List.all_eq_true.1 (hv x List.mem_cons_self) w hw)
    · unfold after Smsc.after
      cases hc : parse e x.node x.words with
      | none => exact hr
      | some c =>
        refine (srel_exec hi hr _ _ c ?_).1
        rintro n rfl
        intro ha p hp
        have := ho.1
        rw [hc] at this
        dsimp only at this
        rw [ha] at this
        have := List.all_eq_true.1 this _ hp
        simp at this

theorem srel_lookup {s : St} {t : Smsc} (h : SRel s t) (code : Bytes) : smscFor s code = some (t.lookup code) := by
  have hl : (smscRouteFind s.smscRoutes code).map (fun r => (r.num, absS s.smscs r.smsc)) =
      (t.routes.find? fun r => r.1 == code).map fun r => (r.1, some r.2) := by
    have := congrArg (List.find? fun r => r.1 == code) h.routes
    rw [List.find?_map, List.find?_map] at this
    exact this
  unfold smscFor Smsc.lookup
  cases hu : smscRouteFind s.smscRoutes code with
  | some r =>
    rw [hu, Option.map_some] at hl
    cases hv : t.routes.find? fun r => r.1 == code with
    | none => rw [hv] at hl; cases hl
    | some q =>
      rw [hv, Option.map_some] at hl
      have hl := Option.some.inj hl
      have h2 : absS s.smscs r.smsc = some q.2 := congrArg Prod.snd hl
      dsimp only
      obtain ⟨x, hx, hx2⟩ := Option.map_eq_some_iff.1 h2
      rw [hx, ← hx2]
      rfl
  | none =>
    rw [hu, Option.map_none] at hl
    cases hv : t.routes.find? fun r => r.1 == code with
    | some q => rw [hv] at hl; cases hl
    | none =>
      dsimp only
      have hd := h.dflt
      cases hs : s.smscDefault with
      | none =>
        rw [hs] at hd
        cases ht : t.dflt with
        | none => rfl
        | some y => rw [ht] at hd; cases hd
      | some id =>
        rw [hs, Option.map_some] at hd
        cases ht : t.dflt with
        | none => rw [ht] at hd; cases hd
        | some y =>
          rw [ht, Option.map_some] at hd
          obtain ⟨x, hx, hx2⟩ := Option.map_eq_some_iff.1 (Option.some.inj hd)
          dsimp only
          rw [hx, ← hx2]
          rfl

/-- Nothing freed is read when the routes are written. -/
theorem srel_write {s : St} {t : Smsc} (h : SRel s t) : ∃ u, writeSmsc s = some u := by
  have all : ∀ {α β : Type} (f : α → Option β) (l : List α), (∀ x ∈ l, ∃ y, f x = some y) → ∃ m, allSome (l.map f) = some m := by
    intro α β f l
    induction l with
    | nil => intro _; exact ⟨[], rfl⟩
    | cons x l ih =>
      intro hl
      obtain ⟨y, hy⟩ := hl x List.mem_cons_self
      obtain ⟨m, hm⟩ := ih fun z hz => hl z (List.mem_cons_of_mem _ hz)
      exact ⟨y :: m, by rw [List.map_cons, hy, allSome, hm]; rfl⟩
  obtain ⟨rs, hrs⟩ := all (writeSmscRoute s) s.smscRoutes (by
    intro r hr
    obtain ⟨y, hy, -⟩ := h.mem hr
    unfold writeSmscRoute
    obtain ⟨x, hx, -⟩ := Option.map_eq_some_iff.1 hy
    rw [hx]
    exact ⟨_, rfl⟩)
  obtain ⟨d, hd⟩ : ∃ d, writeSmscDefault s = some d := by
    unfold writeSmscDefault
    have hd := h.dflt
    cases hs : s.smscDefault with
    | none => exact ⟨_, rfl⟩
    | some id =>
      rw [hs, Option.map_some] at hd
      cases ht : t.dflt with
      | none => rw [ht] at hd; cases hd
      | some y =>
        rw [ht, Option.map_some] at hd
        obtain ⟨x, hx, hx2⟩ := Option.map_eq_some_iff.1 (Option.some.inj hd)
        dsimp only
        rw [hx]
        exact ⟨_, rfl⟩
  unfold writeSmsc
  rw [hrs, hd]
  exact ⟨_, rfl⟩

end Verif.Config
