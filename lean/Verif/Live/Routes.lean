import Verif.Config.Routing
import Verif.Live.Model
import Verif.Live.Spec
import Verif.Sys.Safety
/-! # The routing tables that the handlers see -/
namespace Verif.Live
open Verif Verif.Db Verif.Sys Verif.Sys.Props Verif.Config.Spec Verif.Live.Spec

theorem ptr_some {l : List Config.Ent} {id : Nat} {x : Config.Ent} (h : Config.deref l id = some x) : ptr l id = ent x := by
  unfold ptr
  rw [h]
  rfl

theorem ent_mem {l : List Config.Ent} {id : Nat} {x : Config.Ent} (h : Config.deref l id = some x) : ent x ∈ l.map ent :=
  List.mem_map.2 ⟨x, List.mem_of_find?_eq_some h, rfl⟩

theorem dflt_some {l : List Config.Ent} {o : Option Nat} {t : Option Bytes}
    (h : o.map (fun id => (Config.deref l id).map (·.name)) = t.map some) :
    (o.map (ptr l)).map (·.name) = t ∧ ∀ n, o.map (ptr l) = some n → n ∈ l.map ent := by
  cases o with
  | none =>
    cases t with
    | none => exact ⟨rfl, fun n hn => by cases hn⟩
    | some y => cases h
  | some id =>
    cases t with
    | none => cases h
    | some y =>
      obtain ⟨x, hx, hx2⟩ := Option.map_eq_some_iff.1 (Option.some.inj h)
      rw [Option.map_some, ptr_some hx]
      refine ⟨?_, fun n hn => ?_⟩
      · rw [Option.map_some]; exact congrArg some hx2
      · rw [← Option.some.inj hn]; exact ent_mem hx

theorem euseOk_of (base : Cfg) {c : Config.St} {t : Ussd} (h : Config.URel c t) : EuseOk (cfgOf base c) := by
  refine ⟨fun rt hrt n hn => ?_, (dflt_some h.dflt).2⟩
  obtain ⟨r, hr, rfl⟩ := List.mem_map.1 hrt
  obtain ⟨y, hy, -⟩ := h.mem hr
  unfold route at hn
  dsimp only at hn
  split at hn
  · cases hn
  · rename_i id hid
    rw [hid] at hy
    obtain ⟨x, hx, -⟩ := Option.map_eq_some_iff.1 hy
    rw [ptr_some hx] at hn
    cases hn
    exact ent_mem hx

theorem smscOk_of (base : Cfg) {c : Config.St} {t : Smsc} (h : Config.SRel c t) : SmscOk (cfgOf base c) := by
  refine ⟨fun rt hrt => ?_, (dflt_some h.dflt).2⟩
  obtain ⟨r, hr, rfl⟩ := List.mem_map.1 hrt
  obtain ⟨y, hy, -⟩ := h.mem hr
  obtain ⟨x, hx, -⟩ := Option.map_eq_some_iff.1 hy
  show ptr c.smscs r.smsc ∈ _
  rw [ptr_some hx]
  exact ent_mem hx

/-- The handlers find the targets that the user configured. -/
theorem routed_of (base : Cfg) {c : Config.St} {t : Ussd} (h : Config.URel c t) {r : SsReq} {tg : Target}
    (hr : RoutedTo (cfgOf base c) r tg) : named tg = target t r ∧ ∀ n, tg = .external n → n ∈ (cfgOf base c).euses := by
  have hlk : r.cgroup0 = true → ussdLookup (cfgOf base c) r = (Config.ussdLookup r.code c.routes).map (route c.euses) := by
    intro h0
    unfold ussdLookup
    rw [if_pos h0]
    exact List.find?_map ..
  have hm : ∀ n, tg = .external n → n ∈ (cfgOf base c).euses := by
    obtain ⟨h1, h2⟩ := euseOk_of base h
    rintro n rfl
    cases hr with
    | ext e1 _ _ e4 => exact h1 _ (by rw [e1]; exact List.mem_append_right _ List.mem_cons_self) n e4
    | dflt _ e2 => exact h2 n e2
  refine ⟨?_, hm⟩
  unfold target
  have found : ∀ rt, ussdLookup (cfgOf base c) r = some rt → r.cgroup0 = true →
      t.lookup r.code = some (match rt.to with | .inl n => .inl n.name | .inr i => .inr i) := by
    intro rt e h0
    rw [hlk h0] at e
    obtain ⟨r0, hr0, rfl⟩ := Option.map_eq_some_iff.1 e
    have hf := Config.urel_lookup h r.code
    unfold Config.ussdFor at hf
    rw [hr0] at hf
    dsimp only at hf
    unfold route
    dsimp only
    cases ht : r0.tgt with
    | int i => rw [ht] at hf; exact (Option.some.inj hf).symm
    | ext id =>
      rw [ht] at hf
      obtain ⟨x, hx, hx2⟩ := Option.map_eq_some_iff.1 hf
      dsimp only
      rw [ptr_some hx, ← hx2]
      rfl
  have nofound : (∀ rt ∈ (cfgOf base c).ussdRoutes, ¬ Matching r rt) →
      (if r.cgroup0 then t.lookup r.code else t.dflt.map .inl) = t.dflt.map .inl := by
    intro hno
    split
    · rename_i h0
      have e := lookup_none hno
      rw [hlk h0] at e
      have hf := Config.urel_lookup h r.code
      unfold Config.ussdFor at hf
      rw [Option.map_eq_none_iff.1 e] at hf
      dsimp only at hf
      have hd := h.dflt
      split at hf
      · rename_i id hid
        rw [hid] at hd
        cases ht : t.dflt with
        | none => rw [ht] at hd; cases hd
        | some y =>
          rw [ht] at hd
          obtain ⟨x, hx, hx2⟩ := Option.map_eq_some_iff.1 (Option.some.inj hd)
          rw [hx] at hf
          rw [← Option.some.inj hf, ← hx2]
          rfl
      · rename_i hid
        rw [hid] at hd
        cases ht : t.dflt with
        | none => exact (Option.some.inj hf).symm
        | some y => rw [ht] at hd; cases hd
    · rfl
  have hd := (dflt_some h.dflt).1
  cases hr with
  | ext e1 e2 e3 e4 => rw [if_pos e2.1, found _ (lookup_first e1 e2 e3) e2.1, e4]; rfl
  | int e1 e2 e3 e4 => rw [if_pos e2.1, found _ (lookup_first e1 e2 e3) e2.1, e4]; rfl
  | dflt e1 e2 =>
    rw [nofound e1, ← hd]
    have e2 : c.euseDefault.map (ptr c.euses) = some _ := e2
    rw [e2]
    rfl
  | nobody e1 e2 =>
    rw [nofound e1, ← hd]
    have e2 : c.euseDefault.map (ptr c.euses) = none := e2
    rw [e2]
    rfl

/-- The same for the SMSCs. -/
theorem smsc_of (base : Cfg) {c : Config.St} {t : Smsc} (h : Config.SRel c t) (addr : Bytes) :
    (findSmscRoute (cfgOf base c) addr).map (·.name) = t.lookup addr
    ∧ ∀ n, findSmscRoute (cfgOf base c) addr = some n → n ∈ (cfgOf base c).smscs := by
  have hlk : (cfgOf base c).smscRoutes.find? (·.1 == addr) =
      (Config.smscRouteFind c.smscRoutes addr).map fun r => (r.num, ptr c.smscs r.smsc) := List.find?_map ..
  have hf := Config.srel_lookup h addr
  unfold Config.smscFor at hf
  unfold findSmscRoute
  rw [hlk]
  cases hx : Config.smscRouteFind c.smscRoutes addr with
  | some r =>
    rw [hx] at hf
    obtain ⟨x, hx, hx2⟩ := Option.map_eq_some_iff.1 hf
    dsimp only [Option.map_some]
    rw [ptr_some hx]
    refine ⟨hx2, fun n hn => ?_⟩
    rw [← Option.some.inj hn]
    exact ent_mem hx
  | none =>
    rw [hx] at hf
    dsimp only [Option.map_none] at hf ⊢
    obtain ⟨h1, h2⟩ := dflt_some h.dflt
    refine ⟨?_, h2⟩
    show (c.smscDefault.map (ptr c.smscs)).map (·.name) = _
    cases hs : c.smscDefault with
    | none => rw [hs] at hf; exact Option.some.inj hf
    | some id =>
      rw [hs] at hf
      obtain ⟨x, hx, hx2⟩ := Option.map_eq_some_iff.1 hf
      rw [Option.map_some, ptr_some hx]
      exact hx2

end Verif.Live
