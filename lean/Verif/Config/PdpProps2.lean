import Verif.Config.PdpProps

/-!
# C63: whether the PDP profiles are in use, and what is sent when they are not
-/

namespace Verif.Config
open Verif Verif.Sys Verif.Mslookup Verif.Mslookup.Mdns Verif.Config.Spec

/-- The profiles are in use after `pdp-profiles default` and until `no pdp-profiles default`. -/
def Switch (e : Env) (on : Bool) (x : Input) : Bool :=
  if parse e x.node x.words = some .pdpProfiles then true
  else if parse e x.node x.words = some .noPdpProfiles then false
  else on

theorem exec_pdpOn (file : Bool) (n : Node) (s : St) {c : Cmd} (h1 : c ≠ .pdpProfiles) (h2 : c ≠ .noPdpProfiles) :
    (exec file n s c).2.2.pdpOn = s.pdpOn := by
  cases c with
  | profile c =>
    unfold exec
    dsimp only
    split
    · rfl
    · unfold createPdp
      split
      · rename_i h
        obtain ⟨j, _, hj⟩ := Option.map_eq_some_iff.1 h
        cases hj
        rfl
      · rfl
  | noProfile c =>
    unfold exec destroyPdp
    dsimp only
    split <;> rfl
  | _ =>
    first
      | exact absurd rfl h1
      | exact absurd rfl h2
      | (unfold exec
         try dsimp only
         repeat' split
         all_goals first
           | rfl
           | (obtain ⟨m, hm⟩ := execMsl_msl n s _; rw [hm]))

theorem on_config (e : Env) (h : List Input) : (config e h).pdpOn = h.foldl (Switch e) false := by
  unfold config
  have h0 : ({} : St).pdpOn = false := rfl
  rw [← h0]
  generalize ({} : St) = s
  induction h generalizing s with
  | nil => rfl
  | cons x h ih =>
    rw [List.foldl_cons, List.foldl_cons, ih]
    congr 1
    unfold after Switch
    split
    · rename_i hp
      rw [hp]; simp
    · rename_i c hp
      rw [hp]
      by_cases h1 : c = .pdpProfiles
      · subst h1; simp [exec]
      · by_cases h2 : c = .noPdpProfiles
        · subst h2; simp [exec]
        · rw [exec_pdpOn _ _ _ h1 h2]
          simp [h1, h2]

/-- **C63.** The profiles are in use exactly if the last of `pdp-profiles default` and `no pdp-profiles
default` was the former; else an SGSN is sent one context, with the number 1 and the APN "*", which
stands for any (one label of one character, as 3GPP TS 23.003 writes an APN). -/
theorem c63_default (e : Env) (h : List Input) :
    ((config e h).pdpOn = true ↔ h.foldl (Switch e) false = true) ∧
    (h.foldl (Switch e) false = false →
      (sentPdps (config e h)).map (fun p => (p.ctx, p.info, p.apn)) = [(1, true, some (1 :: b "*"))]) := by
  rw [on_config]
  refine ⟨Iff.rfl, fun h' => ?_⟩
  unfold sentPdps
  rw [on_config, h', if_neg (by decide)]
  decide +kernel

example : exPdps.foldl (Switch e0) false = true ∧
    (exPdps ++ [typed .ps ["no", "pdp-profiles", "default"]]).foldl (Switch e0) false = false := by decide +kernel

end Verif.Config
