import Verif.Auc.Lemmas3
/-! # Requests on reachable databases -/
namespace Verif.Auc
open Verif Verif.Db Verif.Hlr

/-! ## Invariants -/

theorem aucFinish_sat {R : Db → Db → Prop} (hR : Pre R) (id : Int)
    (r : Option (List Vec) × Option Aud3) (h : ∀ id q, Sat R (Op.sqn id q).run) :
    Sat R (aucFinish id r) := by
  unfold aucFinish
  cases r.2 with
  | none => exact Sat.pure hR _
  | some a =>
    dsimp only
    split
    · exact Sat.pure hR _
    · refine Sat.bind hR (h id a.sqn) (fun rc => ?_)
      split <;> exact Sat.pure hR _

theorem dbGetAuc_sat {R : Db → Db → Prop} (hR : Pre R) (c : Crypto) (rands : Nat → Option Bytes)
    (imsi : Bytes) (ind n : Nat) (ra au : Option Bytes) (sep : Bool)
    (h : ∀ id q, Sat R (Op.sqn id q).run) : Sat R (dbGetAuc c rands imsi ind n ra au sep) := by
  refine Sat.bind hR (Sat.bind hR (Sat.stmt hR (fun d => hR.refl d))
    (fun a => by cases a <;> exact Sat.pure hR _)) (fun k => ?_)
  cases k with
  | err rc => exact Sat.pure hR _
  | keys id g u =>
    dsimp only
    by_cases hb : (match u with | some a => decide (32 ≤ a.bl) | none => false) = true
    · cases u with
      | none => simp at hb
      | some a => dsimp only at hb ⊢; rw [if_pos hb]; exact Sat.pure hR _
    · cases u with
      | none => exact aucFinish_sat hR _ _ h
      | some a => dsimp only at hb ⊢; rw [if_neg hb]; exact aucFinish_sat hR _ _ h

theorem rxSai_sat {R : Db → Db → Prop} (hR : Pre R) (cfg : Cfg) (c : Crypto)
    (rands : Nat → Option Bytes) (rnd : Nat → Option (Nat → UInt8)) (q : SaiReq)
    (h : ∀ op : Op, Sat R op.run) : Sat R (rxSai cfg c rands rnd q) :=
  Sat.bind hR (createOnDemand_sat hR cfg rnd q.imsi (h _) (fun _ => h _)) (fun _ =>
    Sat.bind hR (dbInd_sat hR _ (h _)) (fun _ =>
      Sat.bind hR (dbGetAuc_sat hR c rands _ _ _ _ _ _ (fun _ _ => h _)) (fun _ => Sat.pure hR _)))

/-- Unique identities and usable keys. -/
abbrev Good (d : Db) : Prop := Unique d ∧ KeysOk d

theorem good_op (op : Op) : Sat (Keeps Good) op.run :=
  fun w hw => ⟨unique_op op w hw.1, keysOk_op op w hw.2⟩

theorem good_ev (imsi : Bytes) (d : Db) (e : Ev) (h : Good d) : Good (e.exec imsi d).1 := by
  cases e with
  | db op s => exact (good_op op).exec d s h
  | sai cfg c rands rnd q s => exact (rxSai_sat (Keeps.pre _) cfg c rands rnd q good_op).exec d s h

theorem runEvs_good : ∀ (evs : List Ev) (d : Db), Good d → Good (runEvs d evs)
  | [], _, h => h
  | e :: es, d, h => runEvs_good es _ (good_ev [] d e h)

theorem good_empty : Good {} := ⟨Db.Props.unique_empty, by constructor <;> simp⟩

theorem reach_good (past : List Ev) : Good (runEvs {} past) := runEvs_good past {} good_empty

/-! ## The last sequence number -/

theorem vecLoop_none_same (c : Crypto) (rands : Nat → Option Bytes) (g : Option Aud2)
    (rs : Option (Bytes × Bytes)) (hg : ∀ x r, g = some x → c.gsm x.algo x.ki r ≠ none)
    (n i : Nat) (hi : i ≠ 0) (a : Aud3)
    (h : (vecLoop c rands g rs n i (some a)).1 = []) :
    (vecLoop c rands g rs n i (some a)).2 = some a := by
  cases n with
  | zero => rfl
  | succ n =>
    unfold vecLoop at h ⊢
    split at h
    · rfl
    · rename_i r hr
      dsimp only at h ⊢
      rw [if_neg hi] at h ⊢
      split at h
      · rename_i hx
        dsimp only
        unfold oneVec at hx ⊢
        dsimp only at hx ⊢
        cases hgu : genUmts c a r with
        | mk o a' =>
          rw [hgu] at hx
          cases o with
          | none => rw [genUmts_fail hgu]
          | some v =>
            dsimp only at hx ⊢
            cases g with
            | none => simp at hx
            | some g =>
              dsimp only at hx ⊢
              cases hgg : c.gsm g.algo g.ki r with
              | none => exact absurd hgg (hg g r rfl)
              | some p => rw [hgg] at hx; simp at hx
      · simp at h

theorem genUmts_last {c : Crypto} {a : Aud3} {rand : Bytes} {v : Vec} {a' : Aud3}
    (h : genUmts c a rand = (some v, a')) : v.sqn? = some (a'.sqn % 2 ^ 48) := by
  unfold genUmts at h
  split at h
  · obtain ⟨rfl, h2, _⟩ := genXor_ok h; exact h2
  split at h
  · simp at h
  · split at h
    · simp at h
    · dsimp only at h
      split at h
      · simp at h
      · simp only [Prod.mk.injEq, Option.some.injEq] at h
        obtain ⟨rfl, rfl⟩ := h
        rfl

theorem oneVec_last {c : Crypto} {g : Option Aud2} {a : Aud3} {rs : Option (Bytes × Bytes)}
    {rand : Bytes} {v : Vec} {u : Option Aud3} (h : oneVec c g (some a) rs rand = (some v, u)) :
    ∃ a', u = some a' ∧ v.sqn? = some (a'.sqn % 2 ^ 48) := by
  unfold oneVec at h
  dsimp only at h
  have key : ∀ {w : Vec} {x : Option Vec × Aud3}, (x = genUmts c a rand ∨
      ∃ ra au, x = genUmtsAuts c a ra au rand) → x.1 = some w → w.sqn? = some (x.2.sqn % 2 ^ 48) := by
    intro w x hx hw
    rcases hx with rfl | ⟨ra, au, hx⟩
    · exact genUmts_last (Prod.ext hw rfl)
    · unfold genUmtsAuts at hx
      split at hx
      · rw [hx] at hw; simp at hw
      · subst hx; exact genUmts_last (Prod.ext hw rfl)
  split at h
  · simp at h
  · rename_i w hw
    have k := key (by
      cases rs with
      | none => exact .inl rfl
      | some p => exact .inr ⟨p.1, p.2, rfl⟩) hw
    split at h
    · simp only [Prod.mk.injEq, Option.some.injEq] at h
      obtain ⟨rfl, rfl⟩ := h
      exact ⟨_, rfl, k⟩
    · split at h
      · simp at h
      · simp only [Prod.mk.injEq, Option.some.injEq] at h
        obtain ⟨rfl, rfl⟩ := h
        exact ⟨_, rfl, k⟩

theorem vecLoop_last (c : Crypto) (rands : Nat → Option Bytes) (g : Option Aud2)
    (rs : Option (Bytes × Bytes)) (hg : ∀ x r, g = some x → c.gsm x.algo x.ki r ≠ none) :
    ∀ (n i : Nat) (a : Aud3) (v : Vec),
    (vecLoop c rands g rs n i (some a)).1.getLast? = some v →
    ∃ a', (vecLoop c rands g rs n i (some a)).2 = some a' ∧ v.sqn? = some (a'.sqn % 2 ^ 48)
  | 0, i, a, v, h => by simp [vecLoop] at h
  | n + 1, i, a, v, h => by
    unfold vecLoop at h ⊢
    split at h
    · simp at h
    · rename_i r hr
      dsimp only at h ⊢
      generalize hx : oneVec c g (some a) (if i = 0 then rs else none) r = x at h ⊢
      obtain ⟨o, u⟩ := x
      cases o with
      | none => simp at h
      | some w =>
        obtain ⟨a', hu, hw⟩ := oneVec_last hx
        subst hu
        dsimp only at h ⊢
        by_cases hnil : (vecLoop c rands g rs n (i + 1) (some a')).1 = []
        · rw [hnil] at h
          simp at h
          subst h
          refine ⟨a', ?_, hw⟩
          exact vecLoop_none_same c rands g rs hg n (i + 1) (by omega) a' hnil
        · rw [List.getLast?_cons_of_ne_nil hnil] at h
          exact vecLoop_last c rands g rs hg n (i + 1) a' v h

/-! ## Fault-free requests -/

theorem getAuthData_uniform (imsi : Bytes) : Uniform (getAuthData imsi) :=
  .bind (.stmt _ _) (fun a => by cases a <;> exact .pure _)

theorem dbGetAuc_uniform (c : Crypto) (rands : Nat → Option Bytes)
    (imsi : Bytes) (ind n : Nat) (ra au : Option Bytes) (sep : Bool) :
    Uniform (dbGetAuc c rands imsi ind n ra au sep) := by
  refine .bind (getAuthData_uniform _) (fun k => ?_)
  cases k with
  | err rc => exact .pure _
  | keys id g u =>
    dsimp only
    refine .ite (.pure _) ?_
    unfold aucFinish
    dsimp only
    split
    · exact .pure _
    · exact .ite (.pure _) (.bind (updateSqn_uniform _ _) (fun _ => .ite (.pure _) (.pure _)))

theorem rxSai_uniform (cfg : Cfg) (c : Crypto)
    (rands : Nat → Option Bytes) (rnd : Nat → Option (Nat → UInt8)) (q : SaiReq) :
    Uniform (rxSai cfg c rands rnd q) :=
  .bind (createOnDemand_uniform _ _ _) (fun _ => .bind (dbInd_uniform _) (fun _ =>
    .bind (dbGetAuc_uniform _ _ _ _ _ _ _ _) (fun _ => .pure _)))

theorem getAuthData_ok (d : Db) (imsi : Bytes) :
    getAuthData imsi { db := d, script := [] } = (some (authKeys d imsi), { db := d, script := [] }) := by
  unfold getAuthData
  rw [bind_run, stmt_ok]
  simp only [sqlAuc, authKeys]
  cases hf : List.find? (fun r => r.imsi == imsi) d.subs with
  | none => rfl
  | some r => rfl

theorem updateSqn_ok (d : Db) (hU : Unique d) (id : Int) (q : Nat) {a : Auc3}
    (h : key3 d id = some a) :
    updateSqn id q { db := d, script := [] } = (some 0, { db := setSqn d id q, script := [] }) := by
  unfold updateSqn
  rw [bind_run, stmt_ok]
  simp only [sqlUpdSqn, auc3_count hU h]
  rfl

/-- Result of db_get_auc when nothing fails. -/
theorem dbGetAuc_ok (c : Crypto) (rands : Nat → Option Bytes) (imsi : Bytes) (ind n : Nat)
    (ra au : Option Bytes) (sep : Bool) (d : Db) (hG : Good d) :
    (exec (dbGetAuc c rands imsi ind n ra au sep) d []).1 = some (match authKeys d imsi with
      | .err rc => .err rc
      | .keys _ g u => aucRet (computeVectors c rands n g
          (u.map (fun a => { a with ind := ind % 2 ^ a.bl, sep := sep })) ra au).1) := by
  unfold exec dbGetAuc
  simp only [bind_run, getAuthData_ok]
  cases hk : authKeys d imsi with
  | err rc => rfl
  | keys id g u =>
    cases u with
    | none =>
      simp only [Bool.false_eq_true, if_false, Option.map_none]
      have h2 := (compute_snd c rands n g none ra au).1 rfl
      simp only [aucFinish, h2]
      rfl
    | some u =>
      obtain ⟨hbl, hal⟩ := authKeys_u hG.2 hk
      have hbl' : ¬ 32 ≤ u.bl := by omega
      simp only [hbl', decide_false, Bool.false_eq_true, if_false, Option.map_some]
      obtain ⟨s, h2⟩ := (compute_snd c rands n g
        (some { u with ind := ind % 2 ^ u.bl, sep := sep }) ra au).2 _ rfl
      have hal' : (u.algo == Algo.none) = false := by simpa using hal
      simp only [aucFinish, h2, hal', Bool.false_eq_true, if_false]
      have hk3 : ∃ a, key3 d id = some a := by
        have := (authKeys_keys hk).2.2
        cases hk3 : key3 d id with
        | none => rw [hk3] at this; simp at this
        | some a => exact ⟨a, rfl⟩
      obtain ⟨a, hk3⟩ := hk3
      simp only [bind_run, updateSqn_ok d hG.1 id s hk3]
      rfl

end Verif.Auc
