import Verif.Auc.Lemmas
import Verif.Auc.Spec
/-! # Helper lemmas: the authentication centre on top of the database -/
namespace Verif.Auc
open Verif Verif.Db Verif.Hlr

/-! ## Vectors come from the keys -/

theorem vecFrom_sqn {c : Crypto} {g : Option Aud2} {a : Aud3} {s : Nat} {v : Vec} :
    VecFrom c g (some { a with sqn := s }) v ↔ VecFrom c g (some a) v := by
  cases g <;> exact Iff.rfl

theorem genUmts_from {c : Crypto} {a : Aud3} {rand : Bytes} {v : Vec} {a' : Aud3}
    (h : genUmts c a rand = (some v, a')) :
    (∃ s x, v.umts = some (s % 2 ^ 48, x)
      ∧ c.umts a.algo a.k a.opc a.isOp a.sep s rand = some (x, v.kc, v.sres))
    ∧ v.rand = rand ∧ ∃ s, a' = { a with sqn := s } := by
  by_cases hx : a.algo = .xor3g
  · rw [genUmts_xor hx] at h
    obtain ⟨h1, _, h3, x, h4, h5⟩ := genXor_ok h
    exact ⟨⟨_, x, h4, h5⟩, h3, a.sqn, by rw [h1]⟩
  unfold genUmts at h
  rw [if_neg hx] at h
  split at h
  · simp at h
  split at h
  · simp at h
  dsimp only at h
  split at h
  · simp at h
  · rename_i u kc sres hc
    simp only [Prod.mk.injEq, Option.some.injEq] at h
    obtain ⟨h1, h2⟩ := h
    rw [← h1]
    exact ⟨⟨_, u, rfl, hc⟩, rfl, _, h2.symm⟩

theorem genUmts_snd (c : Crypto) (a : Aud3) (rand : Bytes) :
    ∃ s, (genUmts c a rand).2 = { a with sqn := s } := by
  rcases hg : genUmts c a rand with ⟨_ | v, a'⟩
  · exact ⟨a.sqn, by rw [genUmts_fail hg]⟩
  · exact (genUmts_from hg).2.2

/-- A turn of the loop: the vector is computed from the keys and the challenge, and
the keys stay (only the sequence number may change). -/
theorem oneVec_from (c : Crypto) (g : Option Aud2) (u : Option Aud3)
    (resync : Option (Bytes × Bytes)) (rand : Bytes) :
    let x := oneVec c g u resync rand
    (∀ v, x.1 = some v → VecFrom c g u v ∧ v.rand = rand)
    ∧ (u = none → x.2 = none) ∧ (∀ a, u = some a → ∃ s, x.2 = some { a with sqn := s }) := by
  intro x
  cases u with
  | none =>
    cases g with
    | none => simp [x, oneVec]
    | some g =>
      simp only [x, oneVec]
      cases hc : c.gsm g.algo g.ki rand with
      | none => simp
      | some p =>
        refine ⟨?_, by simp, by simp⟩
        intro v hv
        simp only [Option.some.injEq] at hv
        subst hv
        exact ⟨⟨rfl, hc⟩, rfl⟩
  | some a =>
    -- both generators deliver UMTS vectors of the same keys
    have key : ∀ r : Option Vec × Aud3,
        (r = genUmts c a rand ∨ (∃ s, r = genUmts c { a with sqn := s } rand) ∨ r = (none, a)) →
        (∀ v, r.1 = some v → (∃ s x, v.umts = some (s % 2 ^ 48, x)
          ∧ c.umts a.algo a.k a.opc a.isOp a.sep s rand = some (x, v.kc, v.sres)) ∧ v.rand = rand)
        ∧ ∃ s, r.2 = { a with sqn := s } := by
      rintro r (rfl | ⟨s, rfl⟩ | rfl)
      · refine ⟨fun v hv => ?_, genUmts_snd c a rand⟩
        have := genUmts_from (c := c) (a := a) (rand := rand) (v := v) (a' := (genUmts c a rand).2)
          (by rw [← hv])
        exact ⟨this.1, this.2.1⟩
      · refine ⟨fun v hv => ?_, ?_⟩
        · have := genUmts_from (c := c) (a := { a with sqn := s }) (rand := rand) (v := v)
            (a' := (genUmts c { a with sqn := s } rand).2) (by rw [← hv])
          exact ⟨this.1, this.2.1⟩
        · obtain ⟨t, ht⟩ := genUmts_snd c { a with sqn := s } rand
          exact ⟨t, ht⟩
      · exact ⟨by simp, a.sqn, rfl⟩
    have hr : ∃ r, x = (match r.1 with
        | none => (none, some r.2)
        | some v =>
          match g with
          | none => (some v, some r.2)
          | some g =>
            match c.gsm g.algo g.ki rand with
            | none => (none, some r.2)
            | some (kc, sres) => (some { v with kc := kc, sres := sres }, some r.2))
        ∧ (r = genUmts c a rand ∨ (∃ s, r = genUmts c { a with sqn := s } rand) ∨ r = (none, a)) := by
      cases resync with
      | none => exact ⟨_, rfl, .inl rfl⟩
      | some p =>
        refine ⟨genUmtsAuts c a p.1 p.2 rand, rfl, ?_⟩
        unfold genUmtsAuts
        cases c.auts a.algo a.k a.opc a.isOp p.1 p.2 with
        | none => exact .inr (.inr rfl)
        | some ms => exact .inr (.inl ⟨_, rfl⟩)
    obtain ⟨r, hx, hr⟩ := hr
    obtain ⟨h1, s, h2⟩ := key r hr
    rcases r with ⟨_ | v, a'⟩
    · simp only at hx h2
      rw [hx]
      refine ⟨by simp, by simp, ?_⟩
      intro b hb; cases hb; exact ⟨s, by rw [h2]⟩
    · obtain ⟨⟨t, y, hy1, hy2⟩, hy3⟩ := h1 v rfl
      cases g with
      | none =>
        simp only at hx h2
        rw [hx]
        refine ⟨?_, by simp, ?_⟩
        · intro w hw; cases hw
          exact ⟨⟨t, y, hy1, hy3 ▸ hy2⟩, hy3⟩
        · intro b hb; cases hb; exact ⟨s, by rw [h2]⟩
      | some g =>
        simp only at hx h2
        cases hc : c.gsm g.algo g.ki rand with
        | none =>
          simp only [hc] at hx
          rw [hx]
          refine ⟨by simp, by simp, ?_⟩
          intro b hb; cases hb; exact ⟨s, by rw [h2]⟩
        | some p =>
          simp only [hc] at hx
          rw [hx]
          refine ⟨?_, by simp, ?_⟩
          · intro w hw; cases hw
            refine ⟨⟨⟨t, y, v.kc, v.sres, hy1, ?_⟩, ?_⟩, hy3⟩
            · show c.umts a.algo a.k a.opc a.isOp a.sep t v.rand = _
              rw [hy3]; exact hy2
            · show c.gsm g.algo g.ki v.rand = _
              rw [hy3]; exact hc
          · intro b hb; cases hb; exact ⟨s, by rw [h2]⟩

theorem vecLoop_from (c : Crypto) (rands : Nat → Option Bytes) (g : Option Aud2)
    (resync : Option (Bytes × Bytes)) (n i : Nat) (u : Option Aud3) :
    let r := vecLoop c rands g resync n i u
    r.1.length ≤ n
    ∧ (∀ k (h : k < r.1.length), VecFrom c g u r.1[k] ∧ rands (i + k) = some r.1[k].rand)
    ∧ (u = none → r.2 = none) ∧ (∀ a, u = some a → ∃ s, r.2 = some { a with sqn := s }) := by
  induction n generalizing i u with
  | zero =>
    refine ⟨Nat.le_refl _, by simp [vecLoop], fun h => by simp [vecLoop, h], ?_⟩
    intro a ha; exact ⟨a.sqn, by simp [vecLoop, ha]⟩
  | succ n ih =>
    intro r
    have hr : r = vecLoop c rands g resync (n + 1) i u := rfl
    unfold vecLoop at hr
    cases hrand : rands i with
    | none =>
      simp only [hrand] at hr
      rw [hr]
      refine ⟨by simp, by simp, fun h => h, ?_⟩
      intro a ha; exact ⟨a.sqn, ha⟩
    | some x =>
      simp only [hrand] at hr
      obtain ⟨h1, h2, h3⟩ := oneVec_from c g u (if i = 0 then resync else none) x
      generalize oneVec c g u (if i = 0 then resync else none) x = y at hr h1 h2 h3
      rcases y with ⟨_ | v, u'⟩
      · simp only at hr h2 h3
        rw [hr]
        exact ⟨by simp, by simp, h2, h3⟩
      · simp only at hr h1 h2 h3
        obtain ⟨hv, hrd⟩ := h1 v rfl
        obtain ⟨i1, i2, i3, i4⟩ := ih (i + 1) u'
        have hfrom : ∀ w, VecFrom c g u' w → VecFrom c g u w := by
          intro w hw
          cases u with
          | none => rw [h2 rfl] at hw; exact hw
          | some a =>
            obtain ⟨s, hs⟩ := h3 a rfl
            rw [hs] at hw
            exact vecFrom_sqn.mp hw
        rw [hr]
        refine ⟨by simp only [List.length_cons]; omega, ?_, ?_, ?_⟩
        · intro k hk
          cases k with
          | zero => exact ⟨hv, by simp [hrand, hrd]⟩
          | succ k =>
            simp only [List.length_cons] at hk
            have := i2 k (by omega)
            refine ⟨hfrom _ this.1, ?_⟩
            have e : i + (k + 1) = i + 1 + k := by omega
            rw [e]; exact this.2
        · intro hu; exact i3 (h2 hu)
        · intro a ha
          obtain ⟨s, hs⟩ := h3 a ha
          obtain ⟨t, ht⟩ := i4 _ hs
          exact ⟨t, ht⟩

/-- After the first turn AUTS is not looked at. -/
theorem vecLoop_resync (c : Crypto) (rands : Nat → Option Bytes) (g : Option Aud2)
    (rs rs' : Option (Bytes × Bytes)) (n i : Nat) (hi : i ≠ 0) (u : Option Aud3) :
    vecLoop c rands g rs n i u = vecLoop c rands g rs' n i u := by
  induction n generalizing i u with
  | zero => rfl
  | succ n ih =>
    unfold vecLoop
    simp only [hi, if_false]
    cases rands i with
    | none => rfl
    | some x =>
      dsimp only
      rw [ih (i + 1) (by omega)]

/-- A verified AUTS: the loop works as if the USIM's sequence number had been
stored. -/
theorem vecLoop_auts (c : Crypto) (rands : Nat → Option Bytes) (g : Option Aud2)
    (ra au : Bytes) (n : Nat) (a : Aud3) (ms : Nat) (x : Bytes)
    (h : c.auts a.algo a.k a.opc a.isOp ra au = some ms) (hr : rands 0 = some x) (hn : 0 < n) :
    vecLoop c rands g (some (ra, au)) n 0 (some a)
      = vecLoop c rands g none n 0 (some { a with sqn := ms % 2 ^ 48 }) := by
  cases n with
  | zero => omega
  | succ n =>
    unfold vecLoop
    simp only [hr, if_true]
    have : oneVec c g (some a) (some (ra, au)) x
        = oneVec c g (some { a with sqn := ms % 2 ^ 48 }) none x := by
      simp only [oneVec, genUmtsAuts, h]
    rw [this]
    generalize oneVec c g (some { a with sqn := ms % 2 ^ 48 }) none x = y
    rcases y with ⟨_ | v, u⟩
    · rfl
    · simp only
      rw [vecLoop_resync c rands g (some (ra, au)) none n (0 + 1) (by omega)]

/-- An AUTS that does not verify, or no randomness: nothing is generated and the
sequence number is unchanged. -/
theorem vecLoop_bad_auts (c : Crypto) (rands : Nat → Option Bytes) (g : Option Aud2)
    (ra au : Bytes) (n : Nat) (a : Aud3)
    (h : c.auts a.algo a.k a.opc a.isOp ra au = none ∨ rands 0 = none) :
    vecLoop c rands g (some (ra, au)) n 0 (some a) = ([], some a) := by
  cases n with
  | zero => rfl
  | succ n =>
    unfold vecLoop
    cases hr : rands 0 with
    | none => rfl
    | some x =>
      have h : c.auts a.algo a.k a.opc a.isOp ra au = none := by
        rcases h with h | h
        · exact h
        · rw [hr] at h; simp at h
      have : oneVec c g (some a) (some (ra, au)) x = (none, some a) := by
        simp only [oneVec, genUmtsAuts, h]
      simp only [if_true, this]

/-! ## db_get_auc -/

/-- The database with the stored sequence number of `id` replaced. -/
abbrev setSqn (d : Db) (id : Int) (s : Nat) : Db := (sqlUpdSqn id s d).2

theorem getAuthData_post (d0 : Db) (imsi : Bytes) :
    Post (fun d => d = d0) (getAuthData imsi) (fun o d => d = d0 ∧
      (o = none ∨ o = some (.err (-EIO)) ∨ o = some (authKeys d0 imsi))) := by
  refine Post.bind (fun o d => d = d0 ∧ (o = none ∨ o = some .error ∨ o = some (sqlAuc imsi d0).1))
    (Post.stmt ?_ ?_ ?_) ?_ ?_
  · rintro d rfl; exact ⟨rfl, .inr (.inr rfl)⟩
  · rintro d rfl; exact ⟨rfl, .inr (.inl rfl)⟩
  · rintro d rfl; exact ⟨rfl, .inl rfl⟩
  · rintro d ⟨h, _⟩; exact ⟨h, .inl rfl⟩
  · intro a w hw
    obtain ⟨h1, h2⟩ := hw
    rcases h2 with h2 | h2 | h2
    · simp at h2
    · cases h2; exact ⟨h1, .inr (.inl rfl)⟩
    · simp only [Option.some.injEq] at h2
      subst h2
      simp only [sqlAuc, authKeys]
      cases hf : List.find? (fun r => r.imsi == imsi) d0.subs with
      | none => exact ⟨h1, .inr (.inr rfl)⟩
      | some r => exact ⟨h1, .inr (.inr rfl)⟩

theorem updateSqn_post (d0 : Db) (id : Int) (s : Nat) (hc : d0.auc3.countP (·.id == id) = 1) :
    Post (fun d => d = d0) (updateSqn id s) (fun o d =>
      (d = d0 ∧ (o = none ∨ o = some (-EIO))) ∨ (d = setSqn d0 id s ∧ o = some 0)) := by
  refine Post.bind (fun o d => (d = d0 ∧ (o = none ∨ o = some .error))
    ∨ (d = setSqn d0 id s ∧ o = some (.done 1))) (Post.stmt ?_ ?_ ?_) ?_ ?_
  · rintro d rfl; right; exact ⟨rfl, by simp only [sqlUpdSqn, hc]⟩
  · rintro d rfl; left; exact ⟨rfl, .inr rfl⟩
  · rintro d rfl; left; exact ⟨rfl, .inl rfl⟩
  · rintro d (⟨h, _⟩ | ⟨_, h⟩)
    · left; exact ⟨h, .inl rfl⟩
    · simp at h
  · intro a w hw
    rcases hw with ⟨h1, h2⟩ | ⟨h1, h2⟩
    · rcases h2 with h2 | h2
      · simp at h2
      · cases h2; left; exact ⟨h1, .inr rfl⟩
    · cases h2; right; exact ⟨h1, rfl⟩

/-- The return value of auc_compute_vectors as db_get_auc sees it. -/
def aucRet (r : Option (List Vec)) : AucRes :=
  match r with | none => .err (-1) | some vs => .vecs vs

/-- All outcomes of db_get_auc. -/
inductive AucPost (c : Crypto) (rands : Nat → Option Bytes) (imsi : Bytes) (ind n : Nat)
    (ra au : Option Bytes) (sep : Bool) (d0 : Db) : Option AucRes → Db → Prop
  /-- died, or the SELECT failed -/
  | died : AucPost c rands imsi ind n ra au sep d0 none d0
  | eio : AucPost c rands imsi ind n ra au sep d0 (some (.err (-EIO))) d0
  /-- no usable keys -/
  | nokeys {rc} : authKeys d0 imsi = .err rc →
      AucPost c rands imsi ind n ra au sep d0 (some (.err rc)) d0
  /-- oversized ind_bitlen in the database -/
  | ub {id g u} : authKeys d0 imsi = .keys id g (some u) → 32 ≤ u.bl →
      AucPost c rands imsi ind n ra au sep d0 (some .ub) d0
  /-- no 3G keys: nothing to store -/
  | only2g {id g r} : authKeys d0 imsi = .keys id g none →
      computeVectors c rands n g none ra au = r →
      AucPost c rands imsi ind n ra au sep d0 (some (aucRet r.1)) d0
  | noalgo {id g u r} : authKeys d0 imsi = .keys id g (some u) → u.algo = .none →
      computeVectors c rands n g (some { u with ind := ind % 2 ^ u.bl, sep := sep }) ra au = r →
      AucPost c rands imsi ind n ra au sep d0 (some (aucRet r.1)) d0
  /-- storing the sequence number failed: no vectors -/
  | unstored {id g u} : authKeys d0 imsi = .keys id g (some u) →
      AucPost c rands imsi ind n ra au sep d0 (some (.err (-1))) d0
  /-- stored -/
  | stored {id g u r a} : authKeys d0 imsi = .keys id g (some u) → u.bl < 32 → u.algo ≠ .none →
      computeVectors c rands n g (some { u with ind := ind % 2 ^ u.bl, sep := sep }) ra au
        = (r, some a) →
      AucPost c rands imsi ind n ra au sep d0 (some (aucRet r)) (setSqn d0 id a.sqn)

/-- auc_compute_vectors leaves all of the 3G data except the sequence number. -/
theorem compute_snd (c : Crypto) (rands : Nat → Option Bytes) (n : Nat) (g : Option Aud2)
    (u : Option Aud3) (ra au : Option Bytes) :
    (u = none → (computeVectors c rands n g u ra au).2 = none)
    ∧ ∀ a, u = some a → ∃ s, (computeVectors c rands n g u ra au).2 = some { a with sqn := s } := by
  have triv : ∀ a, u = some a → ∃ s, u = some { a with sqn := s } := fun a ha => ⟨a.sqn, ha⟩
  unfold computeVectors
  dsimp only
  split
  · exact ⟨fun h => h, triv⟩
  · split
    · exact ⟨fun h => h, triv⟩
    · exact ⟨fun h => h, triv⟩
    · split
      · exact ⟨fun h => h, triv⟩
      · rename_i hu
        cases u with
        | none => simp at hu
        | some a =>
          refine ⟨by simp, ?_⟩
          intro b hb; cases hb
          have hf : Option.filter (fun a : Aud3 => a.algo != Algo.none) (some a) = some a := by
            cases h : Option.filter (fun a : Aud3 => a.algo != Algo.none) (some a) with
            | none => rw [h] at hu; simp at hu
            | some b => simp [Option.filter] at h; exact h.2 ▸ rfl
          exact (vecLoop_from c rands _ _ n 0 _).2.2.2 a hf
    · cases u with
      | none => simp
      | some a =>
        refine ⟨by simp, ?_⟩
        intro b hb; cases hb
        cases hf : Option.filter (fun a : Aud3 => a.algo != Algo.none) (some a) with
        | none => simp only [Option.isNone_none, if_true]; exact triv a rfl
        | some b =>
          simp only [Option.isNone_some, Bool.false_eq_true, if_false]
          have : b = a := by simp [Option.filter] at hf; exact hf.2.symm
          subst this
          exact (vecLoop_from c rands _ _ n 0 _).2.2.2 b rfl

theorem loadKeys_id {id id' : Int} {a2 : Option Auc2} {a3 : Option Auc3} {g : Option Aud2}
    {u : Option Aud3} (h : loadKeys id a2 a3 = .keys id' g u) :
    id' = id ∧ g = a2.bind load2 ∧ u = a3.bind load3 := by
  unfold loadKeys at h
  dsimp only at h
  split at h
  · split at h
    · simp at h
    · cases h; exact ⟨rfl, rfl, rfl⟩
  · split at h
    · simp at h
    · rename_i hl; cases h; exact ⟨rfl, rfl, hl.symm⟩

/-- The keys of `imsi` are those stored under the id of the row of `imsi`. -/
theorem authKeys_keys {d : Db} {imsi : Bytes} {id : Int} {g : Option Aud2} {u : Option Aud3}
    (h : authKeys d imsi = .keys id g u) :
    (∃ r ∈ d.subs, r.imsi = imsi ∧ r.id = id)
    ∧ g = (key2 d id).bind load2 ∧ u = (key3 d id).bind load3 := by
  unfold authKeys at h
  cases hf : List.find? (fun r => r.imsi == imsi) d.subs with
  | none => rw [hf] at h; simp at h
  | some r =>
    rw [hf] at h
    simp only at h
    obtain ⟨h1, h2, h3⟩ := loadKeys_id h
    subst h1
    refine ⟨⟨r, List.mem_of_find?_eq_some hf, ?_, rfl⟩, h2, h3⟩
    have := List.find?_some hf
    simpa using this

theorem auc3_count {d : Db} (hU : Unique d) {id : Int} {a : Auc3} (h : key3 d id = some a) :
    d.auc3.countP (·.id == id) = 1 := by
  have hle := countP_le_one_of_nodup d.auc3 (·.id) id hU.keys3
  have hpos : 0 < d.auc3.countP (·.id == id) := by
    rw [List.countP_pos_iff]
    unfold key3 at h
    exact ⟨a, List.mem_of_find?_eq_some h, by have := List.find?_some h; exact this⟩
  omega

theorem dbGetAuc_post (c : Crypto) (rands : Nat → Option Bytes) (imsi : Bytes) (ind n : Nat)
    (ra au : Option Bytes) (sep : Bool) (d0 : Db) (hU : Unique d0) :
    Post (fun d => d = d0) (dbGetAuc c rands imsi ind n ra au sep)
      (AucPost c rands imsi ind n ra au sep d0) := by
  refine Post.bind _ (getAuthData_post d0 imsi) ?_ ?_
  · rintro d ⟨rfl, _⟩; exact .died
  · intro k
    by_cases hk : k = authKeys d0 imsi
    · subst hk
      cases hkeys : authKeys d0 imsi with
      | err rc =>
        refine Post.pure ?_
        rintro d ⟨rfl, _⟩; exact .nokeys hkeys
      | keys id g u =>
        cases u with
        | none =>
          refine Post.mono (P := fun d => d = d0) ?_ (fun d h => h.1) (fun _ _ h => h)
          simp only [Bool.false_eq_true, if_false, Option.map_none]
          have h2 := (compute_snd c rands n g none ra au).1 rfl
          generalize hr : computeVectors c rands n g none ra au = r at h2
          simp only [aucFinish, h2]
          refine Post.pure ?_
          rintro d rfl
          exact .only2g hkeys hr
        | some u =>
          by_cases hbl : 32 ≤ u.bl
          · simp only [hbl, decide_true, if_true]
            refine Post.pure ?_
            rintro d ⟨rfl, _⟩; exact .ub hkeys hbl
          · refine Post.mono (P := fun d => d = d0) ?_ (fun d h => h.1) (fun _ _ h => h)
            simp only [hbl, decide_false, Bool.false_eq_true, if_false, Option.map_some]
            obtain ⟨s, h2⟩ := (compute_snd c rands n g
              (some { u with ind := ind % 2 ^ u.bl, sep := sep }) ra au).2 _ rfl
            generalize hr : computeVectors c rands n g
              (some { u with ind := ind % 2 ^ u.bl, sep := sep }) ra au = r at h2
            simp only [aucFinish, h2]
            split
            · rename_i halgo
              refine Post.pure ?_
              rintro d rfl
              exact .noalgo hkeys (by simpa using halgo) hr
            · rename_i halgo
              have hcount : d0.auc3.countP (·.id == id) = 1 := by
                have := (authKeys_keys hkeys).2.2
                cases hk3 : key3 d0 id with
                | none => rw [hk3] at this; simp at this
                | some a => exact auc3_count hU hk3
              refine Post.bind _ (updateSqn_post d0 id _ hcount) ?_ ?_
              · rintro d (⟨rfl, _⟩ | ⟨_, h⟩)
                · exact .died
                · simp at h
              · intro rc
                split
                · rename_i hrc
                  refine Post.pure ?_
                  rintro d (⟨rfl, h⟩ | ⟨_, h⟩)
                  · exact .unstored hkeys
                  · cases h; omega
                · rename_i hrc
                  refine Post.pure ?_
                  rintro d (⟨rfl, h⟩ | ⟨rfl, h⟩)
                  · rcases h with h | h
                    · simp at h
                    · cases h; exact absurd (by decide) hrc
                  · have hr' : computeVectors c rands n g
                        (some { u with ind := ind % 2 ^ u.bl, sep := sep }) ra au
                        = (r.1, some { u with ind := ind % 2 ^ u.bl, sep := sep, sqn := s }) := by
                      rw [hr]; exact Prod.ext rfl h2
                    exact AucPost.stored hkeys (by omega) (by simpa using halgo) hr'
    · refine Post.mono (P := fun d => d = d0 ∧ k = .err (-EIO)) ?_ ?_ (fun _ _ h => h)
      · by_cases hk2 : k = .err (-EIO)
        · subst hk2
          refine Post.pure ?_
          rintro d ⟨rfl, _⟩; exact .eio
        · rintro w ⟨_, h⟩; exact absurd h hk2
      · rintro d ⟨h1, h2⟩
        rcases h2 with h2 | h2 | h2
        · simp at h2
        · cases h2; exact ⟨h1, rfl⟩
        · cases h2; exact absurd rfl hk

end Verif.Auc
