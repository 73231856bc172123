import Verif.Auc.Lemmas6
/-!
# Subscribers with the algorithm XOR-3G

For them the sequence number does not advance: all vectors carry the one that is stored.
-/
namespace Verif.Auc
open Verif Verif.Db Verif.Hlr

theorem oneVec_xor (c : Crypto) (g : Option Aud2) (a : Aud3) (rand : Bytes) (hx : a.algo = .xor3g) :
    (oneVec c g (some a) none rand).2 = some a
    ∧ ∀ v, (oneVec c g (some a) none rand).1 = some v → v.sqn? = some (a.sqn % 2 ^ 48) := by
  simp only [oneVec]
  rw [genUmts_xor hx]
  rcases hg : genXor c a rand with ⟨_ | v, a'⟩
  · have := genXor_snd c a rand
    rw [hg] at this
    have h2 : a' = a := this
    subst h2
    exact ⟨rfl, by simp⟩
  · obtain ⟨h1, h2, -⟩ := genXor_ok hg
    subst h1
    cases g with
    | none => exact ⟨rfl, by rintro v' h; cases h; exact h2⟩
    | some g =>
      dsimp only
      cases c.gsm g.algo g.ki rand with
      | none => exact ⟨rfl, by simp⟩
      | some p => exact ⟨rfl, by rintro v' h; cases h; exact h2⟩

theorem vecLoop_xor (c : Crypto) (rands : Nat → Option Bytes) (g : Option Aud2) (a : Aud3)
    (hx : a.algo = .xor3g) : ∀ n i : Nat,
    (vecLoop c rands g none n i (some a)).2 = some a
    ∧ ∀ v ∈ (vecLoop c rands g none n i (some a)).1, v.sqn? = some (a.sqn % 2 ^ 48)
  | 0, i => ⟨rfl, by simp [vecLoop]⟩
  | n + 1, i => by
    unfold vecLoop
    cases rands i with
    | none => exact ⟨rfl, by simp⟩
    | some r =>
      have he : (if i = 0 then (none : Option (Bytes × Bytes)) else none) = none := by split <;> rfl
      dsimp only
      rw [he]
      obtain ⟨h1, h2⟩ := oneVec_xor c g a r hx
      generalize oneVec c g (some a) none r = x at h1 h2
      obtain ⟨o, u⟩ := x
      dsimp only at h1
      subst h1
      cases o with
      | none => exact ⟨rfl, by simp⟩
      | some w =>
        obtain ⟨h3, h4⟩ := vecLoop_xor c rands g a hx n (i + 1)
        refine ⟨h3, ?_⟩
        intro v hv
        rcases List.mem_cons.1 hv with rfl | hv
        · exact h2 _ rfl
        · exact h4 v hv

theorem sqnsOf_const {l : List Vec} {q : Nat} (h : ∀ v ∈ l, v.sqn? = some q) : ∀ x ∈ sqnsOf l, x = q := by
  intro x hx
  unfold sqnsOf at hx
  obtain ⟨v, hv, h2⟩ := List.mem_filterMap.1 hx
  have := h v hv
  have h3 : v.sqn? = some x := h2
  rw [h3] at this
  exact Option.some.inj this

/-- A request without AUTS for a subscriber with XOR-3G. -/
theorem auc_xor {c : Crypto} {rands : Nat → Option Bytes} {imsi : Bytes} {ind n : Nat}
    {ra : Option Bytes} {sep : Bool} {id : Int} {a : Auc3} {d : Db} {o : Option AucRes} {d' : Db}
    (h : Own id imsi a d) (hxor : a.algo = .xor3g)
    (hp : AucPost c rands imsi ind n ra none sep d o d') :
    Own id imsi a d' ∧ ∀ vs, o = some (.vecs vs) → ∀ x ∈ sqnsOf vs, x = a.sqn % 2 ^ 48 := by
  have key : ∀ {id' g u}, authKeys d imsi = .keys id' g u → id' = id ∧ u = load3 a := by
    intro id' g u hk
    obtain ⟨⟨r, hr, hri, hrid⟩, _, h3⟩ := authKeys_keys hk
    obtain ⟨r0, hr0, hr0id, hr0i⟩ := h.row
    have : r = r0 := eq_of_nodup_map h.uniq.imsis hr hr0 (hri.trans hr0i.symm)
    subst this
    refine ⟨hrid.symm.trans hr0id, ?_⟩
    have e : id' = id := hrid.symm.trans hr0id
    subst e
    rw [h3, h.key]; rfl
  cases hp with
  | died => exact ⟨h, by simp⟩
  | eio => exact ⟨h, by simp⟩
  | nokeys _ => exact ⟨h, by simp⟩
  | ub _ _ => exact ⟨h, by simp⟩
  | @only2g id' g r hk hr =>
    refine ⟨h, ?_⟩
    intro vs hvs
    subst hr
    simp only [Option.some.injEq] at hvs
    unfold aucRet at hvs
    split at hvs
    · simp at hvs
    · rename_i l hl
      cases hvs
      unfold computeVectors at hl
      dsimp only at hl
      split at hl
      · simp at hl
      · cases ra with
        | some x => simp at hl
        | none =>
          simp only [Option.some.injEq] at hl
          subst hl
          have := vecLoop_2g_sqns c rands (Option.filter (fun a => a.algo != Algo.none) g) none n 0
          intro x hx
          have h2 : x ∈ ([] : List Nat) := by rw [← this]; exact hx
          simp at h2
  | @noalgo id' g u r hk ha hr =>
    obtain ⟨rfl, hu⟩ := key hk
    have := (load3_fields hu.symm).2.2
    rw [ha, hxor] at this
    simp at this
  | unstored _ => exact ⟨h, by simp⟩
  | @stored id' g u r a' hk hbl ha hr =>
    obtain ⟨rfl, hu⟩ := key hk
    obtain ⟨e1, e2, e3⟩ := load3_fields hu.symm
    unfold computeVectors at hr
    dsimp only at hr
    rw [filter_algo (u := { u with ind := ind % 2 ^ u.bl, sep := sep }) ha] at hr
    simp only [Option.isNone_some, Bool.and_false, Bool.false_eq_true, if_false] at hr
    have own : some { u with ind := ind % 2 ^ u.bl, sep := sep } = some a' →
        Own id' imsi a (setSqn d id' a'.sqn) := by
      intro hh
      cases hh
      have := setSqn_own (q := a.sqn) h
      show Own id' imsi a (setSqn d id' u.sqn)
      rw [e1]; exact this
    cases ra with
    | some x =>
      simp only [Prod.mk.injEq] at hr
      obtain ⟨rfl, h2⟩ := hr
      exact ⟨own h2, by intro vs hvs; simp [aucRet] at hvs⟩
    | none =>
      simp only [Prod.mk.injEq] at hr
      obtain ⟨rfl, h2⟩ := hr
      obtain ⟨h3, h4⟩ := vecLoop_xor c rands (Option.filter (fun a => a.algo != Algo.none) g)
        { u with ind := ind % 2 ^ u.bl, sep := sep } (e3.trans hxor) n 0
      rw [h3] at h2
      refine ⟨own h2, ?_⟩
      intro vs hvs
      simp only [aucRet, Option.some.injEq, AucRes.vecs.injEq] at hvs
      subst hvs
      intro x hx
      have := sqnsOf_const h4 x hx
      rw [this]
      show u.sqn % 2 ^ 48 = _
      rw [e1]

/-- A whole request without AUTS. -/
theorem rxSai_xor (cfg : Cfg) (c : Crypto) (rands : Nat → Option Bytes) (rnd : Nat → Option (Nat → UInt8))
    (q : SaiReq) (hau : q.auts = none) (id : Int) (a : Auc3) (hxor : a.algo = .xor3g) (d : Db) (s : Script)
    (h : Own id q.imsi a d) :
    Own id q.imsi a (exec (rxSai cfg c rands rnd q) d s).2
    ∧ ∀ vs, (exec (rxSai cfg c rands rnd q) d s).1 = some (.result vs) → ∀ x ∈ sqnsOf vs, x = a.sqn % 2 ^ 48 := by
  refine (rxSai_post cfg c rands rnd q (I := Own id q.imsi a)
    (Q := fun o d' => Own id q.imsi a d' ∧ ∀ vs, o = some (.result vs) → ∀ x ∈ sqnsOf vs, x = a.sqn % 2 ^ 48)
    (fun d h => h.uniq) (own_cod _ _ _) (own_ind _) (fun d h => ⟨h, by simp⟩)
    (fun d ind o d' h hpp => ?_)).exec d s h
  rw [hau] at hpp
  obtain ⟨h1, h2⟩ := auc_xor h hxor hpp
  refine ⟨h1, ?_⟩
  intro vs hvs
  cases o with
  | none => simp at hvs
  | some y =>
    simp only [Option.map_some, Option.some.injEq] at hvs
    exact h2 vs (by rw [saiAnswer_result hvs])

/-- All the vectors handed out for a subscriber with XOR-3G carry the stored number. -/
theorem issued_xor (id : Int) (imsi : Bytes) (a : Auc3) (hxor : a.algo = .xor3g) :
    ∀ (evs : List Ev) (d : Db), Own id imsi a d → (∀ e ∈ evs, e.Plain id imsi) →
    ∀ x ∈ issued imsi d evs, x = a.sqn % 2 ^ 48
  | [], _, _, _ => by simp [issued]
  | .db op s :: evs, d, h, hp => by
    have h' : Own id imsi a (Db.exec op.run d s).2 :=
      (own_op (s := s) (hp _ (List.mem_cons_self ..))).exec d s h
    have := issued_xor id imsi a hxor evs _ h' (fun e he => hp e (by simp [he]))
    simpa [issued, Ev.exec] using this
  | .sai cfg c rands rnd q s :: evs, d, h, hp => by
    have hP := hp _ (by simp : Ev.sai cfg c rands rnd q s ∈ _)
    have hp' : ∀ e ∈ evs, e.Plain id imsi := fun e he => hp e (by simp [he])
    have hdb : ((Ev.sai cfg c rands rnd q s).exec imsi d).1
        = (Db.exec (rxSai cfg c rands rnd q) d s).2 := rfl
    intro x hx
    simp only [issued, List.mem_append] at hx
    by_cases hi : q.imsi = imsi
    · subst hi
      obtain ⟨h1, h2⟩ := rxSai_xor cfg c rands rnd q (hP rfl) id a hxor d s h
      rcases hx with hx | hx
      · simp only [Ev.exec] at hx
        split at hx
        · rename_i vs hvs
          rw [if_pos trivial] at hx
          exact h2 vs hvs x hx
        · simp at hx
      · rw [hdb] at hx
        exact issued_xor id q.imsi a hxor evs _ h1 hp' x hx
    · have h' := (rxSai_post cfg c rands rnd q (I := Own id imsi a)
        (Q := fun _ d' => Own id imsi a d')
        (fun d h => h.uniq) (own_cod _ _ _) (own_ind _) (fun d h => h)
        (fun d ind o d' h hpp => auc_other h hi hpp)).exec d s h
      rcases hx with hx | hx
      · simp only [Ev.exec] at hx
        split at hx
        · rw [if_neg hi] at hx; simp at hx
        · simp at hx
      · rw [hdb] at hx
        exact issued_xor id imsi a hxor evs _ h' hp' x hx

end Verif.Auc
