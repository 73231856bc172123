import Verif.Hlr.Spec
import Verif.Db.Uniform
import Verif.Db.Props
/-! # Creation on demand -/
namespace Verif.Hlr
open Verif Verif.Db

theorem Post.ofExec {P : Db → Prop} {m : DbM α} {Q : Option α → Db → Prop}
    (h : ∀ d s, P d → Q (exec m d s).1 (exec m d s).2) : Post P m Q :=
  fun w hw => h w.db w.script hw

theorem existsByImsi_post (d0 : Db) (imsi : Bytes) :
    Post (fun d => d = d0) (existsByImsi imsi) (fun o d => d = d0 ∧
      (o = none ∨ o = some SQLITE_IOERR ∨ (o = some 0 ∧ Known d0 imsi)
        ∨ (o = some (-ENOENT) ∧ ¬ Known d0 imsi))) := by
  refine Post.bind (fun o d => d = d0 ∧ (o = none ∨ o = some .error
    ∨ o = some (sqlSel (·.imsi == imsi) d0).1)) (Post.stmt ?_ ?_ ?_) ?_ ?_
  · rintro d rfl; exact ⟨rfl, .inr (.inr rfl)⟩
  · rintro d rfl; exact ⟨rfl, .inr (.inl rfl)⟩
  · rintro d rfl; exact ⟨rfl, .inl rfl⟩
  · rintro d ⟨h, _⟩; exact ⟨h, .inl rfl⟩
  · intro a w hw
    obtain ⟨h1, h2⟩ := hw
    rcases h2 with h2 | h2 | h2
    · simp at h2
    · cases h2; exact ⟨h1, .inr (.inl rfl)⟩
    · simp only [Option.some.injEq] at h2
      subst h2
      simp only [sqlSel]
      cases hf : List.find? (fun r => r.imsi == imsi) d0.subs with
      | none =>
        refine ⟨h1, .inr (.inr (.inr ⟨rfl, ?_⟩))⟩
        rintro ⟨r, hr, hri⟩
        have := List.find?_eq_none.mp hf r hr
        simp [hri] at this
      | some r =>
        refine ⟨h1, .inr (.inr (.inl ⟨rfl, r, List.mem_of_find?_eq_some hf, ?_⟩))⟩
        have := List.find?_some hf
        simpa using this

theorem existsByMsisdn_post (d0 : Db) (m : Bytes) :
    Post (fun d => d = d0) (existsByMsisdn m) (fun o d => d = d0 ∧
      (o = some (-ENOENT) → ∀ r ∈ d0.subs, r.msisdn ≠ some m)) := by
  refine Post.bind (fun o d => d = d0 ∧ (o = none ∨ o = some .error
    ∨ o = some (sqlSel (·.msisdn == some m) d0).1)) (Post.stmt ?_ ?_ ?_) ?_ ?_
  · rintro d rfl; exact ⟨rfl, .inr (.inr rfl)⟩
  · rintro d rfl; exact ⟨rfl, .inr (.inl rfl)⟩
  · rintro d rfl; exact ⟨rfl, .inl rfl⟩
  · rintro d ⟨h, _⟩; exact ⟨h, by simp⟩
  · intro a w hw
    obtain ⟨h1, h2⟩ := hw
    rcases h2 with h2 | h2 | h2
    · simp at h2
    · cases h2
      refine ⟨h1, ?_⟩
      intro h
      have h' : some SQLITE_IOERR = some (-ENOENT) := h
      exact absurd h' (by decide)
    · simp only [Option.some.injEq] at h2
      subst h2
      simp only [sqlSel]
      cases hf : List.find? (fun r => r.msisdn == some m) d0.subs with
      | none =>
        refine ⟨h1, fun _ r hr hrm => ?_⟩
        have := List.find?_eq_none.mp hf r hr
        simp [hrm] at this
      | some r =>
        refine ⟨h1, ?_⟩
        intro h
        have h' : some (0 : Int) = some (-ENOENT) := h
        exact absurd h' (by decide)

theorem randDigit (x : UInt8) : 48 ≤ 48 + x % 10 ∧ 48 + x % 10 ≤ 57 := by
  have h : (x % 10).toNat = x.toNat % 10 := by simp
  have h1 : (48 + x % 10).toNat = 48 + x.toNat % 10 := by
    rw [UInt8.toNat_add, h]
    simp
    omega
  constructor
  · rw [UInt8.le_iff_toNat_le, h1]; simp
  · rw [UInt8.le_iff_toNat_le, h1]; simp; omega

theorem genMsisdn_post (rnd : Nat → Option (Nat → UInt8)) (len : Nat) (d0 : Db) : ∀ n i,
    Post (fun d => d = d0) (genMsisdn rnd len n i) (fun o d => d = d0 ∧
      ∀ m, o = some (some m) → Digits len len m ∧ ∀ r ∈ d0.subs, r.msisdn ≠ some m)
  | 0, i => Post.pure (by rintro d rfl; simp)
  | n + 1, i => by
    unfold genMsisdn
    split
    · exact Post.pure (by rintro d rfl; simp)
    · rename_i buf hb
      refine Post.bind _ (existsByMsisdn_post d0 _) (by rintro d ⟨h, _⟩; simp [h]) (fun rc => ?_)
      split
      · rename_i hrc
        refine Post.pure ?_
        rintro d ⟨h1, h2⟩
        refine ⟨h1, ?_⟩
        intro m hm
        simp only [Option.some.injEq] at hm
        subst hm
        refine ⟨⟨by simp, by simp, ?_⟩, h2 (by rw [hrc])⟩
        intro c hc
        obtain ⟨j, _, rfl⟩ := List.mem_map.mp hc
        exact randDigit _
      · exact (genMsisdn_post rnd len d0 n (i + 1)).mono (fun d h => h.1) (fun _ _ h => h)

/-- The number chosen, as an option. -/
def optMsisdn (m : Bytes) : Option Bytes := if m.isEmpty then none else some m

theorem codMsisdn_post (cfg : Cfg) (rnd : Nat → Option (Nat → UInt8)) (imsi : Bytes) (d0 : Db) :
    Post (fun d => d = d0) (codMsisdn cfg rnd imsi) (fun o d => d = d0 ∧
      ∀ m, o = some (some m) → cfg.cod ≠ .disabled
        ∧ (Digits 6 15 imsi → PolicyMsisdn cfg d0 imsi (optMsisdn m))) := by
  unfold codMsisdn
  split
  · rename_i hc
    refine Post.pure ?_
    rintro d rfl
    refine ⟨rfl, ?_⟩
    intro m hm
    simp only [Option.some.injEq] at hm
    refine ⟨by simp [hc], fun hi => ?_⟩
    have e : strlcpy 16 imsi = imsi := by
      unfold strlcpy; exact List.take_of_length_le (by have := hi.2.1; omega)
    rw [e] at hm
    subst hm
    have : imsi.isEmpty = false := by
      cases imsi with
      | nil => have := hi.1; simp at this
      | cons => rfl
    simp only [optMsisdn, this]
    exact .inl ⟨hc, rfl⟩
  · rename_i len hc
    refine (genMsisdn_post rnd len d0 10 0).mono (fun d h => h) ?_
    rintro o d ⟨h1, h2⟩
    refine ⟨h1, fun m hm => ⟨by simp [hc], fun _ => ?_⟩⟩
    obtain ⟨h3, h4⟩ := h2 m hm
    unfold optMsisdn
    split
    · rename_i he
      have : m = [] := by simpa using he
      subst this
      have h5 : len = 0 := by have := h3.1; simp at this; omega
      exact .inr (by rw [hc, h5])
    · exact .inr ⟨len, hc, h3, h4⟩
  · rename_i hc
    refine Post.pure ?_
    rintro d rfl
    refine ⟨rfl, ?_⟩
    intro m hm
    simp only [Option.some.injEq] at hm
    subst hm
    exact ⟨by simp [hc], fun _ => .inl hc⟩
  · refine Post.pure ?_
    rintro d rfl
    simp

/-- All outcomes of creation on demand. -/
inductive CodPost (cfg : Cfg) (imsi : Bytes) (d0 : Db) : Option Int → Db → Prop
  /-- nothing happened -/
  | same {o} : o ≠ some 0 → CodPost cfg imsi d0 o d0
  /-- the subscriber was created, but not given its number -/
  | half {o d m} : cfg.cod ≠ .disabled → PolicyMsisdn cfg d0 imsi (some m) →
      Added cfg imsi none d0 d → o ≠ some 0 → CodPost cfg imsi d0 o d
  /-- created as configured -/
  | full {o d m} : cfg.cod ≠ .disabled → PolicyMsisdn cfg d0 imsi m →
      Added cfg imsi m d0 d → o = some 0 → CodPost cfg imsi d0 o d

theorem CodPost.or {cfg : Cfg} {imsi : Bytes} {d0 d : Db} {o : Option Int}
    (h : CodPost cfg imsi d0 o d) : (d = d0 ∧ o ≠ some 0)
    ∨ (cfg.cod ≠ .disabled ∧ ∃ m, PolicyMsisdn cfg d0 imsi (some m) ∧ Added cfg imsi none d0 d
        ∧ o ≠ some 0)
    ∨ (cfg.cod ≠ .disabled ∧ ∃ m, PolicyMsisdn cfg d0 imsi m ∧ Added cfg imsi m d0 d
        ∧ o = some 0) := by
  cases h with
  | same h => exact .inl ⟨rfl, h⟩
  | half h1 h2 h3 h4 => exact .inr (.inl ⟨h1, _, h2, h3, h4⟩)
  | full h1 h2 h3 h4 => exact .inr (.inr ⟨h1, _, h2, h3, h4⟩)

theorem withRow_added {d : Db} {imsi m : Bytes} {row : SubRow} (hk : ¬ Known d imsi)
    (hr : row.imsi = imsi) :
    withRow { d with subs := d.subs ++ [row] } imsi (fun r => { r with msisdn := some m })
      = { d with subs := d.subs ++ [{ row with msisdn := some m }] } := by
  unfold withRow
  simp only [List.map_append, List.map_cons, List.map_nil, hr, if_true]
  have hn : ∀ r ∈ d.subs, (if r.imsi = imsi then { r with msisdn := some m } else r) = r := by
    intro r hr
    rw [if_neg]; intro h; exact hk ⟨r, hr, h⟩
  rw [List.map_congr_left hn]
  simp

theorem createOnDemand_post (cfg : Cfg) (rnd : Nat → Option (Nat → UInt8)) (imsi : Bytes)
    (d0 : Db) (hU : Unique d0) :
    Post (fun d => d = d0) (createOnDemand cfg rnd imsi) (CodPost cfg imsi d0) := by
  refine Post.bind _ (existsByImsi_post d0 imsi) (by rintro d ⟨rfl, _⟩; exact .same (by simp)) (fun e => ?_)
  refine Post.mono (P := fun d => d = d0) ?_ (fun d h => h.1) (fun _ _ h => h)
  split
  · exact Post.pure (by rintro d rfl; exact .same (by decide))
  · refine Post.bind _ (codMsisdn_post cfg rnd imsi d0) (by rintro d ⟨rfl, _⟩; exact .same (by simp)) (fun om => ?_)
    cases om with
    | none => exact Post.pure (by rintro d ⟨rfl, _⟩; exact .same (by decide))
    | some m =>
      refine Post.bind (fun o d => (o ≠ some 0 ∧ d = d0) ∨ (o = some 0 ∧ Added cfg imsi none d0 d
          ∧ cfg.cod ≠ .disabled ∧ PolicyMsisdn cfg d0 imsi (optMsisdn m)))
        (Post.ofExec ?_) ?_ (fun rc => ?_)
      · rintro d s ⟨rfl, h2⟩
        obtain ⟨h3, h4⟩ := h2 m rfl
        have := Db.Props.c02_create d s imsi cfg.codCs cfg.codPs
        dsimp only at this
        obtain ⟨c1, c2, c3, _⟩ := this
        by_cases h0 : (exec (subscrCreate imsi cfg.codCs cfg.codPs) d s).1 = some 0
        · right
          obtain ⟨hd, hk, _⟩ := c1.mp h0
          obtain ⟨id, hid, he⟩ := c2 h0
          exact ⟨h0, ⟨hk, hd, id, hid, he⟩, h3, h4 hd⟩
        · left; exact ⟨h0, c3 h0⟩
      · rintro d (⟨_, rfl⟩ | ⟨h, _⟩)
        · exact .same (by simp)
        · simp at h
      · split
        · rename_i hrc
          refine Post.pure ?_
          rintro d (⟨h, rfl⟩ | ⟨h, _⟩)
          · exact .same h
          · simp only [Option.some.injEq] at h; exact absurd h hrc
        · rename_i hrc
          have hrc : rc = 0 := by simpa using hrc
          subst hrc
          split
          · rename_i hm
            refine Post.pure ?_
            rintro d (⟨h, _⟩ | ⟨_, h2, h3, h4⟩)
            · exact absurd rfl h
            · simp only [optMsisdn, hm, if_true] at h4
              exact .full h3 h4 h2 rfl
          · rename_i hm
            refine Post.ofExec ?_
            rintro d s (⟨h, _⟩ | ⟨_, ⟨hk, hd, id, hid, he⟩, h3, h4⟩)
            · exact absurd rfl h
            · have hUd : Unique d := by
                have := hU.create imsi cfg.codCs cfg.codPs
                refine ⟨?_, ?_, ?_, he ▸ hU.keys2, he ▸ hU.keys3, he ▸ hU.inds, he ▸ hU.vlrs⟩
                · subst he
                  simp only [List.map_append, List.map_cons, List.map_nil]
                  rw [nodup_snoc]
                  exact ⟨hU.ids, by simpa using fun r hr => hid r hr⟩
                · subst he
                  simp only [List.map_append, List.map_cons, List.map_nil]
                  rw [nodup_snoc]
                  refine ⟨hU.imsis, ?_⟩
                  intro hmem
                  obtain ⟨r, hr, hri⟩ := List.mem_map.mp hmem
                  exact hk ⟨r, hr, hri⟩
                · subst he
                  simpa using hU.msisdns
              simp only [optMsisdn, hm, Bool.false_eq_true, if_false] at h4
              have hc := contract_msisdn d hUd s imsi m
              by_cases h0 : (exec (updateMsisdn imsi (some m)) d s).1 = some 0
              · refine .full h3 h4 ?_ h0
                rw [hc.effect h0]
                refine ⟨hk, hd, id, hid, ?_⟩
                rw [he, withRow_added hk rfl]
              · rw [hc.noEffect h0]
                exact .half h3 h4 ⟨hk, hd, id, hid, he⟩ h0

theorem genMsisdn_uniform (rnd : Nat → Option (Nat → UInt8)) (len : Nat) :
    ∀ n i, Uniform (genMsisdn rnd len n i)
  | 0, _ => .pure _
  | n + 1, i => by
    unfold genMsisdn
    split
    · exact .pure _
    · exact .bind (existsByMsisdn_uniform _)
        (fun _ => .ite (.pure _) (genMsisdn_uniform rnd len n (i + 1)))

theorem createOnDemand_uniform (cfg : Cfg) (rnd : Nat → Option (Nat → UInt8)) (imsi : Bytes) :
    Uniform (createOnDemand cfg rnd imsi) := by
  refine .bind (existsByImsi_uniform _) (fun _ => .ite (.pure _) (.bind ?_ (fun m => ?_)))
  · unfold codMsisdn
    split
    · exact .pure _
    · exact genMsisdn_uniform _ _ _ _
    · exact .pure _
    · exact .pure _
  · cases m with
    | none => exact .pure _
    | some m =>
      exact .bind (subscrCreate_uniform _ _ _)
        (fun _ => .ite (.pure _) (.ite (.pure _) (updateMsisdn_uniform _ _)))

end Verif.Hlr
