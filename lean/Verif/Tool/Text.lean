import Verif.Tool.Spec
/-!
# Reading query lines
-/
namespace Verif.Tool
open Verif Verif.Mslookup

theorem pieces_head (p : UInt8 → Bool) (s : Bytes) : ∃ l, Spec.pieces p s = s.takeWhile (fun c => !p c) :: l := by
  induction s with
  | nil => exact ⟨[], rfl⟩
  | cons c s ih =>
    obtain ⟨l, hl⟩ := ih
    rw [Spec.pieces, List.takeWhile_cons]
    by_cases hp : p c = true
    · rw [if_pos hp]; simp only [hp, Bool.not_true, Bool.false_eq_true, if_false]; exact ⟨_, rfl⟩
    · rw [if_neg hp, hl]
      have : (!p c) = true := by simpa using hp
      rw [if_pos this]; exact ⟨l, rfl⟩

theorem pieces_find (p : UInt8 → Bool) (s : Bytes) : (Spec.pieces p s).find? (fun l => decide (l ≠ []))
    = if ((s.dropWhile p).takeWhile (fun c => !p c)).isEmpty then none else some ((s.dropWhile p).takeWhile (fun c => !p c)) := by
  induction s with
  | nil => rfl
  | cons c s ih =>
    by_cases hp : p c = true
    · rw [Spec.pieces, if_pos hp, List.dropWhile_cons, if_pos hp, ← ih]
      simp only [List.find?_cons, ne_eq, not_true, decide_false]
    · rw [Spec.pieces, if_neg hp, List.dropWhile_cons, if_neg hp]
      obtain ⟨l, hl⟩ := pieces_head p s
      have : (!p c) = true := by simpa using hp
      rw [hl, List.takeWhile_cons, if_pos this]
      simp

theorem firstLine_eq (d : Bytes) : firstLine d = Spec.line d := by
  have e1 : (fun c : UInt8 => decide (c = 13 ∨ c = 10)) = (fun c => c == 13 || c == 10) := by
    funext c; rw [Bool.decide_or]; rfl
  have e2 : (d.takeWhile (fun c => decide (c ≠ 0))) = cstr d := by
    unfold cstr; congr 1; funext c; by_cases h : c = 0 <;> simp [h]
  unfold Spec.line
  rw [e1, e2, pieces_find]
  rfl

theorem splitFirst_none {x : UInt8} {s : Bytes} : splitFirst x s = none ↔ x ∉ s := by
  induction s with
  | nil => exact ⟨fun _ h => (by cases h), fun _ => rfl⟩
  | cons c s ih =>
    rw [splitFirst]
    by_cases h : c = x
    · simp [h]
    · rw [if_neg h, Option.map_eq_none_iff, ih, List.mem_cons]
      exact ⟨fun a e => e.elim (fun e => h e.symm) a, fun a e => a (.inr e)⟩

theorem splitFirst_some {x : UInt8} {s a d : Bytes} : splitFirst x s = some (a, d) ↔ x ∉ a ∧ s = a ++ x :: d := by
  induction s generalizing a with
  | nil => constructor
           · intro h; cases h
           · rintro ⟨-, h⟩; cases a <;> cases h
  | cons c s ih =>
    rw [splitFirst]
    by_cases h : c = x
    · rw [if_pos h]
      subst h
      constructor
      · intro h; cases h; exact ⟨fun h => (by cases h), rfl⟩
      · rintro ⟨h1, h2⟩
        cases a with
        | nil => cases h2; rfl
        | cons y a => cases h2; exact absurd List.mem_cons_self h1
    · rw [if_neg h, Option.map_eq_some_iff]
      constructor
      · rintro ⟨⟨y, z⟩, h1, h2⟩
        cases h2
        obtain ⟨h3, h4⟩ := ih.1 h1
        exact ⟨fun e => (List.mem_cons.1 e).elim (fun e => h e.symm) h3, by rw [h4]; rfl⟩
      · rintro ⟨h1, h2⟩
        cases a with
        | nil => cases h2; exact absurd rfl h
        | cons y a =>
          cases h2
          exact ⟨(a, d), ih.2 ⟨fun e => h1 (List.mem_cons_of_mem _ e), rfl⟩, rfl⟩

theorem domain_split {a d : Bytes} (h : (64 : UInt8) ∉ a) : Spec.domain (a ++ 64 :: d) = d := by
  unfold Spec.domain
  rw [if_pos (by simp)]
  have : (a ++ 64 :: d).dropWhile (fun c => decide (c ≠ 64)) = 64 :: d := by
    induction a with
    | nil => rfl
    | cons c a ih =>
      have hc : c ≠ 64 := fun e => h (by rw [e]; exact List.mem_cons_self)
      rw [List.cons_append, List.dropWhile_cons, if_pos (by simpa using hc)]
      exact ih (fun e => h (List.mem_cons_of_mem _ e))
  rw [this]; rfl

theorem parts_eq (l : Bytes) : (parts l).2 = Spec.domain l := by
  unfold parts
  cases h : splitFirst 64 l with
  | none =>
    have := splitFirst_none.1 h
    unfold Spec.domain
    rw [if_neg this]
  | some p =>
    obtain ⟨a, d⟩ := p
    obtain ⟨h1, h2⟩ := splitFirst_some.1 h
    rw [h2, domain_split h1]

/-! ## Numbers -/

theorem digitsVal_some {ds : Bytes} {n x : Nat} : Mdns.digitsVal n ds = some x
    ↔ (∀ c ∈ ds, 48 ≤ c ∧ c ≤ 57) ∧ x = ds.foldl (fun n c => n * 10 + (c.toNat - 48)) n := by
  induction ds generalizing n with
  | nil =>
    show some n = some x ↔ _
    constructor
    · intro h; cases h; exact ⟨fun c h => (by cases h), rfl⟩
    · rintro ⟨-, h⟩; rw [h]; rfl
  | cons c ds ih =>
    rw [Mdns.digitsVal]
    by_cases hc : isDigit c = true
    · rw [if_pos hc, ih, List.foldl_cons]
      have hc : 48 ≤ c ∧ c ≤ 57 := by
        unfold isDigit at hc; simpa using hc
      constructor
      · rintro ⟨h1, h2⟩
        exact ⟨fun y hy => (List.mem_cons.1 hy).elim (fun e => e ▸ hc) (h1 y), h2⟩
      · rintro ⟨h1, h2⟩
        exact ⟨fun y hy => h1 y (List.mem_cons_of_mem _ hy), h2⟩
    · rw [if_neg hc]
      constructor
      · intro h; cases h
      · rintro ⟨h1, -⟩
        exfalso; apply hc
        have := h1 c List.mem_cons_self
        unfold isDigit; simpa using this

theorem unsignedVal_some {ds : Bytes} {x : Nat} : Mdns.unsignedVal ds = some x
    ↔ ds ≠ [] ∧ (∀ c ∈ ds, 48 ≤ c ∧ c ≤ 57) ∧ x = Spec.value ds := by
  unfold Mdns.unsignedVal
  cases ds with
  | nil => simp
  | cons c ds =>
    rw [if_neg (by simp), digitsVal_some]
    exact ⟨fun h => ⟨by simp, h⟩, fun h => h.2⟩

theorem isSpace_iff (c : UInt8) : Mdns.isSpace c = true ↔ c = 32 ∨ 9 ≤ c ∧ c ≤ 13 := by
  unfold Mdns.isSpace; simp

theorem dropWhile_split (p : UInt8 → Bool) (s : Bytes) : s = s.takeWhile p ++ s.dropWhile p := (List.takeWhile_append_dropWhile ..).symm

theorem mem_takeWhile {p : UInt8 → Bool} {s : Bytes} {c : UInt8} (h : c ∈ s.takeWhile p) : p c = true := by
  induction s with
  | nil => cases h
  | cons x s ih =>
    rw [List.takeWhile_cons] at h
    split at h
    · rename_i hx
      rcases List.mem_cons.1 h with rfl | h
      · exact hx
      · exact ih h
    · cases h

/-- The bytes after white space. -/
theorem dropWhile_space {sp t : Bytes} (h1 : ∀ c ∈ sp, c = 32 ∨ 9 ≤ c ∧ c ≤ 13) {c : UInt8} {t' : Bytes} (ht : t = c :: t')
    (hc : Mdns.isSpace c = false) : (sp ++ t).dropWhile Mdns.isSpace = t := by
  induction sp with
  | nil => rw [List.nil_append, ht, List.dropWhile_cons, hc]; rfl
  | cons x sp ih =>
    rw [List.cons_append, List.dropWhile_cons, if_pos ((isSpace_iff x).2 (h1 x List.mem_cons_self))]
    exact ih (fun y hy => h1 y (List.mem_cons_of_mem _ hy))

theorem digit_not_space {c : UInt8} (h : 48 ≤ c ∧ c ≤ 57) : Mdns.isSpace c = false ∧ c ≠ 43 ∧ c ≠ 45 := by
  have h1 : 48 ≤ c.toNat := UInt8.le_iff_toNat_le.1 h.1
  refine ⟨?_, ?_, ?_⟩
  · cases hs : Mdns.isSpace c with
    | false => rfl
    | true =>
      exfalso
      rcases (isSpace_iff c).1 hs with e | e
      · subst e; exact absurd h1 (by decide)
      · have h2 : c.toNat ≤ 13 := UInt8.le_iff_toNat_le.1 e.2
        omega
  · rintro rfl; exact absurd h1 (by decide)
  · rintro rfl; exact absurd h1 (by decide)

theorem decodeU32_number {s : Bytes} {x : Nat} : Mdns.decodeU32 s = some x ↔ Spec.Number s x := by
  unfold Mdns.decodeU32 Spec.Number
  cases s with
  | nil =>
    show some 0 = some x ↔ _
    constructor
    · intro h; cases h; exact .inl ⟨rfl, rfl⟩
    · rintro (⟨-, rfl⟩ | ⟨sp, sg, ds, h, -, -, hd, -⟩)
      · rfl
      · have := congrArg List.length h
        simp at this
        exact absurd (List.length_eq_zero_iff.1 (by omega)) hd
  | cons y s =>
    rw [if_neg (by simp)]
    generalize hs : y :: s = s'
    have hne : s' ≠ [] := by rw [← hs]; simp
    clear hs
    have hsplit := dropWhile_split Mdns.isSpace s'
    have hsp : ∀ c ∈ s'.takeWhile Mdns.isSpace, c = 32 ∨ 9 ≤ c ∧ c ≤ 13 := fun c hc => (isSpace_iff c).1 (mem_takeWhile hc)
    have key : ∀ {t : Bytes} {f : Nat → Option Nat}, (f = fun v => if v > 4294967295 then none else some v) →
        ((Mdns.unsignedVal t).bind f = some x ↔ t ≠ [] ∧ (∀ c ∈ t, 48 ≤ c ∧ c ≤ 57) ∧ x = Spec.value t ∧ x < 2 ^ 32) := by
      intro t f hf
      subst hf
      constructor
      · intro h
        obtain ⟨v, h1, h2⟩ := Option.bind_eq_some_iff.1 h
        obtain ⟨h3, h4, h5⟩ := unsignedVal_some.1 h1
        split at h2
        · cases h2
        · cases h2
          exact ⟨h3, h4, h5, by omega⟩
      · rintro ⟨h3, h4, h5, h6⟩
        rw [unsignedVal_some.2 ⟨h3, h4, h5⟩]
        show (if x > 4294967295 then none else some x) = some x
        rw [if_neg (by omega)]
    constructor
    · intro h
      right
      refine ⟨s'.takeWhile Mdns.isSpace, ?_⟩
      split at h
      · rename_i t ht
        rw [ht] at hsplit
        have h0 : ∃ v, Mdns.unsignedVal t = some v ∧ v = 0 ∧ x = 0 := by
          split at h
          · rename_i e; cases h; exact ⟨0, e, rfl, rfl⟩
          · cases h
        obtain ⟨v, h1, h2, h3⟩ := h0
        obtain ⟨h4, h5, h6⟩ := unsignedVal_some.1 h1
        exact ⟨[45], t, by rw [List.append_assoc]; exact hsplit, hsp, .inr (.inr ⟨rfl, h3⟩), h4, h5, by rw [h3, ← h2, h6], by omega⟩
      · rename_i t ht
        rw [ht] at hsplit
        obtain ⟨h3, h4, h5, h6⟩ := (key rfl).1 h
        exact ⟨[43], t, by rw [List.append_assoc]; exact hsplit, hsp, .inr (.inl rfl), h3, h4, h5, h6⟩
      · obtain ⟨h3, h4, h5, h6⟩ := (key rfl).1 h
        exact ⟨[], _, by rw [List.append_nil]; exact hsplit, hsp, .inl rfl, h3, h4, h5, h6⟩
    · rintro (⟨h, -⟩ | ⟨sp, sg, ds, h, h1, h2, h3, h4, h5, h6⟩)
      · exact absurd h hne
      · obtain ⟨c, ds', rfl⟩ : ∃ c ds', ds = c :: ds' := by
          cases ds with
          | nil => exact absurd rfl h3
          | cons c ds' => exact ⟨c, ds', rfl⟩
        have hc := digit_not_space (h4 c List.mem_cons_self)
        rw [h, List.append_assoc]
        rcases h2 with rfl | rfl | ⟨rfl, hx⟩
        · rw [dropWhile_space h1 (List.nil_append _) hc.1, List.nil_append]
          split
          · rename_i e; cases e; exact absurd rfl hc.2.2
          · rename_i e; cases e; exact absurd rfl hc.2.1
          · exact (key rfl).2 ⟨h3, h4, h5, h6⟩
        · rw [dropWhile_space (t := [43] ++ (c :: ds')) (c := 43) h1 rfl (by decide)]
          exact (key rfl).2 ⟨h3, h4, h5, h6⟩
        · rw [dropWhile_space (t := [45] ++ (c :: ds')) (c := 45) h1 rfl (by decide)]
          show (match Mdns.unsignedVal (c :: ds') with | some 0 => some 0 | _ => none) = some x
          rw [unsignedVal_some.2 ⟨h3, h4, rfl⟩, ← h5, hx]
          rfl

/-! ## Query lines -/

theorem handling_times {cfg : Cfg} {line : Bytes} {mn to : Nat} :
    handling cfg (parts line).1 = some (mn, to) ↔ Spec.Times cfg line (Spec.domain line) mn to := by
  constructor
  · intro h
    unfold parts at h
    cases hs : splitFirst 64 line with
    | none =>
      rw [hs] at h
      cases h
      have h0 := splitFirst_none.1 hs
      have : Spec.domain line = line := by unfold Spec.domain; rw [if_neg h0]
      rw [this]
      exact .plain line h0
    | some p =>
      obtain ⟨a, d⟩ := p
      obtain ⟨h1, h2⟩ := splitFirst_some.1 hs
      rw [hs] at h
      rw [h2, domain_split h1]
      dsimp only [handling] at h
      split at h
      · cases h
      rename_i hlen
      cases hd : splitFirst 45 a with
      | none =>
        rw [hd] at h
        have hd := splitFirst_none.1 hd
        dsimp only at h
        split at h
        · rename_i he
          cases h
          exact .timeout a d 0 h1 hd (by omega) (.inl ⟨by simpa using he, rfl⟩)
        · obtain ⟨v, hv, e⟩ := Option.map_eq_some_iff.1 h
          cases e
          exact .timeout a d _ h1 hd (by omega) (decodeU32_number.1 hv)
      | some p =>
        obtain ⟨x, c⟩ := p
        rw [hd] at h
        obtain ⟨h3, h4⟩ := splitFirst_some.1 hd
        dsimp only at h
        obtain ⟨mn', hm, h⟩ := Option.bind_eq_some_iff.1 h
        have h64 : (64 : UInt8) ∉ x ∧ (64 : UInt8) ∉ c := by
          rw [h4] at h1
          exact ⟨fun e => h1 (List.mem_append_left _ e), fun e => h1 (List.mem_append_right _ (List.mem_cons_of_mem _ e))⟩
        rw [h4] at hlen ⊢
        split at h
        · rename_i he
          cases h
          exact .both x c d _ _ h64.1 h3 h64.2 (by omega) (decodeU32_number.1 hm) (.inl ⟨by simpa using he, rfl⟩)
        · obtain ⟨v, hv, e⟩ := Option.map_eq_some_iff.1 h
          cases e
          exact .both x c d _ _ h64.1 h3 h64.2 (by omega) (decodeU32_number.1 hm) (decodeU32_number.1 hv)
  · intro h
    generalize hd : Spec.domain line = dom at h
    cases h with
    | plain =>
      rename_i h0
      unfold parts
      rw [splitFirst_none.2 h0]; rfl
    | timeout a _ to h1 h2 h3 h4 =>
      unfold parts
      rw [splitFirst_some.2 ⟨h1, rfl⟩]
      dsimp only [handling]
      rw [if_neg (by omega), splitFirst_none.2 h2]
      dsimp only
      cases a with
      | nil =>
        have : to = 0 := by have := decodeU32_number.2 h4; cases this; rfl
        rw [this]; rfl
      | cons y a =>
        rw [if_neg (by simp), decodeU32_number.2 h4]; rfl
    | both a c _ mn to h1 h2 h3 h4 h5 h6 =>
      unfold parts
      have h64 : (64 : UInt8) ∉ a ++ 45 :: c := by
        intro e
        rcases List.mem_append.1 e with e | e
        · exact h1 e
        · rcases List.mem_cons.1 e with e | e
          · cases e
          · exact h3 e
      rw [splitFirst_some.2 ⟨h64, rfl⟩]
      dsimp only [handling]
      rw [if_neg (by omega), splitFirst_some.2 ⟨h2, rfl⟩]
      dsimp only
      rw [decodeU32_number.2 h5]
      dsimp only [Option.bind]
      cases c with
      | nil =>
        have : to = 0 := by have := decodeU32_number.2 h6; cases this; rfl
        rw [this]; rfl
      | cons y a =>
        rw [if_neg (by simp), decodeU32_number.2 h6]; rfl

theorem times_domain {cfg : Cfg} {line d : Bytes} {mn to : Nat} (h : Spec.Times cfg line d mn to) : d = Spec.domain line := by
  cases h with
  | plain =>
    rename_i h0
    unfold Spec.domain; rw [if_neg h0]
  | timeout a _ to h1 h2 h3 h4 => rw [domain_split h1]
  | both a c _ mn to h1 h2 h3 h4 h5 h6 =>
    rw [domain_split]
    intro e
    rcases List.mem_append.1 e with e | e
    · exact h1 e
    · rcases List.mem_cons.1 e with e | e
      · cases e
      · exact h3 e

theorem lower_of {x y : UInt8} (h : x = y ∨ (65 ≤ x ∧ x ≤ 90 ∧ y = x + 32) ∨ (65 ≤ y ∧ y ≤ 90 ∧ x = y + 32)) : lower x = lower y := by
  have big : ∀ x : UInt8, 65 ≤ x → x ≤ 90 → lower x = lower (x + 32) := by
    intro x h1 h2
    unfold lower
    rw [if_pos (by simp [h1, h2]), if_neg]
    have h1 : 65 ≤ x.toNat := UInt8.le_iff_toNat_le.1 h1
    have h2 : x.toNat ≤ 90 := UInt8.le_iff_toNat_le.1 h2
    simp only [Bool.and_eq_true, decide_eq_true_eq, not_and]
    intro _ h
    have h := UInt8.le_iff_toNat_le.1 h
    rw [UInt8.toNat_add] at h
    have e1 : (32 : UInt8).toNat = 32 := rfl
    have e2 : (90 : UInt8).toNat = 90 := rfl
    rw [e1, e2] at h
    omega
  rcases h with rfl | ⟨h1, h2, rfl⟩ | ⟨h1, h2, rfl⟩
  · rfl
  · exact big x h1 h2
  · exact (big y h1 h2).symm

theorem caseEq_of : ∀ {s t : Bytes}, Mslookup.Spec.SameUpToCase s t → caseEq s t = true
  | [], [], _ => rfl
  | x :: s, y :: t, h => by
    have := caseEq_of h.2
    unfold caseEq at *
    simp only [List.map_cons, beq_iff_eq] at *
    rw [lower_of h.1, this]
  | [], _ :: _, h => h.elim
  | _ :: _, [], h => h.elim

theorem caseEq_congr {s t u : Bytes} (h : caseEq s t = true) : caseEq s u = caseEq t u := by
  unfold caseEq at *
  rw [eq_of_beq h]

theorem sameLength : ∀ {s t : Bytes}, Mslookup.Spec.SameUpToCase s t → s.length = t.length
  | [], [], _ => rfl
  | x :: s, y :: t, h => by rw [List.length_cons, List.length_cons, sameLength h.2]
  | [], _ :: _, h => h.elim
  | _ :: _, [], h => h.elim

theorem same_no_dot : ∀ {s t : Bytes}, Mslookup.Spec.SameUpToCase s t → (∀ c ∈ t, 97 ≤ c) → (46 : UInt8) ∉ s
  | [], [], _, _ => fun h => (by cases h)
  | x :: s, y :: t, h, ht => by
    intro hm
    rcases List.mem_cons.1 hm with e | e
    · subst e
      have hy : 97 ≤ y.toNat := UInt8.le_iff_toNat_le.1 (ht y List.mem_cons_self)
      rcases h.1 with e | ⟨e, -⟩ | ⟨-, e, -⟩
      · subst e; exact absurd hy (by decide)
      · have := UInt8.le_iff_toNat_le.1 e
        exact absurd this (by decide)
      · have : y.toNat ≤ 90 := UInt8.le_iff_toNat_le.1 e
        omega
    · exact same_no_dot h.2 (fun c hc => ht c (List.mem_cons_of_mem _ hc)) e
  | [], _ :: _, h, _ => h.elim
  | _ :: _, [], h, _ => h.elim

theorem parse_of {q : Query} (h : Mslookup.Spec.Valid q) {typ : Bytes} (ht : Mslookup.Spec.SameUpToCase typ (typeName q.id)) :
    parseDomain (q.service ++ 46 :: (idText q.id ++ 46 :: typ)) = .ok q := by
  obtain ⟨svc, i⟩ := q
  obtain ⟨⟨hs1, hs2⟩, hd, hi⟩ := h
  dsimp only at *
  have hnd : (46 : UInt8) ∉ typ := by
    apply same_no_dot ht
    cases i <;> (rw [typeName]; decide)
  have hx := Props.no_dot hd
  unfold parseDomain
  rw [show svc ++ 46 :: (idText i ++ 46 :: typ) = (svc ++ 46 :: idText i) ++ 46 :: typ from by simp, Props.splitLast_join hnd]
  dsimp only
  rw [if_neg (by simp), Props.splitLast_join hx]
  dsimp only
  have hsv : svc.isEmpty = false := by cases svc with
    | nil => simp at hs1
    | cons _ _ => rfl
  have hlen := sameLength ht
  have htyp : typ.isEmpty = false := by cases typ with
    | nil => cases i <;> simp [typeName] at hlen
    | cons _ _ => rfl
  rw [if_neg (by simp [hsv]), if_neg (by simp [htyp])]
  have hce := caseEq_of ht
  have htok : tokenErr (SERVICE_MAXLEN + 1) svc = none := by
    unfold tokenErr SERVICE_MAXLEN
    rw [if_neg (by simp [hsv]), if_neg (by omega)]
  have hdig := Props.digits_iff.2 hd
  have hval : ∀ {v : Bytes} {lo : Nat}, v.all isDigit = true → lo ≤ v.length → 1 ≤ lo → v.length ≤ 15 →
      tokenErr 16 v = none ∧ isNDigits lo 15 v = true := by
    intro v lo h1 h2 h3 h4
    constructor
    · unfold tokenErr
      rw [if_neg (by cases v <;> simp at h2 ⊢; omega), if_neg (by omega)]
    · unfold isNDigits; simp [h1, h2, h4]
  cases i with
  | none => exact hi.elim
  | imsi v =>
    obtain ⟨h1, h2⟩ := hval hdig hi.1 (by omega) hi.2
    rw [caseEq_congr (u := typeName .none) hce, caseEq_congr (u := typeName (.imsi [])) hce,
      if_neg (by show ¬ caseEq [105, 109, 115, 105] _ = true; decide +kernel), if_pos (by show caseEq [105, 109, 115, 105] _ = true; decide +kernel)]
    dsimp only [idText] at *
    rw [h1]
    dsimp only
    rw [htok]
    exact if_pos (show imsiValid v = true from h2)
  | msisdn v =>
    obtain ⟨h1, h2⟩ := hval hdig hi.1 (by omega) hi.2
    rw [caseEq_congr (u := typeName .none) hce, caseEq_congr (u := typeName (.imsi [])) hce,
      caseEq_congr (u := typeName (.msisdn [])) hce,
      if_neg (by show ¬ caseEq [109, 115, 105, 115, 100, 110] _ = true; decide +kernel),
      if_neg (by show ¬ caseEq [109, 115, 105, 115, 100, 110] _ = true; decide +kernel),
      if_pos (by show caseEq [109, 115, 105, 115, 100, 110] _ = true; decide +kernel)]
    dsimp only [idText] at *
    rw [h1]
    dsimp only
    rw [htok]
    exact if_pos (show msisdnValid v = true from h2)

theorem readQuery_asks {cfg : Cfg} {line : Bytes} {q : Query} {mn to : Nat} :
    readQuery cfg line = some (q, mn, to) ↔ Spec.Asks cfg line q mn to := by
  unfold readQuery Spec.Asks
  rw [parts_eq]
  constructor
  · intro h
    split at h
    · cases h
    · rename_i m t' ht
      split at h
      · cases h
      · rename_i hl
        split at h
        · cases h
        · rename_i q' hq
          cases h
          obtain ⟨h1, typ, h2, h3⟩ := Props.c45_exact hq
          exact ⟨Spec.domain line, typ, handling_times.1 ht, by omega, h1, h3, h2⟩
  · rintro ⟨d, typ, ht, hl, hv, he, hs⟩
    have := times_domain ht
    subst this
    rw [handling_times.2 ht]
    dsimp only
    rw [if_neg (by omega), he, parse_of hv hs]

/-- What an accepted query passes to the lookup client is valid. -/
theorem readQuery_valid {cfg : Cfg} {line : Bytes} {q : Query} {mn to : Nat} (h : readQuery cfg line = some (q, mn, to)) :
    (!serviceValid q.service || !idValid q.id) = false := by
  obtain ⟨d, typ, -, -, ⟨h1, h2, h3⟩, -, -⟩ := readQuery_asks.1 h
  have hd := Props.digits_iff.2 h2
  have e1 : serviceValid q.service = true := by unfold serviceValid; simp; omega
  have e2 : idValid q.id = true := by
    cases hq : q.id with
    | none => rw [hq] at h3; exact h3.elim
    | imsi v =>
      rw [hq] at h3 hd
      dsimp only [idText] at hd
      simp [idValid, imsiValid, isNDigits, hd, h3]
    | msisdn v =>
      rw [hq] at h3 hd
      dsimp only [idText] at hd
      simp [idValid, msisdnValid, isNDigits, hd, h3]
  rw [e1, e2]; rfl

end Verif.Tool
