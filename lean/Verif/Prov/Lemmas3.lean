import Verif.Prov.Lemmas2
/-! # Lemmas on the provisioning commands: parsing values -/
namespace Verif.Prov
open Verif Verif.Db Verif.Auc Verif.Mslookup Verif.Mslookup.Mdns

/-! ## Tokens and fields -/

theorem tokComma_comma (s : Bytes) : tokComma (44 :: s) = tokComma s := by
  unfold tokComma
  rw [List.dropWhile_cons]
  simp

theorem tokComma_cons {c : UInt8} (h : c ≠ 44) (s : Bytes) :
    tokComma (c :: s) = some (c :: s.takeWhile (· != 44), (s.dropWhile (· != 44)).drop 1) := by
  unfold tokComma
  have hb : (c == 44) = false := by simpa using h
  have hb' : (c != 44) = true := by simpa using h
  rw [List.dropWhile_cons, hb]
  simp [List.takeWhile_cons, List.dropWhile_cons, hb']

theorem tokComma_fields (s : Bytes) : fields s = match tokComma s with
    | none => []
    | some (t, r) => t :: fields r := by
  induction s with
  | nil => rfl
  | cons c s ih =>
    by_cases h : c = 44
    · subst h
      rw [tokComma_comma, ← ih]
      rw [fields.eq_def]; simp
    · rw [tokComma_cons h]
      dsimp only
      rw [fields.eq_def]
      dsimp only
      rw [if_neg h]
      cases s with
      | nil => rfl
      | cons x s =>
        dsimp only
        by_cases hx : x = 44
        · subst hx
          rw [if_pos rfl]
          simp [fields.eq_def (44 :: s)]
        · rw [if_neg hx, ih, tokComma_cons hx]
          have hb' : (x != 44) = true := by simpa using hx
          simp [List.takeWhile_cons, List.dropWhile_cons, hb']

theorem fields_of_tok {s t r : Bytes} (h : tokComma s = some (t, r)) : fields s = t :: fields r := by
  rw [tokComma_fields, h]

theorem takeWhile_all {p : UInt8 → Bool} {t : Bytes} (h : ∀ c ∈ t, p c = true) (r : Bytes) :
    (t ++ r).takeWhile p = t ++ r.takeWhile p ∧ (t ++ r).dropWhile p = r.dropWhile p := by
  induction t with
  | nil => simp
  | cons c t ih =>
    obtain ⟨i1, i2⟩ := ih (fun c hc => h c (List.mem_cons_of_mem _ hc))
    have := h c List.mem_cons_self
    simp only [List.cons_append, List.takeWhile_cons, List.dropWhile_cons, this, if_true, i1, i2, and_self]

theorem tokComma_append {t : Bytes} (ht : t ≠ []) (h : (44 : UInt8) ∉ t) (r : Bytes) :
    tokComma (t ++ 44 :: r) = some (t, r) := by
  cases t with
  | nil => exact absurd rfl ht
  | cons c t =>
    have hc : c ≠ 44 := fun e => h (e ▸ List.mem_cons_self)
    have ha : ∀ x ∈ t, (x != 44) = true := fun x hx => by
      have : x ≠ 44 := fun e => h (e ▸ List.mem_cons_of_mem _ hx)
      simpa using this
    obtain ⟨e1, e2⟩ := takeWhile_all ha (44 :: r)
    rw [List.cons_append, tokComma_cons hc, e1, e2]
    simp

theorem tokComma_self {t : Bytes} (ht : t ≠ []) (h : (44 : UInt8) ∉ t) : tokComma t = some (t, []) := by
  cases t with
  | nil => exact absurd rfl ht
  | cons c t =>
    have hc : c ≠ 44 := fun e => h (e ▸ List.mem_cons_self)
    have ha : ∀ x ∈ t, (x != 44) = true := fun x hx => by
      have : x ≠ 44 := fun e => h (e ▸ List.mem_cons_of_mem _ hx)
      simpa using this
    obtain ⟨e1, e2⟩ := takeWhile_all ha []
    rw [List.append_nil] at e1 e2
    rw [tokComma_cons hc, e1, e2]
    simp

/-- At least one comma lies between a token and a text left. -/
theorem tokComma_count {s t r : Bytes} (h : tokComma s = some (t, r)) (hr : r ≠ []) :
    r.count 44 + 1 ≤ s.count 44 := by
  induction s with
  | nil => simp [tokComma] at h
  | cons c s ih =>
    by_cases hc : c = 44
    · subst hc
      rw [tokComma_comma] at h
      have := ih h
      rw [List.count_cons_self]
      omega
    · rw [tokComma_cons hc] at h
      simp only [Option.some.injEq, Prod.mk.injEq] at h
      obtain ⟨-, h2⟩ := h
      rw [List.count_cons_of_ne hc]
      clear ih
      induction s with
      | nil => simp at h2; exact absurd h2.symm (by simpa using fun e => hr e)
      | cons x s ih =>
        by_cases hx : x = 44
        · subst hx
          simp only [List.dropWhile_cons, bne_self_eq_false, Bool.false_eq_true, if_false, List.drop_one, List.tail_cons] at h2
          rw [h2, List.count_cons_self]
          omega
        · have hb' : (x != 44) = true := by simpa using hx
          rw [List.dropWhile_cons, hb'] at h2
          rw [List.count_cons_of_ne hx]
          exact ih h2

/-! ## Algorithms -/

theorem lower_comma {c : UInt8} (h : lower c = 44) : c = 44 := by
  have : ∀ n : Fin 256, lower (UInt8.ofFin n) = 44 → UInt8.ofFin n = 44 := by decide +kernel
  simpa using this c.toFin (by simpa using h)

theorem no_comma {t x : Bytes} (h : t.map lower = x) (hx : (44 : UInt8) ∉ x) : (44 : UInt8) ∉ t := by
  intro hm
  apply hx
  rw [← h]
  exact List.mem_map.mpr ⟨44, hm, by decide⟩

theorem caseEq_iff {s t : Bytes} : caseEq s t = true ↔ s.map lower = t.map lower := by simp [caseEq]

theorem algoParse_called {t : Bytes} {a : AlgoInfo} (h : algoParse t = some a) : Called t a.algo := by
  unfold Called
  unfold algoParse at h
  repeat' split at h
  all_goals first
    | (rename_i hc
       cases h
       rw [caseEq_iff.mp hc]
       decide +kernel)
    | cases h

/-- The permitted lengths. -/
def infoOf : Algo → AlgoInfo
  | .none => { algo := .none, minK := 0, maxK := 0 }
  | .xor3g => { algo := .xor3g, minK := 12, maxK := 16 }
  | .milenage => { algo := .milenage, minK := 16, maxK := 16, minO := 16, maxO := 16 }
  | .tuak => { algo := .tuak, minK := 16, maxK := 32, minO := 32, maxO := 32 }
  | a => { algo := a, minK := 16, maxK := 16 }

theorem algoParse_of_called {t : Bytes} {a : Algo} (h : Called t a) (ha : ∀ n, a ≠ .other n) :
    algoParse t = some (infoOf a) := by
  unfold Called at h
  unfold algoParse caseEq
  rw [h]
  cases a
  case other n => exact absurd rfl (ha n)
  all_goals decide +kernel

theorem called_ne {t : Bytes} {a : Algo} (h : Called t a) (ha : ∀ n, a ≠ .other n) : t ≠ [] ∧ (44 : UInt8) ∉ t := by
  constructor
  · rintro rfl
    exact algoName_ne a (by simpa [Called] using h)
  · refine no_comma h ?_
    cases a
    case other n => exact absurd rfl (ha n)
    all_goals decide +kernel

theorem hex_no_comma {t : Bytes} (h : ∀ c ∈ t, isXDigit c = true) : (44 : UInt8) ∉ t := by
  intro hm
  exact absurd (h _ hm) (by decide)

theorem isHexStr_32 {t : Bytes} : isHexStr 32 32 t = true ↔ Hex32 t := by
  rw [isHexStr_iff]
  unfold Hex32
  constructor
  · rintro ⟨h1, h2, h3, h4⟩
    exact ⟨by omega, h4⟩
  · rintro ⟨h1, h2⟩
    exact ⟨by omega, by omega, by omega, h2⟩

/-! ## 2G key values -/

theorem parseAud2_asks {v ki : Bytes} {al : Algo} (h : Asks2 v al ki) : parseAud2 v = .ok (.gsm al ki) := by
  obtain ⟨t, rfl, hc, ha, hk⟩ := h
  have ho : ∀ n, al ≠ .other n := fun n e => by subst e; simp at ha
  obtain ⟨h1, h2⟩ := called_ne hc ho
  rw [comma_eq]
  unfold parseAud2
  rw [tokComma_append h1 h2]
  dsimp only
  have hn : t ≠ b "none" := by
    rintro rfl
    unfold Called at hc
    revert hc
    revert ha
    cases al
    case other n => exact absurd rfl (ho n)
    all_goals decide +kernel
  have hne : ki ≠ [] := by rintro rfl; simp [Hex32] at hk
  rw [if_neg hn, algoParse_of_called hc ho]
  have hi : (infoOf al).algo = al ∧ (infoOf al).minK = 16 ∧ (infoOf al).maxK = 16 ∧ al ≠ .none := by
    revert ha
    cases al
    case other n => exact absurd rfl (ho n)
    all_goals decide +kernel
  obtain ⟨i1, i2, i3, i4⟩ := hi
  dsimp only
  rw [i1, i2, i3, if_neg i4]
  unfold tokRest
  rw [if_neg (by simpa using hne)]
  dsimp only
  rw [if_pos (isHexStr_32.mpr hk)]

theorem none_called : Called (b "none") .none := by unfold Called; decide +kernel

theorem parseAud2_stands (r : SubRow) {v : Bytes} {a : AudStr} (h : parseAud2 v = .ok a) :
    Stands r .aud2g v (.aud r.id a) := by
  unfold parseAud2 at h
  cases ht : tokComma v with
  | none => rw [ht] at h; cases h
  | some x =>
    obtain ⟨tok, rest⟩ := x
    have hf := fields_of_tok ht
    rw [ht] at h
    dsimp only at h
    split at h
    · rename_i e
      cases h
      exact .noAud2 hf (e ▸ none_called)
    · cases ha : algoParse tok with
      | none => rw [ha] at h; cases h
      | some i =>
        have hc := algoParse_called ha
        rw [ha] at h
        dsimp only at h
        split at h
        · rename_i e
          cases h
          exact .noAud2 hf (e ▸ hc)
        · rename_i hn
          unfold tokRest at h
          split at h
          · cases h
          · rename_i ki e
            split at e
            · cases e
            · cases e
              split at h
              · rename_i hx
                cases h
                exact .aud2 hf hc hn (isHexStr_iff _ _ _ |>.mp hx).2.2.2
              · cases h

/-! ## 3G key values -/

theorem leadDigits_eq {t : Bytes} (h : ∀ c ∈ t, 48 ≤ c ∧ c ≤ 57) :
    ∀ n, leadDigits n t = t.foldl (fun n c => n * 10 + (c.toNat - 48)) n := by
  induction t with
  | nil => intro n; rfl
  | cons c t ih =>
    intro n
    rw [leadDigits, if_pos (isDigit_iff.mpr (h c List.mem_cons_self)), ih fun c hc => h c (List.mem_cons_of_mem _ hc)]
    rfl

theorem atoi_numeral {t : Bytes} {n : Nat} (h : Numeral t n) (hn : n < 2 ^ 31) : atoiU32 t = n := by
  obtain ⟨h1, h2, h3⟩ := h
  cases t with
  | nil => exact absurd rfl h1
  | cons c t =>
    have hc := h2 c List.mem_cons_self
    have hs := not_space_of_digit hc
    have h43 : c ≠ 43 := fun e => by rw [e] at hc; exact absurd hc (by decide)
    have h45 : c ≠ 45 := fun e => by rw [e] at hc; exact absurd hc (by decide)
    unfold atoiU32 atoll
    rw [List.dropWhile_cons, hs]
    simp only [Bool.false_eq_true, if_false]
    have hl : leadDigits 0 (c :: t) = n := (leadDigits_eq h2 0).trans h3
    split
    · rename_i t' e; cases e; exact absurd rfl h45
    · rename_i t' e; cases e; exact absurd rfl h43
    · rw [hl]
      have : min n (2 ^ 63 - 1) = n := by omega
      rw [this]
      omega

theorem parseOpc_self {o : Bytes} (h : Hex32 o) : parseOpc (infoOf .milenage) o = .ok (o, 5) := by
  have hc := hex_no_comma h.2
  have hne : o ≠ [] := by rintro rfl; simp [Hex32] at h
  unfold parseOpc tokRest
  have hf : o.contains 44 = false := by simpa using hc
  rw [hf]
  dsimp only
  simp only [Bool.false_eq_true, if_false]
  rw [if_neg (by simpa using hne)]
  have hx : isHexStr ((infoOf .milenage).minO * 2) ((infoOf .milenage).maxO * 2) o = true := isHexStr_32.mpr h
  simp only [Option.map_some, hx, Bool.not_true, Bool.false_eq_true, if_false]

theorem parseOpc_ind {o n : Bytes} {bl : Nat} (h : Hex32 o) (hn : Numeral n bl) (hb : bl ≤ 28) :
    parseOpc (infoOf .milenage) (o ++ 44 :: n) = .ok (o, bl) := by
  have hc := hex_no_comma h.2
  have hne : o ≠ [] := by rintro rfl; simp [Hex32] at h
  unfold parseOpc tokRest
  have hf : (o ++ 44 :: n).contains 44 = true := by simp
  rw [hf]
  dsimp only
  simp only [if_true]
  rw [tokComma_append hne hc]
  have hx : isHexStr ((infoOf .milenage).minO * 2) ((infoOf .milenage).maxO * 2) o = true := isHexStr_32.mpr h
  simp only [hx, Bool.not_true, Bool.false_eq_true, if_false]
  rw [if_neg (by simpa using hn.1)]
  dsimp only
  rw [atoi_numeral hn (by omega)]

theorem comma_lit : b "," = [44] := by decide +kernel

theorem parseAud3_asks {v k o : Bytes} {isOp : Bool} {bl : Nat} (h : Asks3 v k o isOp bl) :
    parseAud3 v = .ok (.umts .milenage k o isOp bl) := by
  obtain ⟨hk, ho, hb, t, c, ht, hc, hv⟩ := h
  obtain ⟨t1, t2⟩ := called_ne ht (fun n => by simp)
  have kne : k ≠ [] := by rintro rfl; simp [Hex32] at hk
  have kc := hex_no_comma hk.2
  have hcc : c ≠ [] ∧ (44 : UInt8) ∉ c := by
    constructor
    · rintro rfl
      revert hc
      cases isOp <;> decide +kernel
    · refine no_comma hc ?_
      cases isOp <;> decide +kernel
  have hv' : ∃ s, v = t ++ 44 :: (k ++ 44 :: (c ++ 44 :: s)) ∧ parseOpc (infoOf .milenage) s = .ok (o, bl) := by
    rcases hv with ⟨rfl, rfl⟩ | ⟨n, hn, rfl⟩
    · exact ⟨o, by simp [comma_lit], parseOpc_self ho⟩
    · exact ⟨o ++ 44 :: n, by simp [comma_lit], parseOpc_ind ho hn hb⟩
  obtain ⟨s, rfl, hs⟩ := hv'
  have hn : t ≠ b "none" := by
    rintro rfl
    revert ht
    unfold Called
    decide +kernel
  have hch : parseChoice c = some isOp := by
    unfold parseChoice caseEq
    rw [hc]
    cases isOp <;> decide +kernel
  unfold parseAud3
  rw [tokComma_append t1 t2]
  dsimp only
  rw [if_neg hn, algoParse_of_called ht (fun n => by simp)]
  dsimp only
  rw [if_neg (by decide), tokComma_append kne kc]
  dsimp only
  have hx : isHexStr ((infoOf .milenage).minK * 2) ((infoOf .milenage).maxK * 2) k = true := isHexStr_32.mpr hk
  rw [hx]
  simp only [Bool.not_true, Bool.false_eq_true, if_false]
  rw [tokComma_append hcc.1 hcc.2]
  dsimp only
  rw [hch]
  dsimp only
  rw [hs]
  rfl

theorem parseChoice_iff {c : Bytes} {p : Bool} (h : parseChoice c = some p) :
    c.map lower = (if p then b "op" else b "opc") := by
  unfold parseChoice at h
  split at h
  · rename_i hc
    cases h
    rw [caseEq_iff.mp hc]
    decide +kernel
  · split at h
    · rename_i hc
      cases h
      rw [caseEq_iff.mp hc]
      decide +kernel
    · cases h

theorem parseOpc_fields {a : AlgoInfo} {s o : Bytes} {bl : Nat} (h : parseOpc a s = .ok (o, bl)) :
    ((∃ l, fields s = o :: l) ∧ s ≠ [] ∧ (s.count 44 = 0 → bl = 5 ∧ fields s = [o]))
    ∧ o ≠ [] ∧ isHexStr (a.minO * 2) (a.maxO * 2) o = true := by
  unfold parseOpc at h
  dsimp only at h
  by_cases hp : s.contains 44 = true
  · rw [hp] at h
    simp only [if_true] at h
    have hm : (44 : UInt8) ∈ s := by simpa using hp
    cases ht : tokComma s with
    | none => rw [ht] at h; cases h
    | some x =>
      obtain ⟨q, rest⟩ := x
      rw [ht] at h
      dsimp only at h
      split at h
      · cases h
      · rename_i hx
        split at h
        · cases h
        · cases h
          refine ⟨⟨⟨_, fields_of_tok ht⟩, ?_, fun h0 => ?_⟩, ?_, by simpa using hx⟩
          · rintro rfl; simp at hm
          · have := List.count_pos_iff.mpr hm; omega
          · unfold tokComma at ht
            dsimp only at ht
            split at ht
            · cases ht
            · rename_i hne
              cases ht
              cases hd : List.dropWhile (fun x => x == 44) s with
              | nil => rw [hd] at hne; simp at hne
              | cons x l =>
                have : x ≠ 44 := by
                  have := List.head_dropWhile_not (fun x : UInt8 => x == 44) (l := s) (by rw [hd]; simp)
                  simpa [hd] using this
                rw [List.takeWhile_cons]
                simp [this]
  · have hp' : s.contains 44 = false := by simpa using hp
    have hm : (44 : UInt8) ∉ s := by simpa using hp
    rw [hp'] at h
    simp only [Bool.false_eq_true, if_false] at h
    unfold tokRest at h
    by_cases he : s.isEmpty = true
    · rw [if_pos he] at h; cases h
    · rw [if_neg he] at h
      have hne : s ≠ [] := by simpa using he
      simp only [Option.map_some] at h
      split at h
      · cases h
      · rename_i hx
        cases h
        have hf : fields s = [s] := by
          rw [tokComma_fields, tokComma_self hne hm]
          rfl
        exact ⟨⟨⟨[], hf⟩, hne, fun _ => ⟨rfl, hf⟩⟩, hne, by simpa using hx⟩

theorem parseAud3_stands (r : SubRow) {v : Bytes} {a : AudStr} (h : parseAud3 v = .ok a) :
    Stands r .aud3g v (.aud r.id a) := by
  unfold parseAud3 at h
  cases ht : tokComma v with
  | none => rw [ht] at h; cases h
  | some x =>
    obtain ⟨tok, rest⟩ := x
    have hf := fields_of_tok ht
    rw [ht] at h
    dsimp only at h
    split at h
    · rename_i e
      cases h
      exact .noAud3 hf (e ▸ none_called)
    · cases ha : algoParse tok with
      | none => rw [ha] at h; cases h
      | some i =>
        have hc := algoParse_called ha
        rw [ha] at h
        dsimp only at h
        split at h
        · rename_i e
          cases h
          exact .noAud3 hf (e ▸ hc)
        · rename_i hn
          cases hk : tokComma rest with
          | none => rw [hk] at h; cases h
          | some y =>
            obtain ⟨k, rest2⟩ := y
            have hf2 := fields_of_tok hk
            rw [hk] at h
            dsimp only at h
            split at h
            · cases h
            · cases hk3 : tokComma rest2 with
              | none => rw [hk3] at h; cases h
              | some z =>
                obtain ⟨c, rest3⟩ := z
                have hf3 := fields_of_tok hk3
                rw [hk3] at h
                dsimp only at h
                cases hch : parseChoice c with
                | none => rw [hch] at h; cases h
                | some p =>
                  rw [hch] at h
                  dsimp only at h
                  cases ho : parseOpc i rest3 with
                  | error e => rw [ho] at h; cases h
                  | ok w =>
                    obtain ⟨o, bl⟩ := w
                    rw [ho] at h
                    cases h
                    obtain ⟨⟨⟨l, q1⟩, q2, q3⟩, q4, q5⟩ := parseOpc_fields ho
                    have hx : i.algo ≠ .xor3g := by
                      intro e
                      rw [e] at hc
                      have := algoParse_of_called hc (fun n => by simp)
                      rw [ha] at this
                      cases this
                      have := (isHexStr_iff _ _ _).mp q5
                      have h0 : o.length ≤ 0 := this.2.1
                      exact q4 (List.length_eq_zero_iff.mp (by omega))
                    have r2 : rest2 ≠ [] := by rintro rfl; simp [tokComma] at hk3
                    have r1 : rest ≠ [] := by rintro rfl; simp [tokComma] at hk
                    have c1 := tokComma_count ht r1
                    have c2 := tokComma_count hk r2
                    have c3 := tokComma_count hk3 q2
                    exact .aud3 (by rw [hf, hf2, hf3, q1]) hc hn hx (parseChoice_iff hch)
                      (fun hcount => (q3 (by omega)).1)

end Verif.Prov
