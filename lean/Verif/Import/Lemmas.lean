import Verif.Import.Spec
import Verif.Db.Uniform
import Verif.Mslookup.MdnsLemmas
/-! # Lemmas about the texts and numbers of the import -/
namespace Verif.Import
open Verif Verif.Db Verif.Prov Verif.Mslookup.Mdns

theorem decodeLoop_plain (e c : UInt8) (s : Bytes) (h0 : c ≠ 0) (h1 : c ≠ 1) :
    decodeLoop e (c :: s) = (decodeLoop e s).map ((c + e) :: ·) := by
  cases s with
  | nil => rw [decodeLoop]; exact if_neg h0 |>.trans (if_neg h1)
  | cons x s => rw [decodeLoop, if_neg h0, if_neg h1]

theorem decodeLoop_encode (e : UInt8) (x : Bytes) :
    decodeLoop e (x.flatMap (encodeByte e) ++ [0]) = some x := by
  induction x with
  | nil => rfl
  | cons c x ih =>
    rw [List.flatMap_cons, List.append_assoc]
    generalize x.flatMap (encodeByte e) ++ [0] = rest at ih ⊢
    unfold encodeByte
    split
    · show decodeLoop e (1 :: (c - e + 1) :: rest) = _
      rw [decodeLoop, if_neg (by decide), if_pos rfl, ih]
      show some (_ :: _) = _
      rw [UInt8.add_sub_cancel, UInt8.sub_add_cancel]
    · rename_i h
      show decodeLoop e ((c - e) :: rest) = _
      rw [decodeLoop_plain _ _ _ (fun h0 => h (.inl h0)) (fun h1 => h (.inr (.inl h1))), ih]
      show some (_ :: _) = _
      rw [UInt8.sub_add_cancel]

theorem hexDigit_char (n : UInt8) (h : n < 16) : hexDigit n = hexChar n.toNat := by
  have h : n.toNat < 16 := by rw [UInt8.lt_iff_toNat_lt] at h; exact h
  have : ∀ k : Fin 16, hexDigit (k.val.toUInt8) = hexChar k.val := by decide +kernel
  have := this ⟨n.toNat, h⟩
  simpa using this

theorem hexdump_text (x : Bytes) : hexdump x = hexText x := by
  induction x with
  | nil => rfl
  | cons c x ih =>
    unfold hexText at ih ⊢
    rw [List.flatMap_cons, hexdump, ih]
    have h1 : c / 16 < 16 := by
      rw [UInt8.lt_iff_toNat_lt, UInt8.toNat_div]
      have := UInt8.toNat_lt c
      show c.toNat / 16 < 16
      omega
    have h2 : c % 16 < 16 := by
      rw [UInt8.lt_iff_toNat_lt, UInt8.toNat_mod]
      show c.toNat % 16 < 16
      omega
    rw [hexDigit_char _ h1, hexDigit_char _ h2, UInt8.toNat_div, UInt8.toNat_mod]
    rfl

theorem hexText_length (x : Bytes) : (hexText x).length = 2 * x.length := by
  unfold hexText
  induction x with
  | nil => rfl
  | cons c x ih => rw [List.flatMap_cons, List.length_append, ih, List.length_cons]; simp; omega

theorem hexText_hex (x : Bytes) : ∀ c ∈ hexText x, isXDigit c = true := by
  intro c hc
  unfold hexText at hc
  obtain ⟨y, _, hy⟩ := List.mem_flatMap.1 hc
  have : ∀ k : Fin 16, isXDigit (hexChar k.val) = true := by decide +kernel
  have hl := UInt8.toNat_lt y
  rcases List.mem_cons.1 hy with rfl | hy
  · exact this ⟨y.toNat / 16, by omega⟩
  · rw [List.mem_singleton.1 hy]; exact this ⟨y.toNat % 16, by omega⟩

theorem encode_length (e : UInt8) (x : Bytes) : (encodeBinary e x).length ≤ 2 * x.length + 2 := by
  unfold encodeBinary
  rw [List.length_cons, List.length_append]
  have : (x.flatMap (encodeByte e)).length ≤ 2 * x.length := by
    induction x with
    | nil => exact Nat.le_refl _
    | cons c x ih =>
      rw [List.flatMap_cons, List.length_append, List.length_cons]
      have : (encodeByte e c).length ≤ 2 := by unfold encodeByte; split <;> simp
      omega
  rw [List.length_singleton]
  omega

/-! ## The IMSI as a number -/

theorem leadDigits_snoc (n : Nat) (t : Bytes) (c : UInt8) (ht : ∀ c ∈ t, isDigit c = true)
    (hc : isDigit c = true) : leadDigits n (t ++ [c]) = leadDigits n t * 10 + (c.toNat - 48) := by
  induction t generalizing n with
  | nil => simp [leadDigits, hc]
  | cons x t ih =>
    rw [List.cons_append, leadDigits, leadDigits, if_pos (ht x List.mem_cons_self),
      if_pos (ht x List.mem_cons_self)]
    exact ih _ (fun c h => ht c (List.mem_cons_of_mem _ h))

theorem digit_bounds {c : UInt8} (h : 48 ≤ c ∧ c ≤ 57) : isDigit c = true ∧ 48 ≤ c.toNat ∧ c.toNat ≤ 57 := by
  refine ⟨by simp [isDigit, h.1, h.2], ?_, ?_⟩
  · exact UInt8.le_iff_toNat_le.1 h.1
  · exact UInt8.le_iff_toNat_le.1 h.2

theorem leadDigits_lt (t : Bytes) (ht : ∀ c ∈ t, 48 ≤ c ∧ c ≤ 57) (n : Nat) :
    leadDigits n t < (n + 1) * 10 ^ t.length := by
  induction t generalizing n with
  | nil => simp [leadDigits]
  | cons x t ih =>
    obtain ⟨h1, h2, h3⟩ := digit_bounds (ht x List.mem_cons_self)
    rw [leadDigits, if_pos h1]
    have := ih (fun c h => ht c (List.mem_cons_of_mem _ h)) (n * 10 + (x.toNat - 48))
    refine Nat.lt_of_lt_of_le this ?_
    rw [List.length_cons, Nat.pow_succ, Nat.mul_comm (10 ^ t.length) 10, ← Nat.mul_assoc]
    exact Nat.mul_le_mul_right _ (by omega)

theorem leadDigits_ge (t : Bytes) (ht : ∀ c ∈ t, 48 ≤ c ∧ c ≤ 57) (n : Nat) : n ≤ leadDigits n t := by
  induction t generalizing n with
  | nil => exact Nat.le_refl _
  | cons x t ih =>
    rw [leadDigits, if_pos (digit_bounds (ht x List.mem_cons_self)).1]
    have := ih (fun c h => ht c (List.mem_cons_of_mem _ h)) (n * 10 + (x.toNat - 48))
    omega

theorem rev_induction {P : Bytes → Prop} (h0 : P []) (h1 : ∀ t c, P t → P (t ++ [c])) (t : Bytes) : P t := by
  rw [← List.reverse_reverse t]
  induction t.reverse with
  | nil => exact h0
  | cons c l ih => rw [List.reverse_cons]; exact h1 _ _ ih

/-- Digits without a leading zero are the decimal form of their value. -/
theorem decGo_leadDigits (t : Bytes) : ∀ f, t.length ≤ f → t ≠ [] → (∀ c ∈ t, 48 ≤ c ∧ c ≤ 57) →
    t.head? ≠ some 48 → decGo f (leadDigits 0 t) = t := by
  induction t using rev_induction with
  | h0 => intro f _ h; exact absurd rfl h
  | h1 t c ih =>
    intro f hf _ hd hz
    obtain ⟨k, rfl⟩ : ∃ k, f = k + 1 := by cases f with
      | zero => simp at hf
      | succ k => exact ⟨k, rfl⟩
    have hdt : ∀ x ∈ t, 48 ≤ x ∧ x ≤ 57 := fun x h => hd x (List.mem_append_left _ h)
    obtain ⟨c1, c2, c3⟩ := digit_bounds (hd c (by simp))
    have cc : (48 + (c.toNat - 48)).toUInt8 = c := by
      rw [show 48 + (c.toNat - 48) = c.toNat by omega]; simp
    rw [leadDigits_snoc _ _ _ (fun x h => (digit_bounds (hdt x h)).1) c1, decGo]
    cases t with
    | nil =>
      rw [leadDigits, if_pos (by omega)]
      simp only [List.nil_append]
      rw [show 0 * 10 + (c.toNat - 48) = c.toNat - 48 by omega, cc]
    | cons x t =>
      have hx := hdt x List.mem_cons_self
      obtain ⟨x1, x2, x3⟩ := digit_bounds hx
      have hx48 : x.toNat ≠ 48 := by
        intro h
        apply hz
        show some x = some 48
        rw [show x = 48 from UInt8.toNat_inj.1 h]
      have hpos : 1 ≤ leadDigits 0 (x :: t) := by
        rw [leadDigits, if_pos x1]
        have := leadDigits_ge t (fun c h => hdt c (List.mem_cons_of_mem _ h)) (0 * 10 + (x.toNat - 48))
        omega
      rw [if_neg (by omega)]
      have := ih k (by simp at hf ⊢; omega) (by simp) hdt hz
      rw [show (leadDigits 0 (x :: t) * 10 + (c.toNat - 48)) / 10 = leadDigits 0 (x :: t) by omega, this,
        show (leadDigits 0 (x :: t) * 10 + (c.toNat - 48)) % 10 = c.toNat - 48 by omega, cc]

theorem atoll_digits {t : Bytes} (h : ∀ c ∈ t, 48 ≤ c ∧ c ≤ 57) (hl : t.length ≤ 18) :
    atoll t = (leadDigits 0 t : Int) := by
  have hlt := leadDigits_lt t h 0
  have : (10 : Nat) ^ t.length ≤ 10 ^ 18 := Nat.pow_le_pow_right (by decide) hl
  have hb : leadDigits 0 t < 10 ^ 18 := by omega
  unfold atoll
  have e0 : t.dropWhile Mslookup.Mdns.isSpace = t := by
    cases t with
    | nil => rfl
    | cons c t =>
      obtain ⟨_, c2, c3⟩ := digit_bounds (h c List.mem_cons_self)
      have : isSpace c = false := by
        unfold isSpace
        rw [Bool.or_eq_false_iff, Bool.and_eq_false_iff]
        refine ⟨?_, .inr ?_⟩
        · rw [beq_eq_false_iff_ne]
          rintro rfl
          exact absurd c2 (by decide)
        · rw [decide_eq_false_iff_not, UInt8.le_iff_toNat_le]
          show ¬ c.toNat ≤ 13
          omega
      rw [List.dropWhile_cons, this]
      rfl
  rw [e0]
  split
  · rename_i t
    exact absurd (digit_bounds (h 45 List.mem_cons_self)).2.1 (by decide)
  · rename_i t
    exact absurd (digit_bounds (h 43 List.mem_cons_self)).2.1 (by decide)
  · rw [Nat.min_eq_left (by omega)]

theorem imsiStr_eq {t : Bytes} (h : Digits 6 15 t) (hz : t.head? ≠ some 48) : imsiStr t = t := by
  unfold imsiStr
  rw [atoll_digits h.2.2 (by have := h.2.1; omega), if_neg (by omega)]
  exact decGo_leadDigits t 20 (by have := h.2.1; omega) (by intro e; rw [e] at h; exact absurd h.1 (by decide)) h.2.2 hz

theorem int32_id {v : Int} (h0 : -2 ^ 31 ≤ v) (h1 : v < 2 ^ 31) : int32 v = v := by
  unfold int32; omega

/-! ## The equipment -/

theorem latest_spec (l : List Equip) :
    (latest l = none ∧ l = []) ∨ ∃ e, latest l = some e ∧ e ∈ l ∧ ∀ x ∈ l, x.updated ≤ e.updated := by
  induction l with
  | nil => left; exact ⟨rfl, rfl⟩
  | cons a l ih =>
    right
    unfold latest
    rcases ih with ⟨h1, h2⟩ | ⟨e, h1, h2, h3⟩
    · rw [h1]
      refine ⟨a, rfl, List.mem_cons_self, ?_⟩
      intro x hx
      rw [h2] at hx
      rw [List.mem_singleton.1 hx]
      exact Nat.le_refl _
    · rw [h1]
      dsimp only
      by_cases hc : e.updated > a.updated
      · rw [if_pos hc]
        refine ⟨e, rfl, List.mem_cons_of_mem _ h2, ?_⟩
        intro x hx
        rcases List.mem_cons.1 hx with rfl | hx
        · omega
        · exact h3 x hx
      · rw [if_neg hc]
        refine ⟨a, rfl, List.mem_cons_self, ?_⟩
        intro x hx
        rcases List.mem_cons.1 hx with rfl | hx
        · exact Nat.le_refl _
        · have := h3 x hx; omega

theorem mem_seenWith (N : Nitb) (id : Int) (e : Equip) : e ∈ seenWith N id ↔ Seen N id e := by
  unfold seenWith Seen
  rw [List.mem_filter, List.any_eq_true]
  constructor
  · rintro ⟨h, w, hw, hc⟩
    simp only [Bool.and_eq_true, beq_iff_eq] at hc
    exact ⟨h, w, hw, hc.2, hc.1⟩
  · rintro ⟨h, w, hw, h1, h2⟩
    exact ⟨h, w, hw, by simp [h1, h2]⟩

end Verif.Import
