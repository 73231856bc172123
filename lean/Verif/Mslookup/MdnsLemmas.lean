import Verif.Mslookup.Mdns
import Verif.Mslookup.DomainProps
/-!
# mDNS messages: lemmas
-/
namespace Verif.Mslookup.Mdns.Spec
open Verif

/-- Labels joined by dots. -/
def dotted : List Bytes → Bytes
  | [] => []
  | [l] => l
  | l :: r :: ls => l ++ 46 :: dotted (r :: ls)

/-- A label of a domain name: 1 to 255 bytes, neither dot nor NUL. -/
structure Label (l : Bytes) : Prop where
  size : 1 ≤ l.length ∧ l.length ≤ 255
  dot : (46 : UInt8) ∉ l
  nul : (0 : UInt8) ∉ l

/-- A domain name: one or more labels. -/
def Name (s : Bytes) : Prop := ∃ ls, ls ≠ [] ∧ (∀ l ∈ ls, Label l) ∧ s = dotted ls

end Verif.Mslookup.Mdns.Spec

namespace Verif.Mslookup.Mdns
open Verif Verif.Mslookup Spec

theorem bind_ok {α β : Type} (a : α) (f : α → Out β) : (Out.ok a >>= f) = f a := rfl
theorem bind_error {α β : Type} (f : α → Out β) : (Out.error >>= f) = Out.error := rfl
theorem bind_crash {α β : Type} (f : α → Out β) : (Out.crash >>= f) = Out.crash := rfl
theorem pure_ok {α : Type} (a : α) : (pure a : Out α) = .ok a := rfl

theorem bind_eq_ok {α β : Type} {x : Out α} {f : α → Out β} {y : β} : (x >>= f) = .ok y ↔ ∃ a, x = .ok a ∧ f a = .ok y := by
  cases x with
  | ok a => exact ⟨fun h => ⟨a, rfl, h⟩, by rintro ⟨a', h, h'⟩; cases h; exact h'⟩
  | error => exact ⟨fun h => (by cases h), by rintro ⟨_, h, _⟩; cases h⟩
  | crash => exact ⟨fun h => (by cases h), by rintro ⟨_, h, _⟩; cases h⟩

theorem bind_ne_crash {α β : Type} {x : Out α} {f : α → Out β} (hx : x ≠ .crash) (hf : ∀ a, x = .ok a → f a ≠ .crash) :
    (x >>= f) ≠ .crash := by
  cases x with
  | ok a => exact hf a rfl
  | error => intro h; cases h
  | crash => exact absurd rfl hx

/-! ## Numbers -/

theorem toNat_toUInt8 (n : Nat) : n.toUInt8.toNat = n % 256 := by
  simp [Nat.toUInt8]

theorem beNat_append (a c : Bytes) : beNat (a ++ c) = c.foldl (fun n c => n * 256 + c.toNat) (beNat a) := by
  unfold beNat
  rw [List.foldl_append]

theorem beNat_be16 {n : Nat} (h : n < 65536) : beNat (be16 n) = n := by
  show ((0 * 256 + (n / 256).toUInt8.toNat) * 256 + n.toUInt8.toNat) = n
  rw [toNat_toUInt8, toNat_toUInt8]
  omega

theorem beBytes_length (k n : Nat) : (beBytes k n).length = k := by
  induction k generalizing n with
  | zero => rfl
  | succ k ih => rw [beBytes, List.length_append, ih]; rfl

theorem beNat_beBytes {k n : Nat} (h : n < 256 ^ k) : beNat (beBytes k n) = n := by
  induction k generalizing n with
  | zero =>
    have : n = 0 := by simpa using h
    rw [this]; rfl
  | succ k ih =>
    rw [beBytes, beNat_append, ih (by rw [Nat.pow_succ] at h; omega)]
    show n / 256 * 256 + n.toUInt8.toNat = n
    rw [toNat_toUInt8]
    omega

theorem beNat_lt (d : Bytes) : beNat d < 256 ^ d.length := by
  have key : ∀ (d : Bytes) (a k : Nat), a < 256 ^ k → d.foldl (fun n c => n * 256 + c.toNat) a < 256 ^ (k + d.length) := by
    intro d
    induction d with
    | nil => intro a k h; exact h
    | cons c d ih =>
      intro a k h
      have hc : c.toNat < 256 := c.toNat_lt
      have := ih (a * 256 + c.toNat) (k + 1) (by rw [Nat.pow_succ]; omega)
      rw [List.foldl_cons, List.length_cons]
      have e : k + (d.length + 1) = k + 1 + d.length := by omega
      rw [e]; exact this
  have := key d 0 0 (by decide)
  rw [Nat.zero_add] at this
  exact this

theorem digit_of {n : Nat} (h : n < 10) : isDigit (48 + n).toUInt8 = true ∧ (48 + n).toUInt8.toNat - 48 = n := by
  have : (48 + n).toUInt8.toNat = 48 + n := by rw [toNat_toUInt8]; omega
  unfold isDigit
  rw [Bool.and_eq_true, decide_eq_true_eq, decide_eq_true_eq, UInt8.le_iff_toNat_le, UInt8.le_iff_toNat_le, this]
  refine ⟨⟨?_, ?_⟩, by omega⟩
  · show 48 ≤ _; omega
  · show _ ≤ 57; omega

theorem digitsVal_snoc (a : Nat) (s : Bytes) (c : UInt8) :
    digitsVal a (s ++ [c]) = (digitsVal a s).bind (fun v => if isDigit c then some (v * 10 + (c.toNat - 48)) else none) := by
  induction s generalizing a with
  | nil => rfl
  | cons x s ih =>
    show (if isDigit x then digitsVal _ (s ++ [c]) else none) = (if isDigit x then digitsVal _ s else none).bind _
    split
    · exact ih _
    · rfl

theorem digitsVal_dec {f n : Nat} (h : n < 10 ^ f) : digitsVal 0 (decGo f n) = some n := by
  induction f generalizing n with
  | zero =>
    have : n = 0 := by simpa using h
    rw [this]; rfl
  | succ f ih =>
    unfold decGo
    by_cases hn : n < 10
    · rw [if_pos hn]
      obtain ⟨h1, h2⟩ := digit_of hn
      show (if isDigit _ then some _ else none) = _
      rw [if_pos h1, h2]
      simp
    · rw [if_neg hn, digitsVal_snoc, ih (by rw [Nat.pow_succ] at h; omega)]
      obtain ⟨h1, h2⟩ := digit_of (Nat.mod_lt n (by decide : 0 < 10))
      show (if isDigit _ then some _ else none) = _
      rw [if_pos h1, h2]
      congr 1
      omega

theorem decGo_spec (f n : Nat) : (decGo f n).length ≤ f ∧ (∀ c ∈ decGo f n, 48 ≤ c ∧ c ≤ 57) ∧ (0 < f → decGo f n ≠ []) := by
  have dig : ∀ {n : Nat}, n < 10 → 48 ≤ (48 + n).toUInt8 ∧ (48 + n).toUInt8 ≤ 57 := by
    intro n hn
    have : (48 + n).toUInt8.toNat = 48 + n := by rw [toNat_toUInt8]; omega
    rw [UInt8.le_iff_toNat_le, UInt8.le_iff_toNat_le, this]
    exact ⟨by show 48 ≤ _; omega, by show _ ≤ 57; omega⟩
  induction f generalizing n with
  | zero => exact ⟨Nat.le_refl _, fun c hc => (by cases hc), fun h => absurd h (by decide)⟩
  | succ f ih =>
    unfold decGo
    by_cases hn : n < 10
    · rw [if_pos hn]
      refine ⟨by simp, ?_, fun _ => by simp⟩
      intro c hc
      rw [List.mem_singleton.1 hc]
      exact dig hn
    · rw [if_neg hn]
      obtain ⟨i1, i2, -⟩ := ih (n / 10)
      refine ⟨by rw [List.length_append]; show _ + 1 ≤ _; omega, ?_, fun _ => by simp⟩
      intro c hc
      rcases List.mem_append.1 hc with hc | hc
      · exact i2 c hc
      · rw [List.mem_singleton.1 hc]
        exact dig (Nat.mod_lt n (by decide))

theorem decodeU32_dec {n : Nat} (h : n ≤ 4294967295) : decodeU32 (dec n) = some n := by
  obtain ⟨-, h2, h3⟩ := decGo_spec 10 n
  have hne : dec n ≠ [] := h3 (by decide)
  have hv : digitsVal 0 (dec n) = some n := digitsVal_dec (by omega)
  have h2 : ∀ c ∈ dec n, 48 ≤ c ∧ c ≤ 57 := h2
  generalize dec n = s at *
  cases s with
  | nil => exact absurd rfl hne
  | cons c s =>
    obtain ⟨c1, c2⟩ := h2 c List.mem_cons_self
    rw [UInt8.le_iff_toNat_le] at c1 c2
    have c1 : 48 ≤ c.toNat := c1
    have c2 : c.toNat ≤ 57 := c2
    have ne : ∀ k : Nat, k < 48 → c ≠ k.toUInt8 := by
      rintro k hk rfl
      rw [toNat_toUInt8] at c1
      omega
    have hs : isSpace c = false := by
      unfold isSpace
      have h1 : (c == 32) = false := by
        rw [beq_eq_false_iff_ne]; exact ne 32 (by decide)
      have h2 : (decide (c ≤ 13)) = false := by
        rw [decide_eq_false_iff_not, UInt8.le_iff_toNat_le]
        show ¬ c.toNat ≤ 13
        omega
      rw [h1, h2, Bool.and_false]; rfl
    unfold decodeU32
    rw [if_neg (by simp), List.dropWhile_cons, if_neg (by rw [hs]; simp)]
    split
    · rename_i heq
      injection heq with e
      exact absurd e (ne 45 (by decide))
    · rename_i heq
      injection heq with e
      exact absurd e (ne 43 (by decide))
    · unfold unsignedVal
      rw [if_neg (by simp), hv]
      show (if n > 4294967295 then none else some n) = _
      rw [if_neg (by omega)]

theorem decodePort_dec {n : Nat} (h : n ≤ 65535) : decodePort (dec n) = some n := by
  unfold decodePort
  rw [decodeU32_dec (by omega)]
  show (if n > 65535 then none else some n) = _
  rw [if_neg (by omega)]

/-! ## Names -/

theorem dotted_cons {l : Bytes} {ls : List Bytes} (h : ls ≠ []) : dotted (l :: ls) = l ++ 46 :: dotted ls := by
  cases ls with
  | nil => exact absurd rfl h
  | cons r ls => rfl

theorem dotted_append {a c : List Bytes} (ha : a ≠ []) (hc : c ≠ []) : dotted (a ++ c) = dotted a ++ 46 :: dotted c := by
  induction a with
  | nil => exact absurd rfl ha
  | cons l a ih =>
    cases a with
    | nil => exact dotted_cons hc
    | cons r a =>
      rw [List.cons_append, dotted_cons (by simp), ih (by simp), dotted_cons (l := l) (ls := r :: a) (by simp), List.append_assoc]
      rfl

theorem labels_nodot {acc l : Bytes} (h : (46 : UInt8) ∉ l) : labels acc l = (acc ++ l).length.toUInt8 :: (acc ++ l) := by
  induction l generalizing acc with
  | nil => rw [List.append_nil]; rfl
  | cons c l ih =>
    have : c ≠ 46 := fun e => h (by rw [e]; exact List.mem_cons_self)
    rw [labels, if_neg this, ih (fun e => h (List.mem_cons_of_mem _ e)), List.append_assoc]
    rfl

theorem labels_dot {acc l s : Bytes} (h : (46 : UInt8) ∉ l) :
    labels acc (l ++ 46 :: s) = (acc ++ l).length.toUInt8 :: (acc ++ l ++ labels [] s) := by
  induction l generalizing acc with
  | nil => rw [List.append_nil]; show labels acc (46 :: s) = _; rw [labels, if_pos rfl]
  | cons c l ih =>
    have : c ≠ 46 := fun e => h (by rw [e]; exact List.mem_cons_self)
    rw [List.cons_append, labels, if_neg this, ih (fun e => h (List.mem_cons_of_mem _ e))]
    simp

/-- What the labels look like on the wire. -/
def wire (ls : List Bytes) : Bytes := ls.flatMap (fun l => l.length.toUInt8 :: l)

theorem labels_dotted {ls : List Bytes} (hne : ls ≠ []) (h : ∀ l ∈ ls, Label l) : labels [] (dotted ls) = wire ls := by
  induction ls with
  | nil => exact absurd rfl hne
  | cons l ls ih =>
    have hl := h l List.mem_cons_self
    cases ls with
    | nil =>
      show labels [] l = _
      rw [labels_nodot hl.dot]
      simp [wire]
    | cons r ls =>
      rw [dotted_cons (by simp), labels_dot hl.dot, ih (by simp) (fun l hl => h l (List.mem_cons_of_mem _ hl))]
      simp [wire]

theorem toUInt8_len {l : Bytes} (h : Label l) : l.length.toUInt8.toNat = l.length ∧ l.length.toUInt8 ≠ 0 := by
  have : l.length.toUInt8.toNat = l.length := by rw [toNat_toUInt8]; have := h.size; omega
  refine ⟨this, fun e => ?_⟩
  rw [e] at this
  have := h.size
  have h0 : (0 : UInt8).toNat = 0 := rfl
  omega

theorem unlabel_wire {ls : List Bytes} (h : ∀ l ∈ ls, Label l) (f : Nat) (hf : (wire ls).length < f) :
    unlabel f (wire ls) = some (dotted ls) := by
  induction ls generalizing f with
  | nil =>
    cases f with
    | zero => cases hf
    | succ f => rfl
  | cons l ls ih =>
    have hl := h l List.mem_cons_self
    obtain ⟨e1, e2⟩ := toUInt8_len hl
    cases f with
    | zero => cases hf
    | succ f =>
      have hw : wire (l :: ls) = l.length.toUInt8 :: (l ++ wire ls) := by simp [wire]
      rw [hw] at hf ⊢
      rw [unlabel, if_neg e2, e1, if_neg (by rw [List.length_append]; omega), List.drop_left, List.take_left,
        ih (fun l hl => h l (List.mem_cons_of_mem _ hl)) f (by rw [List.length_cons, List.length_append] at hf; omega)]
      cases ls with
      | nil =>
        simp [wire, dotted]
      | cons r ls =>
        show some (l ++ if (wire (r :: ls)).isEmpty then [] else _) = _
        rw [if_neg (by simp [wire])]
        rfl

theorem wire_length {ls : List Bytes} (hne : ls ≠ []) : (wire ls).length = (dotted ls).length + 1 := by
  induction ls with
  | nil => exact absurd rfl hne
  | cons l ls ih =>
    have hw : wire (l :: ls) = l.length.toUInt8 :: (l ++ wire ls) := by simp [wire]
    rw [hw]
    cases ls with
    | nil => simp [wire, dotted]
    | cons r ls =>
      rw [dotted_cons (by simp), List.length_cons, List.length_append, ih (by simp), List.length_append, List.length_cons]

theorem apnToStr_wire {ls : List Bytes} (hne : ls ≠ []) (h : ∀ l ∈ ls, Label l) : apnToStr (wire ls) = .ok (dotted ls) := by
  unfold apnToStr
  rw [unlabel_wire h _ (Nat.lt_succ_self _)]
  show (if _ then _ else _) = _
  rw [if_neg (by rw [wire_length hne]; omega)]

theorem nul_dotted {ls : List Bytes} (h : ∀ l ∈ ls, Label l) : (0 : UInt8) ∉ dotted ls := by
  induction ls with
  | nil => intro e; cases e
  | cons l ls ih =>
    cases ls with
    | nil => exact (h l List.mem_cons_self).nul
    | cons r ls =>
      rw [dotted_cons (by simp)]
      intro e
      rcases List.mem_append.1 e with e | e
      · exact (h l List.mem_cons_self).nul e
      · rcases List.mem_cons.1 e with e | e
        · revert e; decide
        · exact ih (fun l hl => h l (List.mem_cons_of_mem _ hl)) e

theorem nul_wire {ls : List Bytes} (h : ∀ l ∈ ls, Label l) : (0 : UInt8) ∉ wire ls := by
  intro e
  obtain ⟨l, hl, e⟩ := List.mem_flatMap.1 e
  rcases List.mem_cons.1 e with e | e
  · exact (toUInt8_len (h l hl)).2 e.symm
  · exact (h l hl).nul e

theorem cstr_nonul {s : Bytes} (h : (0 : UInt8) ∉ s) : cstr s = s := by
  have : cstr (s ++ []) = s ++ List.takeWhile (· != 0) [] := by
    unfold cstr
    rw [List.takeWhile_append_of_pos]
    intro c hc
    have : c ≠ 0 := fun e => h (by rw [← e]; exact hc)
    simpa using this
  simpa using this

theorem cstr_nul {s t : Bytes} (h : (0 : UInt8) ∉ s) : cstr (s ++ 0 :: t) = s := by
  unfold cstr
  rw [List.takeWhile_append_of_pos]
  · simp
  · intro c hc
    have : c ≠ 0 := fun e => h (by rw [← e]; exact hc)
    simpa using this

/-- The length of what osmo_apn_to_str() writes. -/
theorem unlabel_length {f : Nat} {d s : Bytes} (h : unlabel f d = some s) (hd : d ≠ []) : s.length < d.length := by
  induction f generalizing d s with
  | zero => cases h
  | succ f ih =>
    cases d with
    | nil => exact absurd rfl hd
    | cons c r =>
      rw [unlabel] at h
      split at h
      · cases h; simp
      split at h
      · cases h
      rename_i hc hle
      cases hu : unlabel f (r.drop c.toNat) with
      | none => rw [hu] at h; cases h
      | some t =>
        rw [hu] at h
        cases h
        rw [List.length_append, List.length_cons, List.length_take]
        split
        · simp; omega
        · rename_i he
          have := ih hu (by simpa using he)
          rw [List.length_drop] at this
          rw [List.length_cons]
          omega

theorem apnToStr_safe {d : Bytes} (h : d ≠ []) : apnToStr d ≠ .crash := by
  unfold apnToStr
  cases hu : unlabel (d.length + 1) d with
  | none => intro e; cases e
  | some s =>
    have := unlabel_length hu h
    show (if _ then _ else _) ≠ _
    rw [if_neg (by omega)]
    intro e; cases e

/-! ## Header, question, records -/

theorem header_length (h : Header) : (headerEncode h).length = 12 := rfl

theorem header_roundtrip (h : Header) (r : Bytes) (h1 : h.id < 65536) (h2 : h.qdcount < 65536) (h3 : h.ancount < 65536) :
    headerDecode (headerEncode h ++ r) = h := by
  obtain ⟨id, qr, qd, an⟩ := h
  have e1 := beNat_be16 h1
  have e2 := beNat_be16 h2
  have e3 := beNat_be16 h3
  show Header.mk (beNat (be16 id)) (decide ((if qr then 128 else 0 : UInt8) ≥ 128)) (beNat (be16 qd)) (beNat (be16 an)) = _
  rw [e1, e2, e3]
  cases qr <;> rfl

theorem question_roundtrip {ls : List Bytes} (hne : ls ≠ []) (h : ∀ l ∈ ls, Label l) {t c : Nat} (ht : t < 65536) (hc : c < 65536) :
    questionDecode (questionEncode (dotted ls) t c) = .ok (dotted ls, t, c) := by
  unfold questionDecode questionEncode
  rw [labels_dotted hne h]
  have hl : (wire ls ++ 0 :: (be16 t ++ be16 c)).length = (wire ls).length + 5 := by
    rw [List.length_append]; rfl
  have hw := wire_length hne
  rw [if_neg (by rw [hl]; omega), hl]
  have e1 : (wire ls ++ 0 :: (be16 t ++ be16 c)).take ((wire ls).length + 5 - 5) = wire ls := by
    rw [Nat.add_sub_cancel, List.take_left]
  have e2 : (wire ls ++ 0 :: (be16 t ++ be16 c)).drop ((wire ls).length + 5 - 4) = be16 t ++ be16 c := by
    rw [show (wire ls).length + 5 - 4 = (wire ls).length + 1 from by omega, ← List.drop_drop, List.drop_left]
    rfl
  have e3 : (wire ls ++ 0 :: (be16 t ++ be16 c)).drop ((wire ls).length + 5 - 2) = be16 c := by
    rw [show (wire ls).length + 5 - 2 = (wire ls).length + 3 from by omega, ← List.drop_drop, List.drop_left]
    rfl
  rw [e1, e2, e3, apnToStr_wire hne h]
  show Out.ok (dotted ls, beNat (be16 t), beNat (be16 c)) = _
  rw [beNat_be16 ht, beNat_be16 hc]

theorem recordEncode_length {ls : List Bytes} (hne : ls ≠ []) (h : ∀ l ∈ ls, Label l) (r : Record) :
    (recordEncode (dotted ls) r).length = (wire ls).length + 11 + r.data.length := by
  unfold recordEncode
  rw [labels_dotted hne h, List.length_append]
  show _ + (r.data.length + 2 + 4 + 2 + 2 + 1) = _
  omega

theorem record_roundtrip {ls : List Bytes} (hne : ls ≠ []) (h : ∀ l ∈ ls, Label l) (r : Record) (ht : r.type < 256)
    (hd : r.data.length < 65536) (t : Bytes) :
    recordDecode (recordEncode (dotted ls) r ++ t) = .ok (dotted ls, r, (recordEncode (dotted ls) r).length) := by
  have hlen : (recordEncode (dotted ls) r ++ t).length = (wire ls).length + 11 + r.data.length + t.length := by
    rw [List.length_append, recordEncode_length hne h]
  obtain ⟨x, hx⟩ : ∃ x, x = be16 r.type ++ be16 1 ++ be32 0 ++ be16 r.data.length ++ r.data ++ t := ⟨_, rfl⟩
  have henc : recordEncode (dotted ls) r ++ t = wire ls ++ 0 :: x := by
    unfold recordEncode
    rw [labels_dotted hne h, hx]
    simp
  have hn : nameLen (recordEncode (dotted ls) r ++ t) = some (wire ls).length := by
    unfold nameLen
    rw [if_neg (by omega), hlen, henc]
    have : (wire ls ++ 0 :: x).take ((wire ls).length + 11 + r.data.length + t.length - 10)
        = wire ls ++ 0 :: (x.take (r.data.length + t.length)) := by
      rw [List.take_append, List.take_of_length_le (by omega),
        show (wire ls).length + 11 + r.data.length + t.length - 10 - (wire ls).length = r.data.length + t.length + 1 from by omega]
      rfl
    rw [this, cstr_nul (nul_wire h)]
  have drop : ∀ k, (wire ls ++ 0 :: x).drop ((wire ls).length + (k + 1)) = x.drop k := by
    intro k
    rw [← List.drop_drop, List.drop_left]
    rfl
  unfold recordDecode
  rw [hn]
  dsimp only
  rw [hlen, henc]
  have hget : (wire ls ++ 0 :: x)[(wire ls).length + 1]? = some 0 := by
    have := congrArg (fun l => l[0]?) (drop 0)
    rw [List.getElem?_drop] at this
    rw [show (wire ls).length + 1 = (wire ls).length + (0 + 1) + 0 from by omega, this, hx]
    show some (r.type / 256).toUInt8 = _
    rw [Nat.div_eq_of_lt ht]
    rfl
  rw [hget]
  dsimp only
  rw [if_neg (by simp), List.take_left, apnToStr_wire hne h, bind_ok, if_neg (by omega)]
  have e1 : (wire ls ++ 0 :: x).drop ((wire ls).length + 9) = be16 r.data.length ++ r.data ++ t := by
    rw [drop 8, hx]; rfl
  have e2 : (wire ls ++ 0 :: x).drop ((wire ls).length + 11) = r.data ++ t := by
    rw [drop 10, hx]; rfl
  have e3 : ((wire ls ++ 0 :: x).drop ((wire ls).length + 1)).take 2 = be16 r.type := by
    rw [drop 0, hx]; rfl
  have e4 : (be16 r.data.length ++ r.data ++ t).take 2 = be16 r.data.length := rfl
  rw [e1, e2, e3, e4, beNat_be16 hd, beNat_be16 (by omega)]
  rw [if_neg (by omega), List.take_left, recordEncode_length hne h]

theorem answerRecords_roundtrip {ls : List Bytes} (hne : ls ≠ []) (h : ∀ l ∈ ls, Label l) (l : List Record)
    (hl : ∀ r ∈ l, r.type < 256 ∧ r.data.length < 65536) (dom : Option Bytes) (hdom : dom = none ∨ dom = some (dotted ls))
    (f : Nat) (hf : (l.flatMap (recordEncode (dotted ls))).length < f) :
    answerRecords f dom (l.flatMap (recordEncode (dotted ls))) = .ok (if l.isEmpty then dom else some (dotted ls), l) := by
  have hc : cstr (dotted ls) = dotted ls := cstr_nonul (nul_dotted h)
  induction l generalizing dom f with
  | nil =>
    cases f with
    | zero => cases hf
    | succ f => rfl
  | cons r l ih =>
    cases f with
    | zero => cases hf
    | succ f =>
      obtain ⟨h1, h2⟩ := hl r List.mem_cons_self
      rw [List.flatMap_cons] at hf ⊢
      have hlen := recordEncode_length hne h r
      rw [List.length_append, hlen] at hf
      rw [answerRecords, if_neg (by simp [recordEncode]), record_roundtrip hne h r h1 h2, bind_ok]
      dsimp only
      rw [hc, if_neg (by rcases hdom with e | e <;> simp [e, hc]), List.drop_left]
      have hg : dom.getD (dotted ls) = dotted ls := by rcases hdom with e | e <;> rw [e] <;> rfl
      rw [hg, ih (fun r hr => hl r (List.mem_cons_of_mem _ hr)) (some (dotted ls)) (.inr rfl) f (by omega), bind_ok]
      dsimp only
      rw [pure_ok]
      congr 2
      cases l <;> rfl

/-! ## Text records -/

theorem splitEq_append {k v : Bytes} (h1 : (61 : UInt8) ∉ k) (h0 : (0 : UInt8) ∉ k) : splitEq (k ++ 61 :: v) = some (k, v) := by
  induction k with
  | nil => rfl
  | cons c k ih =>
    have c1 : c ≠ 61 := fun e => h1 (by rw [e]; exact List.mem_cons_self)
    have c0 : c ≠ 0 := fun e => h0 (by rw [e]; exact List.mem_cons_self)
    rw [List.cons_append, splitEq, if_neg c1, if_neg c0, ih (fun e => h1 (List.mem_cons_of_mem _ e)) (fun e => h0 (List.mem_cons_of_mem _ e))]

theorem printN_self {s : Bytes} (h : (0 : UInt8) ∉ s) (hl : s.length ≤ 63) : printN s = s := by
  unfold printN
  rw [List.take_of_length_le hl, cstr_nonul h]

/-- Text records of up to 127 bytes, key and value of up to 63, can be read back. -/
theorem txt_roundtrip {k v : Bytes} (h1 : (61 : UInt8) ∉ k) (h0 : (0 : UInt8) ∉ k) (hv : (0 : UInt8) ∉ v)
    (hk : k.length ≤ 63) (hvl : v.length ≤ 63) :
    ∃ r, txtEncode k v = some r ∧ r.type = 16 ∧ r.data.length = k.length + v.length + 2 ∧ txtDecode r = .ok (k, v) := by
  unfold txtEncode
  rw [if_neg (by omega)]
  refine ⟨_, rfl, rfl, ?_, ?_⟩
  · rw [List.length_cons, List.length_append, List.length_cons]; omega
  · have hn : (k.length + 1 + v.length).toUInt8.toNat = k.length + 1 + v.length := by rw [toNat_toUInt8]; omega
    unfold txtDecode
    rw [if_neg (by simp)]
    dsimp only
    rw [if_neg (by
        rw [ge_iff_le, UInt8.le_iff_toNat_le, hn, List.length_append, List.length_cons]
        intro e
        rcases e with e | e
        · have e : 128 ≤ _ := e
          omega
        · omega),
      if_neg (by simp), splitEq_append h1 h0]
    dsimp only
    rw [printN_self h0 hk, printN_self hv hvl]

theorem dec_spec (n : Nat) : (0 : UInt8) ∉ dec n ∧ (dec n).length ≤ 10 := by
  obtain ⟨h1, h2, -⟩ := decGo_spec 10 n
  exact ⟨fun e => absurd (h2 0 e).1 (by decide), h1⟩

theorem age_roundtrip (n : Nat) :
    ∃ r, ageRecord n = some r ∧ r.type = 16 ∧ r.data.length ≤ 15 ∧ txtDecode r = .ok ([97, 103, 101], dec n) := by
  obtain ⟨h0, h1⟩ := dec_spec n
  obtain ⟨r, e1, e2, e3, e4⟩ := txt_roundtrip (k := [97, 103, 101]) (v := dec n) (by decide) (by decide) h0 (by decide) (by omega)
  exact ⟨r, e1, e2, by rw [e3]; show 3 + _ + 2 ≤ _; omega, e4⟩

theorem port_roundtrip (n : Nat) :
    ∃ r, portRecord n = some r ∧ r.type = 16 ∧ r.data.length ≤ 16 ∧ txtDecode r = .ok ([112, 111, 114, 116], dec n) := by
  obtain ⟨h0, h1⟩ := dec_spec n
  obtain ⟨r, e1, e2, e3, e4⟩ := txt_roundtrip (k := [112, 111, 114, 116]) (v := dec n) (by decide) (by decide) h0 (by decide) (by omega)
  exact ⟨r, e1, e2, by rw [e3]; show 4 + _ + 2 ≤ _; omega, e4⟩

end Verif.Mslookup.Mdns
