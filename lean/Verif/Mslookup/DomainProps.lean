import Verif.Mslookup.Domain
/-!
# C45: domain strings round-trip
-/
namespace Verif.Mslookup
open Verif

/-- A query as users make it: a service of 1 to 64 characters and an id of digits, 6 to 15 for
an IMSI, 1 to 15 for a number. -/
structure Spec.Valid (q : Query) : Prop where
  service : 1 ≤ q.service.length ∧ q.service.length ≤ 64
  digits : ∀ c ∈ idText q.id, 48 ≤ c ∧ c ≤ 57
  id : match q.id with
    | .none => False
    | .imsi v => 6 ≤ v.length ∧ v.length ≤ 15
    | .msisdn v => 1 ≤ v.length ∧ v.length ≤ 15

/-- Two strings differ only in the case of ASCII letters. -/
def Spec.SameUpToCase : Bytes → Bytes → Prop
  | [], [] => True
  | x :: s, y :: t => (x = y ∨ (65 ≤ x ∧ x ≤ 90 ∧ y = x + 32) ∨ (65 ≤ y ∧ y ≤ 90 ∧ x = y + 32)) ∧ Spec.SameUpToCase s t
  | _, _ => False

namespace Props

theorem digits_iff {v : Bytes} : v.all isDigit = true ↔ ∀ c ∈ v, 48 ≤ c ∧ c ≤ 57 := by
  rw [List.all_eq_true]
  unfold isDigit
  simp only [Bool.and_eq_true, decide_eq_true_eq]

theorem splitLast_join {l r : Bytes} (h : (46 : UInt8) ∉ r) : splitLast (l ++ 46 :: r) = some (l, r) := by
  have hr : ∀ r : Bytes, (46 : UInt8) ∉ r → splitLast r = none := by
    intro r
    induction r with
    | nil => intro _; rfl
    | cons x r ih =>
      intro h
      rw [splitLast, ih (fun e => h (List.mem_cons_of_mem _ e))]
      have : x ≠ 46 := fun e => h (by rw [e]; exact List.mem_cons_self)
      dsimp only
      rw [if_neg this]
  induction l with
  | nil => rw [List.nil_append, splitLast, hr r h]; rfl
  | cons x l ih => rw [List.cons_append, splitLast, ih]

theorem splitLast_some {s l r : Bytes} (h : splitLast s = some (l, r)) : s = l ++ 46 :: r ∧ (46 : UInt8) ∉ r := by
  have none_of : ∀ s : Bytes, splitLast s = none → (46 : UInt8) ∉ s := by
    intro s
    induction s with
    | nil => intro _ h; cases h
    | cons x s ih =>
      intro h hm
      rw [splitLast] at h
      cases hs : splitLast s with
      | some p => rw [hs] at h; cases h
      | none =>
        rw [hs] at h
        dsimp only at h
        split at h
        · cases h
        · rename_i hx
          rcases List.mem_cons.1 hm with e | e
          · exact hx e.symm
          · exact ih hs e
  induction s generalizing l r with
  | nil => cases h
  | cons x s ih =>
    rw [splitLast] at h
    cases hs : splitLast s with
    | some p =>
      rw [hs] at h
      cases h
      obtain ⟨h1, h2⟩ := ih (l := p.1) (r := p.2) hs
      exact ⟨by rw [List.cons_append, ← h1], h2⟩
    | none =>
      rw [hs] at h
      dsimp only at h
      split at h
      · rename_i hx
        cases h
        exact ⟨by rw [hx]; rfl, none_of s hs⟩
      · cases h

theorem no_dot {v : Bytes} (h : ∀ c ∈ v, (48 : UInt8) ≤ c ∧ c ≤ 57) : (46 : UInt8) ∉ v := fun hm =>
  absurd (h _ hm).1 (by decide)

/-- C45: parsing the domain string of any valid query gives back the query. -/
theorem c45_roundtrip (q : Query) (h : Spec.Valid q) : parseDomain (domainStr q) = .ok q := by
  obtain ⟨⟨s1, s2⟩, hd, hi⟩ := h
  obtain ⟨svc, i⟩ := q
  dsimp only at s1 s2 hd hi
  have hdot := no_dot hd
  have ht : (46 : UInt8) ∉ typeName i := by
    cases i with
    | none => decide
    | imsi v => rw [show typeName (.imsi v) = [105, 109, 115, 105] from rfl]; decide
    | msisdn v => rw [show typeName (.msisdn v) = [109, 115, 105, 115, 100, 110] from rfl]; decide
  have hs0 : svc.isEmpty = false := by cases svc with
    | nil => simp at s1
    | cons _ _ => rfl
  have htok : tokenErr (SERVICE_MAXLEN + 1) svc = none := by
    unfold tokenErr SERVICE_MAXLEN
    rw [hs0, if_neg (by simp), if_neg (by omega)]
  have split1 : splitLast (domainStr ⟨svc, i⟩) = some (svc ++ 46 :: idText i, typeName i) := by
    unfold domainStr idName
    rw [← List.cons_append, ← List.append_assoc]
    exact splitLast_join ht
  unfold parseDomain
  rw [split1]
  dsimp only
  rw [if_neg (by simp), splitLast_join hdot]
  dsimp only
  rw [hs0, if_neg (by simp)]
  have tok : ∀ v : Bytes, 1 ≤ v.length → v.length ≤ 15 → tokenErr 16 v = none := by
    intro v h1 h2
    have : v.isEmpty = false := by cases v with
      | nil => simp at h1
      | cons _ _ => rfl
    unfold tokenErr
    rw [this, if_neg (by simp), if_neg (by omega)]
  cases i with
  | none => exact hi.elim
  | imsi v =>
    dsimp only at hi
    have e1 : typeName (.imsi v) = [105, 109, 115, 105] := rfl
    have e2 : idText (.imsi v) = v := rfl
    rw [e2] at hd
    rw [e1, e2]
    have hv : imsiValid v = true := by
      unfold imsiValid isNDigits
      rw [digits_iff.2 hd]
      simp [hi.1, hi.2]
    rw [if_neg (by decide), if_neg (by decide), if_pos (by decide)]
    rw [tok v (by omega) hi.2]
    dsimp only
    rw [hv, if_pos rfl, htok]
  | msisdn v =>
    dsimp only at hi
    have e1 : typeName (.msisdn v) = [109, 115, 105, 115, 100, 110] := rfl
    have e2 : idText (.msisdn v) = v := rfl
    rw [e2] at hd
    rw [e1, e2]
    have hv : msisdnValid v = true := by
      unfold msisdnValid isNDigits
      rw [digits_iff.2 hd]
      simp [hi.1, hi.2]
    rw [if_neg (by decide), if_neg (by decide), if_neg (by decide), if_pos (by decide)]
    rw [tok v (by omega) hi.2]
    dsimp only
    rw [hv, if_pos rfl, htok]

theorem tokenErr_none {n : Nat} {s : Bytes} (h : tokenErr n s = none) : s ≠ [] ∧ s.length < n := by
  unfold tokenErr at h
  split at h
  · cases h
  split at h
  · cases h
  rename_i h1 h2
  exact ⟨(by rintro rfl; exact h1 rfl), by omega⟩

theorem lower_eq {x y : UInt8} (h : lower x = lower y) :
    x = y ∨ (65 ≤ x ∧ x ≤ 90 ∧ y = x + 32) ∨ (65 ≤ y ∧ y ≤ 90 ∧ x = y + 32) := by
  unfold lower at h
  split at h <;> split at h
  · exact .inl (by simpa using h)
  · rename_i h1 h2
    simp only [Bool.and_eq_true, decide_eq_true_eq] at h1
    exact .inr (.inl ⟨h1.1, h1.2, h.symm⟩)
  · rename_i h1 h2
    simp only [Bool.and_eq_true, decide_eq_true_eq] at h2
    exact .inr (.inr ⟨h2.1, h2.2, h⟩)
  · exact .inl h

theorem caseEq_same : ∀ {s t : Bytes}, caseEq s t = true → Spec.SameUpToCase s t
  | [], [], _ => trivial
  | [], _ :: _, h => by simp [caseEq] at h
  | _ :: _, [], h => by simp [caseEq] at h
  | x :: s, y :: t, h => by
    simp only [caseEq, List.map_cons, beq_iff_eq, List.cons.injEq] at h
    exact And.intro (lower_eq h.1) (caseEq_same (by simp [caseEq, h.2]))

/-- C45: whatever string is parsed, if it is not refused the query is valid and the string is
its domain string, except for the case of the id's type: nothing is cut off. -/
theorem c45_exact {s : Bytes} {q : Query} (h : parseDomain s = .ok q) :
    Spec.Valid q ∧ ∃ t, Spec.SameUpToCase t (typeName q.id) ∧ s = q.service ++ 46 :: (idText q.id ++ 46 :: t) := by
  unfold parseDomain at h
  cases h1 : splitLast s with
  | none => rw [h1] at h; cases h
  | some p =>
    obtain ⟨pre, typ⟩ := p
    rw [h1] at h
    dsimp only at h
    split at h
    · cases h
    cases h2 : splitLast pre with
    | none => rw [h2] at h; cases h
    | some p =>
      obtain ⟨svc, x⟩ := p
      rw [h2] at h
      dsimp only at h
      obtain ⟨e1, -⟩ := splitLast_some h1
      obtain ⟨e2, -⟩ := splitLast_some h2
      have es : s = svc ++ 46 :: (x ++ 46 :: typ) := by rw [e1, e2]; simp
      split at h
      · cases h
      split at h
      · cases h
      split at h
      · cases h
      have fin : ∀ i : Id, (match tokenErr (SERVICE_MAXLEN + 1) svc with
          | some e => Except.error e
          | none => .ok ({ service := svc, id := i } : Query)) = .ok q →
          q = { service := svc, id := i } ∧ 1 ≤ svc.length ∧ svc.length ≤ 64 := by
        intro i h
        cases ht : tokenErr (SERVICE_MAXLEN + 1) svc with
        | some e => rw [ht] at h; cases h
        | none =>
          rw [ht] at h
          obtain ⟨h1, h2⟩ := tokenErr_none ht
          cases h
          refine ⟨rfl, List.length_pos_iff.2 h1, ?_⟩
          unfold SERVICE_MAXLEN at h2
          omega
      have dig : ∀ lo, isNDigits lo 15 x = true → lo ≤ x.length ∧ x.length ≤ 15 ∧ ∀ c ∈ x, 48 ≤ c ∧ c ≤ 57 := by
        intro lo hv
        unfold isNDigits at hv
        simp only [Bool.and_eq_true, decide_eq_true_eq] at hv
        exact ⟨hv.1.1, hv.1.2, digits_iff.1 hv.2⟩
      split at h
      · rename_i hc
        cases ht : tokenErr 16 x with
        | some e => rw [ht] at h; cases h
        | none =>
          rw [ht] at h
          dsimp only at h
          split at h
          · rename_i hv
            obtain ⟨rfl, f1, f2⟩ := fin (.imsi x) h
            obtain ⟨d1, d2, d3⟩ := dig 6 hv
            exact ⟨⟨⟨f1, f2⟩, d3, d1, d2⟩, typ, caseEq_same hc, es⟩
          · cases h
      split at h
      · rename_i hc
        cases ht : tokenErr 16 x with
        | some e => rw [ht] at h; cases h
        | none =>
          rw [ht] at h
          dsimp only at h
          split at h
          · rename_i hv
            obtain ⟨rfl, f1, f2⟩ := fin (.msisdn x) h
            obtain ⟨d1, d2, d3⟩ := dig 1 hv
            exact ⟨⟨⟨f1, f2⟩, d3, d1, d2⟩, typ, caseEq_same hc, es⟩
          · cases h
      · cases h

/-- C45: different valid queries have different domain strings. -/
theorem c45_injective {q q' : Query} (h : Spec.Valid q) (h' : Spec.Valid q') (he : domainStr q = domainStr q') : q = q' := by
  have h1 := c45_roundtrip q h
  rw [he, c45_roundtrip q' h'] at h1
  exact (Except.ok.inj h1).symm

/-- The comparison of ids finds exactly the equal ones equal. -/
theorem c45_cmp (x y : Id) (hx : (0 : UInt8) ∉ idText x) (hy : (0 : UInt8) ∉ idText y) : idCmp x y = 0 ↔ x = y := by
  have str : ∀ v w : Bytes, (0 : UInt8) ∉ v → (0 : UInt8) ∉ w → (strCmp v w = 0 ↔ v = w) := by
    intro v
    induction v with
    | nil =>
      intro w _ hw
      cases w with
      | nil => simp [strCmp]
      | cons y w =>
        have : y.toNat ≠ 0 := fun e => hw (by
          have : y = 0 := UInt8.toNat_inj.1 e
          rw [this]; exact List.mem_cons_self)
        simp only [strCmp, reduceCtorEq, iff_false]
        omega
    | cons x v ih =>
      intro w hv hw
      cases w with
      | nil =>
        have : x.toNat ≠ 0 := fun e => hv (by
          have : x = 0 := UInt8.toNat_inj.1 e
          rw [this]; exact List.mem_cons_self)
        simp only [strCmp, reduceCtorEq, iff_false]
        omega
      | cons y w =>
        rw [strCmp]
        split
        · rename_i e
          rw [ih w (fun m => hv (List.mem_cons_of_mem _ m)) (fun m => hw (List.mem_cons_of_mem _ m)), e]
          simp
        · rename_i e
          have : x.toNat ≠ y.toNat := fun h => e (UInt8.toNat_inj.1 h)
          constructor
          · intro h; omega
          · intro h; cases h; exact absurd rfl e
  cases x <;> cases y <;> simp [idCmp, idType]
  · exact str _ _ hx hy
  · exact str _ _ hx hy

theorem strCmp_neg (v w : Bytes) : strCmp w v = - strCmp v w := by
  induction v generalizing w with
  | nil => cases w <;> simp [strCmp]
  | cons x v ih =>
    cases w with
    | nil => simp [strCmp]
    | cons y w =>
      rw [strCmp, strCmp]
      by_cases h : x = y
      · rw [if_pos h.symm, if_pos h, ih]
      · rw [if_neg (fun e => h e.symm), if_neg h]
        omega

theorem strCmp_trans {u v w : Bytes} (hu : (0 : UInt8) ∉ u) (hv : (0 : UInt8) ∉ v) (hw : (0 : UInt8) ∉ w)
    (h1 : strCmp u v < 0) (h2 : strCmp v w < 0) : strCmp u w < 0 := by
  have pos : ∀ {c : UInt8} {s : Bytes}, (0 : UInt8) ∉ c :: s → 0 < c.toNat := by
    intro c s h
    rcases Nat.eq_zero_or_pos c.toNat with e | e
    · have : c = 0 := UInt8.toNat_inj.1 e
      exact absurd (by rw [this]; exact List.mem_cons_self) h
    · exact e
  induction u generalizing v w with
  | nil =>
    cases w with
    | nil =>
      cases v with
      | nil => exact h1
      | cons y v => simp only [strCmp] at h2; omega
    | cons z w =>
      have := pos hw
      simp only [strCmp]
      omega
  | cons x u ih =>
    cases v with
    | nil => simp only [strCmp] at h1; omega
    | cons y v =>
      cases w with
      | nil => simp only [strCmp] at h2; omega
      | cons z w =>
        have ne : ∀ {a c : UInt8}, a ≠ c → a.toNat ≠ c.toNat := fun h e => h (UInt8.toNat_inj.1 e)
        rw [strCmp] at h1 h2 ⊢
        by_cases e1 : x = y
        · rw [if_pos e1] at h1
          by_cases e2 : y = z
          · rw [if_pos e2] at h2
            rw [if_pos (e1.trans e2)]
            exact ih (fun m => hu (List.mem_cons_of_mem _ m)) (fun m => hv (List.mem_cons_of_mem _ m))
              (fun m => hw (List.mem_cons_of_mem _ m)) h1 h2
          · rw [if_neg e2] at h2
            rw [if_neg (by rw [e1]; exact e2), e1]
            exact h2
        · rw [if_neg e1] at h1
          by_cases e2 : y = z
          · rw [← e2, if_neg e1]
            exact h1
          · rw [if_neg e2] at h2
            rw [if_neg (fun e => by rw [e] at h1; omega)]
            omega

/-- The comparison of ids is a total order: swapping the ids flips the sign, and it is
transitive. -/
theorem c45_order (x y z : Id) (hx : (0 : UInt8) ∉ idText x) (hy : (0 : UInt8) ∉ idText y) (hz : (0 : UInt8) ∉ idText z) :
    idCmp y x = - idCmp x y ∧ (idCmp x y < 0 → idCmp y z < 0 → idCmp x z < 0) := by
  cases x <;> cases y <;> cases z <;> simp [idCmp, idType] <;>
    first | exact ⟨strCmp_neg _ _, strCmp_trans hx hy hz⟩ | exact strCmp_neg _ _

example : idCmp (.imsi (b "001019")) (.imsi (b "00102")) < 0 ∧ idCmp (.imsi (b "9")) (.msisdn (b "1")) < 0
    ∧ idCmp (.msisdn (b "10")) (.msisdn (b "1")) > 0 := by decide +kernel

/-! A query, its domain string, and strings that are refused. -/

def exQuery : Query := { service := b "sip.voice", id := .msisdn (b "1001") }

theorem exQuery_valid : Spec.Valid exQuery := ⟨by decide +kernel, by decide +kernel, by show 1 ≤ (b "1001").length ∧ _; decide +kernel⟩

example : domainStr exQuery = b "sip.voice.1001.msisdn" ∧ (parseDomain (b "sip.voice.1001.MSisdn")).toOption = some exQuery
    ∧ (parseDomain (b "sip.voice.12345678901234567.imsi")).toOption = none
    ∧ (parseDomain (b ".1001.msisdn")).toOption = none ∧ (parseDomain (b "1001.msisdn")).toOption = none
    ∧ (parseDomain (List.replicate 65 97 ++ b ".1001.msisdn")).toOption = none
    ∧ (parseDomain (b "sip.voice.1001.none")).toOption = none := by decide +kernel

end Props
end Verif.Mslookup
