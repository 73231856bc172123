import Verif.Mslookup.MdnsMethodProps
/-!
# C47: an accepted answer says each thing once; C51: what is sent asks the question
-/
namespace Verif.Mslookup.Mdns.Spec
open Verif Verif.Sys Verif.Mslookup

/-- A text record `key=value`; of the value at most 63 bytes count, and nothing after a NUL. -/
def Txt (key : Bytes) (x : Record) (value : Bytes) : Prop :=
  ∃ c v, x.type = 16 ∧ x.data = c :: (key ++ 61 :: v) ∧ c.toNat = (key ++ 61 :: v).length ∧ c < 128
    ∧ value = cstr (v.take 63)

/-- Types and sizes of address records. -/
def addrType (v6 : Bool) : Nat := if v6 then 28 else 1
def addrSize (v6 : Bool) : Nat := if v6 then 16 else 4

/-- The records give no address of this family. -/
def NoAddr (v6 : Bool) (l : List Record) : Prop := ∀ x ∈ l, x.type ≠ addrType v6

/-- The records give exactly one address of this family, and the next port after it. -/
def OneAddr (v6 : Bool) (l : List Record) (a : Addr) : Prop :=
  ∃ pre x mid y post v, l = pre ++ x :: (mid ++ y :: post) ∧ x.type = addrType v6 ∧ x.data.length = addrSize v6
    ∧ (∀ z ∈ pre ++ (mid ++ y :: post), z.type ≠ addrType v6)
    ∧ (∀ z ∈ mid, z.type ≠ addrType (!v6) ∧ ∀ w, ¬ Txt (b "port") z w)
    ∧ Txt (b "port") y v ∧ decodePort v = some a.port ∧ a.v6 = v6 ∧ a.ip = beNat x.data

/-- The records say this: one age, at least one address, at most one of each family, each with its
port, and nothing else. -/
structure Says (l : List Record) (r : Result) : Prop where
  age : ∃ pre x post v, l = pre ++ x :: post ∧ Txt (b "age") x v ∧ decodeU32 v = some r.age
    ∧ ∀ z ∈ pre ++ post, ∀ w, ¬ Txt (b "age") z w
  addr : ¬ (NoAddr false l ∧ NoAddr true l)
  v4 : NoAddr false l ∧ r.v4 = {} ∨ OneAddr false l r.v4
  v6 : NoAddr true l ∧ r.v6 = {} ∨ OneAddr true l r.v6
  only : ∀ x ∈ l, (∃ f, x.type = addrType f) ∨ (∃ v, Txt (b "age") x v) ∨ ∃ v, Txt (b "port") x v

end Verif.Mslookup.Mdns.Spec

namespace Verif.Mslookup.Mdns
open Verif Verif.Sys Verif.Mslookup Mdns.Spec

theorem splitEq_some {s k v : Bytes} (h : splitEq s = some (k, v)) : s = k ++ 61 :: v ∧ (0 : UInt8) ∉ k := by
  induction s generalizing k v with
  | nil => cases h
  | cons c s ih =>
    unfold splitEq at h
    split at h
    · rename_i hc; cases h; subst hc; exact ⟨rfl, by simp⟩
    split at h
    · cases h
    rename_i h0
    split at h
    · rename_i k' v' e
      cases h
      obtain ⟨e1, e2⟩ := ih e
      exact ⟨by rw [e1]; rfl, by simp only [List.mem_cons, not_or]; exact ⟨fun e => h0 e.symm, e2⟩⟩
    · cases h

theorem splitEq_key {k : Bytes} (h0 : (0 : UInt8) ∉ k) (h1 : (61 : UInt8) ∉ k) (v : Bytes) : splitEq (k ++ 61 :: v) = some (k, v) := by
  induction k with
  | nil => rfl
  | cons c k ih =>
    rw [List.mem_cons, not_or] at h0 h1
    rw [List.cons_append, splitEq, if_neg (fun e => h1.1 e.symm), if_neg (fun e => h0.1 e.symm), ih h0.2 h1.2]

theorem cstr_of_not_mem {k : Bytes} (h : (0 : UInt8) ∉ k) : cstr k = k := by
  unfold cstr
  induction k with
  | nil => rfl
  | cons c k ih =>
    rw [List.mem_cons, not_or] at h
    rw [List.takeWhile_cons, if_pos (by simpa using fun e => h.1 e.symm), ih h.2]

theorem txt_iff {key : Bytes} (h0 : (0 : UInt8) ∉ key) (h1 : (61 : UInt8) ∉ key) (hl : key.length < 63) (x : Record) (w : Bytes) :
    txtDecode x = .ok (key, w) ↔ Txt key x w := by
  constructor
  · intro h
    unfold txtDecode at h
    split at h
    · cases h
    rename_i ht
    split at h
    · cases h
    rename_i c s hd
    split at h
    · cases h
    rename_i hc
    split at h
    · cases h
    split at h
    · cases h
    rename_i k v he
    obtain ⟨e1, e2⟩ := splitEq_some he
    have hk : printN k = key := congrArg Prod.fst (Out.ok.inj h)
    have hw : printN v = w := congrArg Prod.snd (Out.ok.inj h)
    unfold printN at hk hw
    rw [cstr_of_not_mem (fun e => e2 (List.mem_of_mem_take e))] at hk
    have : k = key := by
      have hlen := congrArg List.length hk
      rw [List.length_take] at hlen
      rw [← hk, List.take_of_length_le (by omega)]
    subst this
    simp only [not_or, Classical.not_not] at hc
    exact ⟨c, v, by simpa using ht, by rw [hd, e1], by rw [← e1]; exact hc.2, by simpa using hc.1, hw.symm⟩
  · rintro ⟨c, v, ht, hd, hc, hlt, rfl⟩
    unfold txtDecode
    rw [if_neg (by simp [ht]), hd]
    dsimp only
    rw [if_neg (by rw [not_or]; exact ⟨by simpa using hlt, by simpa using hc⟩), if_neg (by simp), splitEq_key h0 h1]
    show Out.ok (printN key, printN v) = _
    unfold printN
    rw [List.take_of_length_le (by omega), cstr_of_not_mem h0]

theorem txt_age (x : Record) (w : Bytes) : txtDecode x = .ok ([97, 103, 101], w) ↔ Txt (b "age") x w := by
  rw [← show [97, 103, 101] = b "age" by decide +kernel]
  exact txt_iff (by decide) (by decide) (by decide) x w

theorem txt_port (x : Record) (w : Bytes) : txtDecode x = .ok ([112, 111, 114, 116], w) ↔ Txt (b "port") x w := by
  rw [← show [112, 111, 114, 116] = b "port" by decide +kernel]
  exact txt_iff (by decide) (by decide) (by decide) x w

/-- The records end with an address whose port has not come yet. -/
def OpenAddr (v6 : Bool) (l : List Record) (a : Addr) : Prop :=
  ∃ pre x mid, l = pre ++ x :: mid ∧ x.type = addrType v6 ∧ x.data.length = addrSize v6
    ∧ (∀ z ∈ pre ++ mid, z.type ≠ addrType v6)
    ∧ (∀ z ∈ mid, z.type ≠ addrType (!v6) ∧ ∀ w, ¬ Txt (b "port") z w)
    ∧ a = ⟨v6, beNat x.data, 0⟩

theorem noAddr_snoc {v6 : Bool} {l : List Record} (h : NoAddr v6 l) {z : Record} (hz : z.type ≠ addrType v6) : NoAddr v6 (l ++ [z]) := by
  intro x hx
  rcases List.mem_append.1 hx with hx | hx
  · exact h x hx
  · rw [List.mem_singleton.1 hx]; exact hz

theorem noAddr_open {v6 : Bool} {l : List Record} (h : NoAddr v6 l) {z : Record} (hz : z.type = addrType v6)
    (hl : z.data.length = addrSize v6) : OpenAddr v6 (l ++ [z]) ⟨v6, beNat z.data, 0⟩ :=
  ⟨l, z, [], rfl, hz, hl, by rw [List.append_nil]; exact h, fun _ h => (by cases h), rfl⟩

theorem oneAddr_snoc {v6 : Bool} {l : List Record} {a : Addr} (h : OneAddr v6 l a) {z : Record} (hz : z.type ≠ addrType v6) :
    OneAddr v6 (l ++ [z]) a := by
  obtain ⟨pre, x, mid, y, post, v, rfl, h1, h2, h3, h4, h5⟩ := h
  refine ⟨pre, x, mid, y, post ++ [z], v, by simp, h1, h2, fun w hw => ?_, h4, h5⟩
  have hw : w ∈ (pre ++ (mid ++ y :: post)) ++ [z] := by simpa using hw
  rcases List.mem_append.1 hw with hw | hw
  · exact h3 w hw
  · rw [List.mem_singleton.1 hw]; exact hz

theorem openAddr_snoc {v6 : Bool} {l : List Record} {a : Addr} (h : OpenAddr v6 l a) {z : Record} (hz : z.type = 16)
    (hp : ∀ w, ¬ Txt (b "port") z w) : OpenAddr v6 (l ++ [z]) a := by
  have ht : ∀ f, z.type ≠ addrType f := fun f => (by rw [hz]; cases f <;> decide)
  obtain ⟨pre, x, mid, rfl, h1, h2, h3, h4, h5⟩ := h
  refine ⟨pre, x, mid ++ [z], by simp, h1, h2, fun w hw => ?_, fun w hw => ?_, h5⟩
  · rw [← List.append_assoc] at hw
    rcases List.mem_append.1 hw with hw | hw
    · exact h3 w hw
    · rw [List.mem_singleton.1 hw]; exact ht _
  · rcases List.mem_append.1 hw with hw | hw
    · exact h4 w hw
    · rw [List.mem_singleton.1 hw]; exact ⟨ht _, hp⟩

theorem openAddr_close {v6 : Bool} {l : List Record} {a : Addr} (h : OpenAddr v6 l a) {z : Record} {v : Bytes} (hz : Txt (b "port") z v)
    {p : Nat} (hp : decodePort v = some p) : OneAddr v6 (l ++ [z]) { a with port := p } := by
  obtain ⟨pre, x, mid, rfl, h1, h2, h3, h4, h5⟩ := h
  refine ⟨pre, x, mid, z, [], v, by simp, h1, h2, fun w hw => ?_, h4, hz, hp, by rw [h5], by rw [h5]⟩
  rw [← List.append_assoc] at hw
  rcases List.mem_append.1 hw with hw | hw
  · exact h3 w hw
  · obtain ⟨_, _, ht, _⟩ := hz
    rw [List.mem_singleton.1 hw, ht]; cases v6 <;> decide

/-- How far one family of addresses has been read. -/
def Fam (v6 : Bool) (l : List Record) (seen : Bool) (expect : Option Bool) (a : Addr) : Prop :=
  (seen = false ∧ expect ≠ some v6 ∧ NoAddr v6 l ∧ a = {}) ∨ (seen = true ∧ expect = some v6 ∧ OpenAddr v6 l a)
    ∨ (seen = true ∧ expect ≠ some v6 ∧ OneAddr v6 l a)

theorem Fam.snoc {v6 seen : Bool} {l : List Record} {expect : Option Bool} {a : Addr} (h : Fam v6 l seen expect a) {z : Record}
    (hz : z.type = 16) (hp : ∀ w, ¬ Txt (b "port") z w) : Fam v6 (l ++ [z]) seen expect a := by
  have ht : z.type ≠ addrType v6 := by rw [hz]; cases v6 <;> decide
  rcases h with ⟨h1, h2, h3, h4⟩ | ⟨h1, h2, h3⟩ | ⟨h1, h2, h3⟩
  · exact .inl ⟨h1, h2, noAddr_snoc h3 ht, h4⟩
  · exact .inr (.inl ⟨h1, h2, openAddr_snoc h3 hz hp⟩)
  · exact .inr (.inr ⟨h1, h2, oneAddr_snoc h3 ht⟩)

/-- Nothing of this family is expected and nothing of it comes. -/
theorem Fam.other {v6 seen : Bool} {l : List Record} {expect expect' : Option Bool} {a : Addr} (h : Fam v6 l seen expect a)
    (he : expect ≠ some v6) (he' : expect' ≠ some v6) {z : Record} (hz : z.type ≠ addrType v6) : Fam v6 (l ++ [z]) seen expect' a := by
  rcases h with ⟨h1, h2, h3, h4⟩ | ⟨h1, h2, h3⟩ | ⟨h1, h2, h3⟩
  · exact .inl ⟨h1, he', noAddr_snoc h3 hz, h4⟩
  · exact absurd h2 he
  · exact .inr (.inr ⟨h1, he', oneAddr_snoc h3 hz⟩)

/-- What the records read so far said. -/
structure Reading (l : List Record) (s : Acc) : Prop where
  age : if s.age then ∃ pre x post v, l = pre ++ x :: post ∧ Txt (b "age") x v ∧ decodeU32 v = some s.result.age
      ∧ ∀ z ∈ pre ++ post, ∀ w, ¬ Txt (b "age") z w
    else ∀ z ∈ l, ∀ w, ¬ Txt (b "age") z w
  v4 : Fam false l s.v4 s.expect s.result.v4
  v6 : Fam true l s.v6 s.expect s.result.v6
  only : ∀ x ∈ l, (∃ f, x.type = addrType f) ∨ (∃ v, Txt (b "age") x v) ∨ ∃ v, Txt (b "port") x v

theorem reading_age {l : List Record} {s : Acc} (h : Reading l s) {z : Record} (hz : ∀ w, ¬ Txt (b "age") z w) :
    if s.age then ∃ pre x post v, l ++ [z] = pre ++ x :: post ∧ Txt (b "age") x v ∧ decodeU32 v = some s.result.age
      ∧ ∀ z ∈ pre ++ post, ∀ w, ¬ Txt (b "age") z w
    else ∀ y ∈ l ++ [z], ∀ w, ¬ Txt (b "age") y w := by
  have ha := h.age
  split
  · rename_i hs
    rw [if_pos hs] at ha
    obtain ⟨pre, x, post, v, rfl, h1, h2, h3⟩ := ha
    refine ⟨pre, x, post ++ [z], v, by simp, h1, h2, fun y hy => ?_⟩
    rw [← List.append_assoc] at hy
    rcases List.mem_append.1 hy with hy | hy
    · exact h3 y hy
    · rw [List.mem_singleton.1 hy]; exact hz
  · rename_i hs
    rw [if_neg hs] at ha
    intro y hy
    rcases List.mem_append.1 hy with hy | hy
    · exact ha y hy
    · rw [List.mem_singleton.1 hy]; exact hz

theorem reading_only {l : List Record} {s : Acc} (h : Reading l s) {z : Record}
    (hz : (∃ f, z.type = addrType f) ∨ (∃ v, Txt (b "age") z v) ∨ ∃ v, Txt (b "port") z v) :
    ∀ x ∈ l ++ [z], (∃ f, x.type = addrType f) ∨ (∃ v, Txt (b "age") x v) ∨ ∃ v, Txt (b "port") x v := by
  intro x hx
  rcases List.mem_append.1 hx with hx | hx
  · exact h.only x hx
  · rw [List.mem_singleton.1 hx]; exact hz

theorem reading_step {l : List Record} {s s' : Acc} (h : Reading l s) {z : Record} (hs : accRecord s z = .ok s') : Reading (l ++ [z]) s' := by
  have noTxt : z.type ≠ 16 → ∀ k w, ¬ Txt k z w := fun ht k w ⟨_, _, e, _⟩ => ht e
  unfold accRecord at hs
  split at hs
  · rename_i ht
    split at hs
    · cases hs
    rename_i he
    split at hs
    · cases hs
    rename_i hl
    simp only [not_or, Bool.not_eq_true, Option.isSome_eq_false_iff, Option.isNone_iff_eq_none] at he
    cases hs
    refine ⟨reading_age h (noTxt (by rw [ht]; decide) _), ?_, ?_, reading_only h (.inl ⟨false, ht⟩)⟩
    · rcases h.v4 with ⟨h1, h2, h3, h4⟩ | ⟨h1, -⟩ | ⟨h1, -⟩
      · exact .inr (.inl ⟨rfl, rfl, noAddr_open h3 ht (Classical.not_not.1 hl)⟩)
      · rw [he.2] at h1; cases h1
      · rw [he.2] at h1; cases h1
    · exact h.v6.other (by rw [he.1]; simp) (by simp) (by rw [ht]; decide)
  split at hs
  · rename_i ht
    split at hs
    · cases hs
    rename_i he
    split at hs
    · cases hs
    rename_i hl
    simp only [not_or, Bool.not_eq_true, Option.isSome_eq_false_iff, Option.isNone_iff_eq_none] at he
    cases hs
    refine ⟨reading_age h (noTxt (by rw [ht]; decide) _), ?_, ?_, reading_only h (.inl ⟨true, ht⟩)⟩
    · exact h.v4.other (by rw [he.1]; simp) (by simp) (by rw [ht]; decide)
    · rcases h.v6 with ⟨h1, h2, h3, h4⟩ | ⟨h1, -⟩ | ⟨h1, -⟩
      · exact .inr (.inl ⟨rfl, rfl, noAddr_open h3 ht (Classical.not_not.1 hl)⟩)
      · rw [he.2] at h1; cases h1
      · rw [he.2] at h1; cases h1
  split at hs
  · rename_i ht
    obtain ⟨⟨k, w⟩, hkv, hs⟩ := bind_eq_ok.1 hs
    dsimp only at hs
    split at hs
    · rename_i hk
      subst hk
      have hage := (txt_age z w).1 hkv
      have hport : ∀ w, ¬ Txt (b "port") z w := by
        intro w' hw'
        have := (txt_port z w').2 hw'
        rw [hkv] at this
        have e : ([97, 103, 101] : Bytes) = [112, 111, 114, 116] := congrArg Prod.fst (Out.ok.inj this)
        exact absurd e (by decide)
      split at hs
      · cases hs
      rename_i hsa
      split at hs
      · cases hs
      rename_i a ha
      cases hs
      refine ⟨?_, h.v4.snoc ht hport, h.v6.snoc ht hport, reading_only h (.inr (.inl ⟨w, hage⟩))⟩
      have hno := h.age
      rw [if_neg hsa] at hno
      exact ⟨l, z, [], w, rfl, hage, ha, by rw [List.append_nil]; exact hno⟩
    split at hs
    · rename_i hk' hk
      subst hk
      have hport := (txt_port z w).1 hkv
      have hage : ∀ w, ¬ Txt (b "age") z w := by
        intro w' hw'
        have := (txt_age z w').2 hw'
        rw [hkv] at this
        have e : ([112, 111, 114, 116] : Bytes) = [97, 103, 101] := congrArg Prod.fst (Out.ok.inj this)
        exact absurd e (by decide)
      split at hs
      · cases hs
      rename_i f hex
      split at hs
      · cases hs
      rename_i p hp
      cases hs
      have hty : ∀ f, z.type ≠ addrType f := fun f => (by rw [ht]; cases f <;> decide)
      cases f
      · refine ⟨reading_age h hage, ?_, ?_, reading_only h (.inr (.inr ⟨w, hport⟩))⟩
        · rcases h.v4 with ⟨-, h2, -⟩ | ⟨h1, h2, h3⟩ | ⟨-, h2, -⟩
          · exact absurd hex h2
          · exact .inr (.inr ⟨h1, fun e => (by cases e), openAddr_close h3 hport hp⟩)
          · exact absurd hex h2
        · exact h.v6.other (by rw [hex]; simp) (by simp) (hty _)
      · refine ⟨reading_age h hage, ?_, ?_, reading_only h (.inr (.inr ⟨w, hport⟩))⟩
        · exact h.v4.other (by rw [hex]; simp) (by simp) (hty _)
        · rcases h.v6 with ⟨-, h2, -⟩ | ⟨h1, h2, h3⟩ | ⟨-, h2, -⟩
          · exact absurd hex h2
          · exact .inr (.inr ⟨h1, fun e => (by cases e), openAddr_close h3 hport hp⟩)
          · exact absurd hex h2
    · cases hs
  · cases hs

theorem reading_all {l0 l : List Record} {s s' : Acc} (h : Reading l0 s) (hs : accRecords s l = .ok s') : Reading (l0 ++ l) s' := by
  induction l generalizing s l0 with
  | nil => cases hs; rw [List.append_nil]; exact h
  | cons x l ih =>
    obtain ⟨s1, h1, h2⟩ := bind_eq_ok.1 (show (accRecord s x >>= fun s => accRecords s l) = _ from hs)
    have := ih (reading_step h h1) h2
    rw [List.append_assoc] at this
    exact this

theorem resultOf_says {l : List Record} {r : Result} (h : resultOf l = .ok r) : Says l r := by
  unfold resultOf at h
  obtain ⟨s, hs, h⟩ := bind_eq_ok.1 h
  split at h
  · cases h
  rename_i hc
  simp only [not_or, Bool.not_eq_true', Bool.not_eq_false, Bool.not_eq_true, Option.isSome_eq_false_iff, Option.isNone_iff_eq_none,
    Bool.or_eq_true] at hc
  obtain ⟨c1, c2, c3⟩ := hc
  cases h
  have hr : Reading ([] ++ l) s := reading_all (l0 := []) (s := {}) ⟨(by rw [if_neg (by decide)]; intro _ h; cases h), .inl ⟨rfl, (by simp), (fun _ h => by cases h), rfl⟩,
    .inl ⟨rfl, (by simp), (fun _ h => by cases h), rfl⟩, (fun _ h => by cases h)⟩ hs
  rw [List.nil_append] at hr
  have fam : ∀ f seen a, Fam f l seen s.expect a → (NoAddr f l ∧ a = {} ∨ OneAddr f l a) ∧ (seen = true → ¬ NoAddr f l) := by
    rintro f seen a (⟨h1, -, h3, h4⟩ | ⟨-, h2, -⟩ | ⟨-, -, h3⟩)
    · exact ⟨.inl ⟨h3, h4⟩, fun e => (by rw [h1] at e; cases e)⟩
    · rw [c3] at h2; cases h2
    · refine ⟨.inr h3, fun _ hn => ?_⟩
      obtain ⟨pre, x, mid, y, post, v, e, hx, -⟩ := h3
      exact hn x (by rw [e]; simp) hx
  have ha := hr.age
  rw [if_pos c1] at ha
  refine ⟨ha, fun hn => ?_, (fam _ _ _ hr.v4).1, (fam _ _ _ hr.v6).1, hr.only⟩
  rcases c2 with c2 | c2
  · exact (fam _ _ _ hr.v4).2 c2 hn.1
  · exact (fam _ _ _ hr.v6).2 c2 hn.2

end Verif.Mslookup.Mdns

namespace Verif.Mslookup.Props
open Verif Verif.Db Verif.Sys Verif.Mslookup Mdns Mdns.Spec

/-- C47: an answer is accepted only if its records give the age once, and for one or both address
families one address with a port, and nothing else; and the result has these values. -/
theorem c47_says {d suffix : Bytes} {id : Nat} {q : Query} {r : Result} (h : resultDecode d suffix = .ok (id, q, r)) :
    ∃ dom l, answerDecode d = .ok (id, some dom, l) ∧ Says l r := by
  unfold resultDecode at h
  obtain ⟨⟨i, dom, l⟩, ha, h⟩ := bind_eq_ok.1 h
  dsimp only at h
  cases dom with
  | none => cases h
  | some dom' =>
  obtain ⟨q', -, h⟩ := bind_eq_ok.1 h
  obtain ⟨r', hr, h⟩ := bind_eq_ok.1 h
  cases h
  exact ⟨dom', l, ha, resultOf_says hr⟩

/-- C47: a query, or the name of an answer, is accepted only if it is the text of a service and an
id, a dot, and the suffix. -/
theorem c47_suffix {dom suffix : Bytes} {q : Query} (h : queryOf dom suffix = .ok q) :
    ∃ t, t ≠ [] ∧ dom = t ++ 46 :: suffix ∧ parseDomain t = .ok q := by
  unfold queryOf at h
  dsimp only at h
  split at h
  · cases h
  rename_i hn
  split at h
  · cases h
  rename_i hd
  split at h
  · rename_i q' hp
    cases h
    obtain ⟨n, hn'⟩ : ∃ n : Nat, (dom.length : Int) - suffix.length - 1 = n := ⟨((dom.length : Int) - suffix.length - 1).toNat, by omega⟩
    rw [hn'] at hp hd hn
    have h0 : (n : Int).toNat = n := rfl
    rw [h0] at hp hd
    refine ⟨dom.take n, ?_, ?_, hp⟩
    · intro e
      have := congrArg List.length e
      rw [List.length_take, List.length_nil] at this
      omega
    · simp only [not_or, Classical.not_not, ne_eq] at hd
      have : dom.drop n = 46 :: suffix := by
        cases hx : dom.drop n with
        | nil => rw [hx] at hd; cases hd.1
        | cons c t =>
          have h2 := hd.2
          rw [← List.drop_drop, hx] at h2
          rw [hx] at hd
          cases hd.1
          exact congrArg _ h2
      rw [← this, List.take_append_drop]
  · cases h

/-- An accepted answer. -/
def exAnswer : Bytes :=
  exHeader 3 ++ recordEncode (b "sip.voice.1001.msisdn.mdns.osmocom.org") ⟨1, [10, 9, 8, 7]⟩
    ++ recordEncode (b "sip.voice.1001.msisdn.mdns.osmocom.org") ⟨16, 7 :: b "port=80"⟩
    ++ recordEncode (b "sip.voice.1001.msisdn.mdns.osmocom.org") ⟨16, 5 :: b "age=9"⟩
example : resultDecode exAnswer defaultSuffix = .ok (7, exQuery, { rc := .result, v4 := ⟨false, 168364039, 80⟩, age := 9 }) := by
  decide +kernel
/-- Without the age, without the port, or with the address twice it is refused. -/
example : let n := b "sip.voice.1001.msisdn.mdns.osmocom.org"
    let a := recordEncode n ⟨1, [10, 9, 8, 7]⟩
    let p := recordEncode n ⟨16, 7 :: b "port=80"⟩
    let g := recordEncode n ⟨16, 5 :: b "age=9"⟩
    resultDecode (exHeader 2 ++ a ++ p) defaultSuffix = .error ∧ resultDecode (exHeader 2 ++ g ++ a) defaultSuffix = .error
      ∧ resultDecode (exHeader 5 ++ a ++ p ++ a ++ p ++ g) defaultSuffix = .error := by decide +kernel

/-- C51: whatever happened before, the packet sent for a lookup asks for exactly what is looked
up. -/
theorem c51_asked {suffix : Bytes} {first : Nat} (hf : first < 65536) (ops : List MOp) {q : Query} (hs : Sendable q suffix) (h : Nat)
    {d : Bytes} (hd : ((Method.run suffix first ops).request q h).1 = .ok d) : ∃ id, queryDecode d suffix = .ok (id, q) := by
  have key : ∀ (ops : List MOp) (m : Method), m.next < 65536 → m.suffix = suffix →
      (ops.foldl Method.step m).next < 65536 ∧ (ops.foldl Method.step m).suffix = suffix := by
    intro ops
    induction ops with
    | nil => exact fun m h1 h2 => ⟨h1, h2⟩
    | cons o ops ih =>
      intro m h1 h2
      refine ih _ ?_ ?_
      · cases o with
        | request q h => exact Nat.mod_lt _ (by decide)
        | cleanup h => exact h1
        | recv d => exact h1
      · cases o <;> exact h2
  obtain ⟨h1, h2⟩ := key ops { suffix := suffix, next := first } hf rfl
  unfold Method.request at hd
  dsimp only at hd
  refine ⟨_, c46_query_partial h1 hs ?_⟩
  rw [show (Method.run suffix first ops).suffix = suffix from h2] at hd
  exact hd

example : ∃ d, ((Method.run defaultSuffix 65535 [.request exQuery 1]).request exQuery 2).1 = .ok d
    ∧ queryDecode d defaultSuffix = .ok (0, exQuery) := ⟨_, rfl, by decide +kernel⟩

end Verif.Mslookup.Props
