import Verif.Gsup.Msg
/-!
# Property theorems C21 (correlation of responses) and C25 (peer names)
-/
namespace Verif.Gsup.Props
open Verif Verif.Gsup

/-! ## C25 -/

/-- C25: the comparison is 0 exactly for equal names. -/
theorem c25_cmp_eq {a b : IpaName} (ha : a.WF) (hb : b.WF) : ipaCmp a b = 0 ↔ a.name = b.name := by
  rw [ipaCmp_eq ha hb, lexCmp_eq_zero]

/-- C25: the comparison is a total order: swapping the arguments swaps the sign, and "not
greater" is transitive. -/
theorem c25_cmp_order {a b c : IpaName} (ha : a.WF) (hb : b.WF) (hc : c.WF) :
    ipaCmp a b = - ipaCmp b a ∧ (ipaCmp a b ≤ 0 → ipaCmp b c ≤ 0 → ipaCmp a c ≤ 0) := by
  rw [ipaCmp_eq ha hb, ipaCmp_eq hb ha, ipaCmp_eq hb hc, ipaCmp_eq ha hc]
  exact ⟨lexCmp_antisymm _ _, lexCmp_trans _ _ _⟩

/-- C25: what is written is what is read, and names that do not fit are refused without
touching the old one. -/
theorem c25_set_get (n : IpaName) (v : Bytes) :
    (v.length ≤ 128 → (ipaSet n v).1 = 0 ∧ (ipaSet n v).2.name = v)
    ∧ (128 < v.length → (ipaSet n v).1 < 0 ∧ (ipaSet n v).2 = n) := by
  unfold ipaSet
  constructor
  · intro h
    split
    · rename_i he
      cases v with
      | nil => exact ⟨rfl, rfl⟩
      | cons x l => simp at he
    · rw [if_neg (by omega)]
      refine ⟨rfl, ?_⟩
      simp [IpaName.name]
  · intro h
    rw [if_neg (by cases v with | nil => simp at h | cons => simp), if_pos (by omega)]
    exact ⟨by simp, rfl⟩

/-- C25: a name set from a formatted string of up to 127 characters is that string with its
terminating NUL; longer ones are cut to 127 characters. -/
theorem c25_set_str (n : IpaName) (v : Bytes) : (ipaSetStr n v).2.name = v.take 127 ++ [0] := by
  unfold ipaSetStr
  simp only [IpaName.name]
  rw [List.take_append_of_le_length (by simp), List.take_of_length_le (by simp)]

/-- C25: setting a name from a string succeeds, and whoever reads the buffer as a string gets
that string back, as far as it fits, whatever was there before. -/
theorem c25_str_roundtrip (n : IpaName) {v : Bytes} (h0 : (0 : UInt8) ∉ v) :
    (ipaSetStr n v).1 = 0 ∧ (ipaSetStr n v).2.cstr = some (v.take 127) := by
  refine ⟨rfl, ?_⟩
  have h1 : ∀ x ∈ v.take 127, (x != 0) = true := by
    intro x hx
    have : x ≠ 0 := fun e => h0 (e ▸ List.mem_of_mem_take hx)
    simpa using this
  unfold ipaSetStr IpaName.cstr
  dsimp only
  rw [if_pos (by simp), List.append_assoc, List.takeWhile_append_of_pos h1]
  simp

theorem before_nul (l : Bytes) (h : (0 : UInt8) ∈ l) :
    (0 : UInt8) ∉ l.takeWhile (· != 0) ∧ ∃ r, l = l.takeWhile (· != 0) ++ 0 :: r := by
  induction l with
  | nil => cases h
  | cons x l ih =>
    by_cases hx : x = 0
    · subst hx
      exact ⟨by simp, l, by simp⟩
    · have hm : (0 : UInt8) ∈ l := by
        rcases List.mem_cons.1 h with e | e
        · exact absurd e.symm hx
        · exact e
      obtain ⟨h1, r, h2⟩ := ih hm
      have hb : (x != 0) = true := by simpa using hx
      rw [List.takeWhile_cons, if_pos hb]
      refine ⟨fun hc => ?_, r, by rw [List.cons_append, ← h2]⟩
      rcases List.mem_cons.1 hc with e | e
      · exact hx e.symm
      · exact h1 e

/-- C25: read as a string, a buffer gives the bytes before its first NUL; without any NUL
there is no such string (the reader runs beyond the buffer). -/
theorem c25_cstr (n : IpaName) (v : Bytes) :
    n.cstr = some v ↔ (0 : UInt8) ∉ v ∧ ∃ r, n.val = v ++ 0 :: r := by
  unfold IpaName.cstr
  constructor
  · intro h
    split at h
    · rename_i hc
      injection h with h
      subst h
      exact before_nul n.val (by simpa using hc)
    · cases h
  · rintro ⟨h0, r, hr⟩
    have h1 : ∀ x ∈ v, (x != 0) = true := by
      intro x hx
      have : x ≠ 0 := fun e => h0 (e ▸ hx)
      simpa using this
    rw [hr, if_pos (by simp), List.takeWhile_append_of_pos h1]
    simp

/-- C25: an id is empty exactly if it carries no byte of a name. -/
theorem c25_is_empty (p : PeerId) :
    p.isEmpty = true ↔ p = .empty ∨ ∃ n : IpaName, p = .ipa n ∧ n.len = 0 := by
  cases p with
  | empty => simp [PeerId.isEmpty]
  | ipa n => simp [PeerId.isEmpty, IpaName.isEmpty]

/-- C25: ids that carry a name compare as their names do. -/
theorem c25_peer_id {a b : IpaName} (ha : a.WF) (hb : b.WF) :
    peerCmp (.ipa a) (.ipa b) = 0 ↔ a.name = b.name := c25_cmp_eq ha hb

/-- Not so for ids without a name: two of them are never equal, and each is less than the
other (only their addresses could make them equal). -/
theorem c25_empty_ids_violated : peerCmp .empty .empty < 0 := by decide

/-- Names are those the program can make. -/
example : ({} : IpaName).WF ∧ (ipaSet {} (b "MSC-1")).2.WF
    ∧ ipaCmp (ipaSet {} (b "MSC-1")).2 (ipaSet (ipaSet {} (b "SGSN-12")).2 (b "MSC-1")).2 = 0
    ∧ ipaCmp (ipaSet {} (b "MSC-1")).2 (ipaSet {} (b "MSC-11")).2 < 0
    ∧ ipaCmp (ipaSet {} (b "MSC-2")).2 (ipaSet {} (b "MSC-11")).2 > 0 :=
  ⟨⟨by simp, by simp⟩, ipaSet_wf ⟨by simp, by simp⟩ _, by decide +kernel, by decide +kernel,
   by decide +kernel⟩
example : (ipaSetStr (ipaSet {} (b "SGSN-12345")).2 (b "MSC-1")).2.cstr = some (b "MSC-1")
    ∧ (ipaSet {} (List.replicate 128 65)).2.cstr = none := by decide +kernel

/-! ## C21 -/

/-- C21: a response that is sent carries the request's identification. -/
theorem c21_correlated (reply rx : Msg) (error final : Bool)
    (h : (makeResponse reply rx error final).1 = 0) :
    let m := (makeResponse reply rx error final).2
    m.imsi = rx.imsi ∧ m.cls = rx.cls ∧ m.sessId = rx.sessId
      ∧ (rx.smRpMr.isSome → m.smRpMr = rx.smRpMr) := by
  intro m
  have h : responseRc m rx = 0 := h
  unfold responseRc at h
  refine ⟨?_, ?_, ?_, ?_⟩
  · by_cases c : m.imsi = rx.imsi
    · exact c
    · rw [if_pos c] at h; omega
  · by_cases c : m.cls = rx.cls
    · exact c
    · rw [if_pos (c := _ ≠ rx.cls) c] at h; omega
  · by_cases c : m.sessId = rx.sessId
    · exact c
    · rw [if_pos (c := _ ≠ rx.sessId) c] at h; omega
  · intro hs
    by_cases c : m.smRpMr = rx.smRpMr
    · exact c
    · rw [if_pos (c := _ ∧ _) ⟨hs, c⟩] at h; omega

/-- `reply` sets a field to a value other than the request's. -/
def Contradicts (reply rx : Msg) : Prop :=
  (reply.imsi ≠ [] ∧ reply.imsi ≠ rx.imsi) ∨ (reply.cls ≠ 0 ∧ reply.cls ≠ rx.cls)
  ∨ (reply.sessId ≠ 0 ∧ reply.sessId ≠ rx.sessId)
  ∨ (rx.smRpMr.isSome ∧ reply.smRpMr.isSome ∧ reply.smRpMr ≠ rx.smRpMr)

/-- C21: exactly the contradicting responses are refused. -/
theorem c21_refused_iff (reply rx : Msg) (error final : Bool) :
    (makeResponse reply rx error final).1 ≠ 0 ↔ Contradicts reply rx := by
  have e1 : (fillResponse reply rx error final).imsi ≠ rx.imsi ↔ (reply.imsi ≠ [] ∧ reply.imsi ≠ rx.imsi) := by
    simp only [fillResponse]
    cases hi : reply.imsi <;> simp
  have e2 : (fillResponse reply rx error final).cls ≠ rx.cls ↔ (reply.cls ≠ 0 ∧ reply.cls ≠ rx.cls) := by
    simp only [fillResponse]
    by_cases hi : reply.cls = 0 <;> simp [hi]
  have e3 : (fillResponse reply rx error final).sessId ≠ rx.sessId
      ↔ (reply.sessId ≠ 0 ∧ reply.sessId ≠ rx.sessId) := by
    simp only [fillResponse]
    by_cases hi : reply.sessId = 0 <;> simp [hi]
  have e4 : (fillResponse reply rx error final).smRpMr ≠ rx.smRpMr
      ↔ (reply.smRpMr.isSome ∧ reply.smRpMr ≠ rx.smRpMr) := by
    simp only [fillResponse]
    cases hi : reply.smRpMr <;> simp
  unfold Contradicts
  rw [← e1, ← e2, ← e3, ← e4]
  show responseRc (fillResponse reply rx error final) rx ≠ 0 ↔ _
  unfold responseRc
  constructor
  · intro h
    by_cases c1 : (fillResponse reply rx error final).imsi ≠ rx.imsi
    · exact .inl c1
    · by_cases c2 : (fillResponse reply rx error final).cls ≠ rx.cls
      · exact .inr (.inl c2)
      · by_cases c3 : (fillResponse reply rx error final).sessId ≠ rx.sessId
        · exact .inr (.inr (.inl c3))
        · by_cases c4 : rx.smRpMr.isSome ∧ (fillResponse reply rx error final).smRpMr ≠ rx.smRpMr
          · exact .inr (.inr (.inr c4))
          · rw [if_neg c1, if_neg c2, if_neg c3, if_neg c4] at h
            exact absurd rfl h
  · rintro (h | h | h | h)
    · rw [if_pos h]; omega
    · rw [if_pos (c := _ ≠ rx.cls) h]; omega
    · rw [if_pos (c := _ ≠ rx.sessId) h]; omega
    · rw [if_pos (c := _ ∧ _) h]; omega

/-- C21: type, addressee and session state of a response, and that nothing else of it is
changed. -/
theorem c21_filled (reply rx : Msg) (error final : Bool) :
    let m := (makeResponse reply rx error final).2
    (reply.typ = 0 → m.typ / 4 = rx.typ / 4 ∧ m.typ % 4 = if error then 1 else 2)
    ∧ (reply.typ ≠ 0 → m.typ = reply.typ)
    ∧ (reply.dst = [] → m.dst = rx.src)
    ∧ (reply.sessState = .none →
        (m.sessState = .none ↔ rx.sessState = .none)
        ∧ (rx.sessState ≠ .none → (m.sessState = .end_ ↔ final = true ∨ rx.sessState = .end_))
        ∧ m.sessState ≠ .begin)
    ∧ m = { reply with typ := m.typ, imsi := m.imsi, cls := m.cls, dst := m.dst, smRpMr := m.smRpMr,
                       sessId := m.sessId, sessState := m.sessState } := by
  intro m
  refine ⟨?_, ?_, ?_, ?_, rfl⟩
  · intro h
    have e : m.typ = if error then toError rx.typ else toResult rx.typ := by
      show (if reply.typ = 0 then _ else _) = _
      rw [if_pos h]
    rw [e]
    cases error <;> simp [toError, toResult] <;> omega
  · intro h
    show (if reply.typ = 0 then _ else _) = _
    rw [if_neg h]
  · intro h
    show (if reply.dst.isEmpty then _ else _) = _
    rw [h]; rfl
  · intro h
    have e : m.sessState = if rx.sessState ≠ .none ∧ reply.sessState = .none then
        (if final ∨ rx.sessState = .end_ then .end_ else .continue_) else reply.sessState := rfl
    rw [e, h]
    by_cases h1 : rx.sessState = .none
    · simp [h1]
    · by_cases h2 : final = true ∨ rx.sessState = .end_
      · simp [h1, h2]
      · simp [h1, h2]

def exRx : Msg where
  typ := UPDATE_LOCATION
  imsi := b "262420000000001"
  src := b "MSC-1"
  sessId := 7
  sessState := .begin
  smRpMr := some 3
  cls := 2

def exTx : Msg where
  typ := UPDATE_LOCATION + 1
  imsi := b "262420000000001"
  dst := b "MSC-1"
  sessId := 7
  sessState := .end_
  smRpMr := some 3
  cls := 2
  cause := some .netFail

/-- A response that is sent and one that is not. -/
example : makeResponse { cause := some .netFail } exRx true true = (0, exTx)
    ∧ (makeResponse { sessId := 8 } exRx false true).1 ≠ 0 := by decide +kernel

end Verif.Gsup.Props
