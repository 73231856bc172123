import Verif.Mslookup.MdnsLemmas
import Verif.Mslookup.ClientSpec
/-!
# C46, C47: mDNS messages
-/
namespace Verif.Mslookup.Mdns.Spec
open Verif Verif.Mslookup

/-- A query that can be sent: valid, and both its service and the suffix are made of labels. -/
structure Sendable (q : Query) (suffix : Bytes) : Prop where
  valid : Mslookup.Spec.Valid q
  service : Name q.service
  suffix : Name suffix

/-- A result that can be sent: an IPv4 address with port, an IPv6 address with port, or both, of
the right sizes. `{}` stands for an address that is not set. -/
structure Answer (r : Result) : Prop where
  age : r.age < 2 ^ 32
  v4 : r.v4.v6 = false ∧ r.v4.ip < 2 ^ 32 ∧ r.v4.port < 65536
  v6 : (r.v6 = {} ∨ r.v6.v6 = true) ∧ r.v6.ip < 2 ^ 128 ∧ r.v6.port < 65536
  some : r.v4 ≠ {} ∨ r.v6 ≠ {}

/-- A resource record as it comes over the network: name, type with class and time to live, and
data. -/
structure Rec where
  name : Bytes
  fixed : Bytes
  data : Bytes

def Rec.bytes (r : Rec) : Bytes := r.name ++ 0 :: (r.fixed ++ be16 r.data.length ++ r.data)

/-- A complete record with a name and data. -/
structure Complete (r : Rec) : Prop where
  name : r.name ≠ [] ∧ (0 : UInt8) ∉ r.name
  fixed : r.fixed.length = 8
  data : r.data ≠ [] ∧ r.data.length < 65536

end Verif.Mslookup.Mdns.Spec

namespace Verif.Mslookup.Mdns
open Verif Verif.Mslookup Spec

/-! ## Domains -/

theorem typeName_label (x : Id) : Label (typeName x) ∧ (typeName x).length ≤ 6 := by
  cases x <;> exact ⟨⟨by simp [typeName], by simp [typeName], by simp [typeName]⟩, by simp [typeName]⟩

theorem idText_label {q : Query} (h : Mslookup.Spec.Valid q) : Label (idText q.id) ∧ (idText q.id).length ≤ 15 := by
  have hlen : 1 ≤ (idText q.id).length ∧ (idText q.id).length ≤ 15 := by
    have := h.id
    cases hq : q.id with
    | none => rw [hq] at this; exact absurd this id
    | imsi v => rw [hq] at this; dsimp only at this; exact ⟨by show 1 ≤ v.length; omega, this.2⟩
    | msisdn v => rw [hq] at this; exact this
  refine ⟨⟨⟨hlen.1, by omega⟩, fun e => ?_, fun e => ?_⟩, hlen.2⟩
  · exact absurd (h.digits _ e).1 (by decide)
  · exact absurd (h.digits _ e).1 (by decide)

/-- The domain of a query is a name. -/
theorem domainOf_name {q : Query} {suffix : Bytes} (h : Sendable q suffix) :
    ∃ ls, ls ≠ [] ∧ (∀ l ∈ ls, Label l) ∧ domainStr q ++ 46 :: suffix = dotted ls ∧ domainOf q suffix = some (dotted ls) := by
  obtain ⟨s1, n1, l1, e1⟩ := h.service
  obtain ⟨s2, n2, l2, e2⟩ := h.suffix
  have hd : domainStr q ++ 46 :: suffix = dotted (s1 ++ ([idText q.id, typeName q.id] ++ s2)) := by
    rw [dotted_append n1 (by simp), dotted_append (by simp) n2, ← e1, ← e2]
    show _ = q.service ++ 46 :: (idText q.id ++ 46 :: typeName q.id ++ 46 :: suffix)
    unfold domainStr idName
    simp
  refine ⟨s1 ++ ([idText q.id, typeName q.id] ++ s2), by simp, ?_, hd, ?_⟩
  · intro l hl
    rcases List.mem_append.1 hl with hl | hl
    · exact l1 l hl
    rcases List.mem_append.1 hl with hl | hl
    · rcases List.mem_cons.1 hl with rfl | hl
      · exact (idText_label h.valid).1
      · rw [List.mem_singleton.1 hl]
        exact (typeName_label _).1
    · exact l2 l hl
  · have := h.valid.id
    unfold domainOf
    rw [← hd]
    cases hq : q.id with
    | none => rw [hq] at this; exact absurd this id
    | imsi v => rfl
    | msisdn v => rfl

theorem domainStr_length {q : Query} (h : Mslookup.Spec.Valid q) : 0 < (domainStr q).length ∧ (domainStr q).length ≤ 87 := by
  have h1 := h.service
  have h2 := (idText_label h).2
  have h3 := (typeName_label q.id).2
  unfold domainStr idName
  rw [List.length_append, List.length_cons, List.length_append, List.length_cons]
  omega

theorem queryOf_roundtrip {q : Query} (suffix : Bytes) (h : Mslookup.Spec.Valid q) :
    queryOf (domainStr q ++ 46 :: suffix) suffix = .ok q := by
  obtain ⟨h1, h2⟩ := domainStr_length h
  unfold queryOf
  have hn : ((domainStr q ++ 46 :: suffix).length : Int) - suffix.length - 1 = (domainStr q).length := by
    rw [List.length_append, List.length_cons]; omega
  dsimp only
  rw [hn, if_neg (by omega)]
  have ht : ((domainStr q).length : Int).toNat = (domainStr q).length := by omega
  rw [ht]
  have hd : (domainStr q ++ 46 :: suffix).drop (domainStr q).length = 46 :: suffix := List.drop_left
  have hd' : (domainStr q ++ 46 :: suffix).drop ((domainStr q).length + 1) = suffix := by
    rw [← List.drop_drop, hd]; rfl
  rw [hd, hd', if_neg (by simp), List.take_left, Props.c45_roundtrip q h]

/-! ## The records of a result -/

theorem accRecords_append (s : Acc) (l l' : List Record) : accRecords s (l ++ l') = (accRecords s l >>= fun s => accRecords s l') := by
  induction l generalizing s with
  | nil => rfl
  | cons r l ih =>
    show (accRecord s r >>= fun s => accRecords s (l ++ l')) = ((accRecord s r >>= fun s => accRecords s l) >>= _)
    cases accRecord s r with
    | ok s' => exact ih s'
    | error => rfl
    | crash => rfl

theorem acc_txt {s : Acc} {r : Record} (ht : r.type = 16) {k v : Bytes} (hd : txtDecode r = .ok (k, v)) :
    accRecord s r = (if k = [97, 103, 101] then
      if s.age then .error
      else match decodeU32 v with
        | none => .error
        | some a => .ok { s with age := true, result := { s.result with age := a } }
    else if k = [112, 111, 114, 116] then
      match s.expect with
      | none => .error
      | some v6 => match decodePort v with
        | none => .error
        | some p => .ok { s with
            expect := none
            result := if v6 then { s.result with v6 := { s.result.v6 with port := p } }
              else { s.result with v4 := { s.result.v4 with port := p } } }
    else .error) := by
  unfold accRecord
  rw [if_neg (by rw [ht]; decide), if_neg (by rw [ht]; decide), if_pos ht, hd]
  rfl

theorem pow4 : 256 ^ 4 = 2 ^ 32 := by decide
theorem pow16 : 256 ^ 16 = 2 ^ 128 := by decide

/-- What the records of one address do. -/
theorem addr_roundtrip {a : Sys.Addr} {v6 : Bool} (hf : a = {} ∨ a.v6 = v6) (hip : a.ip < (if v6 then 2 ^ 128 else 2 ^ 32))
    (hp : a.port < 65536) (s : Acc) (he : s.expect = none)
    (hs : if v6 then s.v6 = false ∧ s.result.v6 = {} else s.v4 = false ∧ s.result.v4 = {}) :
    ∃ l, addrRecords v6 a = .ok l ∧ (∀ r ∈ l, r.type < 256 ∧ r.data.length < 65536 ∧ r.data.length ≤ 16) ∧ l.length ≤ 2
      ∧ accRecords s l = .ok (if v6 then { s with v6 := s.v6 || isSet a, result := { s.result with v6 := a } }
        else { s with v4 := s.v4 || isSet a, result := { s.result with v4 := a } }) := by
  by_cases hset : isSet a = true
  · obtain ⟨p, hp1, hp2, hp3, hp4⟩ := port_roundtrip a.port
    have hne : a ≠ {} := by unfold isSet at hset; simpa using hset
    have hv : a.v6 = v6 := by
      rcases hf with e | e
      · exact absurd e hne
      · exact e
    obtain ⟨x, hx⟩ : ∃ x, x = beBytes (if v6 then 16 else 4) a.ip := ⟨_, rfl⟩
    have hxl : x.length = if v6 then 16 else 4 := by rw [hx, beBytes_length]
    have hxn : beNat x = a.ip := by
      rw [hx]; apply beNat_beBytes
      cases v6
      · rw [if_neg (by simp), pow4]; simpa using hip
      · rw [if_pos rfl, pow16]; simpa using hip
    refine ⟨[{ type := if v6 then 28 else 1, data := x }, p], ?_, ?_, Nat.le_refl _, ?_⟩
    · unfold addrRecords
      rw [hset, if_neg (by simp), if_neg (by rw [hv]; simp), hp1, hx]
    · intro r hr
      rcases List.mem_cons.1 hr with rfl | hr
      · cases v6 <;> simp [hxl]
      · rw [List.mem_singleton.1 hr, hp2]
        exact ⟨by decide, by omega, hp3⟩
    · show (accRecord s _ >>= fun s => (accRecord s p >>= fun s => Out.ok s)) = _
      cases v6
      · obtain ⟨hs1, hs2⟩ : s.v4 = false ∧ s.result.v4 = {} := by simpa using hs
        unfold accRecord
        rw [if_pos (by simp), if_neg (by simp [he, hs1]), if_neg (by simp [hxl]), bind_ok]
        have := acc_txt (s := { s with
            v4 := true, expect := some false
            result := { s.result with v4 := { v6 := false, ip := a.ip, port := 0 } } }) hp2 hp4
        rw [if_neg (by decide), if_pos rfl] at this
        dsimp only at this
        rw [decodePort_dec (by omega)] at this
        dsimp only at this
        unfold accRecord at this
        dsimp only
        rw [hxn, this, bind_ok, hset]
        obtain ⟨⟨rc, r4, r6, ag, la⟩, sa, s4, s6, se⟩ := s
        obtain ⟨b1, b2, b3⟩ := a
        cases hv
        cases he
        simp
      · obtain ⟨hs1, hs2⟩ : s.v6 = false ∧ s.result.v6 = {} := by simpa using hs
        unfold accRecord
        rw [if_neg (by simp), if_pos (by simp), if_neg (by simp [he, hs1]), if_neg (by simp [hxl]), bind_ok]
        have := acc_txt (s := { s with
            v6 := true, expect := some true
            result := { s.result with v6 := { v6 := true, ip := a.ip, port := 0 } } }) hp2 hp4
        rw [if_neg (by decide), if_pos rfl] at this
        dsimp only at this
        rw [decodePort_dec (by omega)] at this
        dsimp only at this
        unfold accRecord at this
        dsimp only
        rw [hxn, this, bind_ok, hset]
        obtain ⟨⟨rc, r4, r6, ag, la⟩, sa, s4, s6, se⟩ := s
        obtain ⟨b1, b2, b3⟩ := a
        cases hv
        cases he
        simp
  · have hset : isSet a = false := by simpa using hset
    have ha : a = {} := by unfold isSet at hset; simpa using hset
    refine ⟨[], ?_, fun r hr => (by cases hr), by simp, ?_⟩
    · unfold addrRecords; rw [hset]; rfl
    · rw [hset, ha]
      show Out.ok s = _
      obtain ⟨⟨rc, r4, r6, ag, la⟩, sa, s4, s6, se⟩ := s
      cases v6
      · obtain ⟨hs1, hs2⟩ : s4 = false ∧ r4 = {} := by simpa using hs
        simp [hs1, hs2]
      · obtain ⟨hs1, hs2⟩ : s6 = false ∧ r6 = {} := by simpa using hs
        simp [hs1, hs2]

theorem isSet_iff {a : Sys.Addr} : isSet a = true ↔ a ≠ {} := by
  unfold isSet; simp

/-- The records of a result are read back as that result. -/
theorem result_records {r : Result} (h : Answer r) :
    ∃ a r4 r6, ageRecord r.age = some a ∧ addrRecords false r.v4 = .ok r4 ∧ addrRecords true r.v6 = .ok r6
      ∧ (∀ x ∈ a :: (r4 ++ r6), x.type < 256 ∧ x.data.length < 65536 ∧ x.data.length ≤ 16) ∧ (a :: (r4 ++ r6)).length ≤ 5
      ∧ resultOf (a :: (r4 ++ r6)) = .ok { rc := .result, v4 := r.v4, v6 := r.v6, age := r.age, last := false } := by
  obtain ⟨a, a1, a2, a3, a4⟩ := age_roundtrip r.age
  have e0 : accRecord {} a = .ok { age := true, result := { age := r.age } } := by
    rw [acc_txt a2 a4, if_pos rfl]
    dsimp only
    rw [decodeU32_dec (by have := h.age; omega)]
    rfl
  obtain ⟨r4, b1, b2, b3, b4⟩ := addr_roundtrip (a := r.v4) (v6 := false) (.inr h.v4.1) h.v4.2.1 h.v4.2.2
    { age := true, result := { age := r.age } } rfl ⟨rfl, rfl⟩
  obtain ⟨r6, c1, c2, c3, c4⟩ := addr_roundtrip (a := r.v6) (v6 := true) h.v6.1 h.v6.2.1 h.v6.2.2
    { age := true, v4 := isSet r.v4, result := { age := r.age, v4 := r.v4 } } rfl ⟨rfl, rfl⟩
  refine ⟨a, r4, r6, a1, b1, c1, ?_, ?_, ?_⟩
  · intro x hx
    rcases List.mem_cons.1 hx with rfl | hx
    · rw [a2]; exact ⟨by decide, by omega, by omega⟩
    rcases List.mem_append.1 hx with hx | hx
    · exact b2 x hx
    · exact c2 x hx
  · rw [List.length_cons, List.length_append]; omega
  · have hacc : accRecords {} (a :: (r4 ++ r6)) 
        = .ok { age := true, v4 := isSet r.v4, v6 := isSet r.v6, result := { age := r.age, v4 := r.v4, v6 := r.v6 } } := by
      show (accRecord {} a >>= fun s => accRecords s (r4 ++ r6)) = _
      rw [e0, bind_ok, accRecords_append, b4, bind_ok]
      simp only [Bool.false_eq_true, if_false, Bool.false_or]
      rw [c4]
      simp
    unfold resultOf
    rw [hacc, bind_ok, if_neg]
    · rfl
    · have : isSet r.v4 = true ∨ isSet r.v6 = true := by
        rcases h.some with e | e
        · exact .inl (isSet_iff.2 e)
        · exact .inr (isSet_iff.2 e)
      rcases this with e | e <;> simp [e]

theorem msgb_ok {x d : Bytes} (h : msgb x = .ok d) : x = d := by
  unfold msgb at h
  split at h
  · cases h
  · exact Out.ok.inj h

end Verif.Mslookup.Mdns

namespace Verif.Mslookup.Props
open Verif Verif.Mslookup Mdns Mdns.Spec

/-- C46: every query whose packet could be made is read back from it as the same query, with the
packet's id.  Partial: services with an empty label ("a..b") are left out, and the suffix must be
short enough for the packet to fit its buffer; see `c46_empty_label_violated` and
`c46_suffix_violated`. -/
theorem c46_query_partial {id : Nat} {q : Query} {suffix d : Bytes} (hid : id < 65536) (h : Sendable q suffix)
    (he : queryEncode id q suffix = .ok d) : queryDecode d suffix = .ok (id, q) := by
  obtain ⟨ls, n, l, e1, e2⟩ := domainOf_name h
  unfold queryEncode at he
  rw [e2] at he
  dsimp only at he
  unfold requestEncode at he
  have hd := msgb_ok he
  subst hd
  unfold queryDecode requestDecode
  rw [header_roundtrip _ _ hid (by show 1 < 65536; decide) (by show 0 < 65536; decide)]
  rw [if_neg (by rw [List.length_append, header_length]; simp)]
  rw [show (12 : Nat) = (headerEncode { id := id, qr := false, qdcount := 1 }).length from rfl, List.drop_left,
    question_roundtrip n l (by decide) (by decide), bind_ok, pure_ok, bind_ok]
  dsimp only
  rw [cstr_nonul (nul_dotted l), ← e1, queryOf_roundtrip suffix h.valid, bind_ok]
  rfl

/-- C46: every result whose packet could be made is read back from it as the same result, for the
same query and with the packet's id.  Partial for the same reasons. -/
theorem c46_result_partial {id : Nat} {q : Query} {r : Result} {suffix d : Bytes} (hid : id < 65536) (h : Sendable q suffix)
    (hr : Answer r) (he : resultEncode id q r suffix = .ok d) :
    resultDecode d suffix = .ok (id, q, { rc := .result, v4 := r.v4, v6 := r.v6, age := r.age, last := false }) := by
  obtain ⟨ls, n, l, e1, e2⟩ := domainOf_name h
  obtain ⟨a, r4, r6, a1, a2, a3, a4, a5, a6⟩ := result_records hr
  unfold resultEncode at he
  rw [e2] at he
  dsimp only at he
  rw [a1] at he
  dsimp only at he
  rw [a2, bind_ok, a3, bind_ok] at he
  unfold answerEncode at he
  have hd := msgb_ok he
  generalize a :: (r4 ++ r6) = rs at *
  subst hd
  have hne : rs ≠ [] := by rintro rfl; unfold resultOf at a6; cases a6
  unfold resultDecode answerDecode
  rw [header_roundtrip _ _ hid (by show 0 < 65536; decide) (by show rs.length < 65536; omega)]
  rw [if_neg (by rw [List.length_append, header_length]; simp)]
  rw [show (12 : Nat) = (headerEncode { id := id, qr := true, ancount := rs.length }).length from rfl, List.drop_left,
    answerRecords_roundtrip n l rs (fun r hr => ⟨(a4 r hr).1, (a4 r hr).2.1⟩) none (.inl rfl) _ (by rw [List.length_append]; omega)]
  rw [bind_ok]
  dsimp only
  rw [if_neg (by simp), pure_ok, bind_ok]
  have : (if rs.isEmpty then none else some (dotted ls)) = some (dotted ls) := by
    cases rs with
    | nil => exact absurd rfl hne
    | cons x l => rfl
  dsimp only
  rw [this]
  dsimp only
  rw [← e1, queryOf_roundtrip suffix h.valid, bind_ok, a6, bind_ok]
  rfl

/-- C46: with a suffix of up to 80 bytes (the default has 16) every packet fits. -/
theorem c46_fits {q : Query} {suffix : Bytes} (id : Nat) (h : Sendable q suffix) (hs : suffix.length ≤ 80) :
    (∃ d, queryEncode id q suffix = .ok d) ∧ ∀ r, Answer r → ∃ d, resultEncode id q r suffix = .ok d := by
  obtain ⟨ls, n, l, e1, e2⟩ := domainOf_name h
  have hlen : (dotted ls).length ≤ 168 := by
    rw [← e1, List.length_append, List.length_cons]
    have := (domainStr_length h.valid).2
    omega
  have hw := wire_length n
  constructor
  · refine ⟨headerEncode { id := id, qr := false, qdcount := 1 } ++ questionEncode (dotted ls) 255 1, ?_⟩
    unfold queryEncode
    rw [e2]
    dsimp only
    unfold requestEncode msgb
    rw [if_neg]
    rw [List.length_append, header_length]
    unfold questionEncode
    rw [labels_dotted n l, List.length_append]
    show ¬ (12 + (_ + 5) > _)
    omega
  · intro r hr
    obtain ⟨a, r4, r6, a1, a2, a3, a4, a5, a6⟩ := result_records hr
    refine ⟨headerEncode { id := id, qr := true, ancount := (a :: (r4 ++ r6)).length }
      ++ (a :: (r4 ++ r6)).flatMap (recordEncode (dotted ls)), ?_⟩
    unfold resultEncode
    rw [e2]
    dsimp only
    rw [a1]
    dsimp only
    rw [a2, bind_ok, a3, bind_ok]
    unfold answerEncode msgb
    rw [if_neg]
    have : ∀ l' : List Record, (∀ x ∈ l', x.data.length ≤ 16) → (l'.flatMap (recordEncode (dotted ls))).length ≤ l'.length * 196 := by
      intro l' hl'
      induction l' with
      | nil => simp
      | cons x l' ih =>
        rw [List.flatMap_cons, List.length_append, List.length_cons, recordEncode_length n l]
        have h1 := ih (fun x hx => hl' x (List.mem_cons_of_mem _ hx))
        have h2 := hl' x List.mem_cons_self
        omega
    have := this _ (fun x hx => (a4 x hx).2.2)
    rw [List.length_append, header_length]
    omega

theorem exSendable : Sendable exQuery defaultSuffix := by
  refine ⟨exQuery_valid, ⟨[b "sip", b "voice"], by simp, ?_, by decide +kernel⟩,
    ⟨[b "mdns", b "osmocom", b "org"], by simp, ?_, by decide +kernel⟩⟩
  · intro l hl
    simp only [List.mem_cons, List.not_mem_nil, or_false] at hl
    rcases hl with rfl | rfl <;> exact ⟨by decide +kernel, by decide +kernel, by decide +kernel⟩
  · intro l hl
    simp only [List.mem_cons, List.not_mem_nil, or_false] at hl
    rcases hl with rfl | rfl | rfl <;> exact ⟨by decide +kernel, by decide +kernel, by decide +kernel⟩

/-- The bytes made, if any. -/
def made {α : Type} : Out α → Option α
  | .ok a => some a
  | _ => none

/-- 10.9.8.7:5060, [2001:db8::1]:5061, seen 4000000000 seconds ago. -/
def exBoth : Result :=
  { rc := .result, v4 := ⟨false, 168364039, 5060⟩, v6 := ⟨true, 0x20010db8000000000000000000000001, 5061⟩, age := 4000000000 }

example : Answer exBoth := ⟨by decide +kernel, by decide +kernel, by decide +kernel, by decide +kernel⟩

example : (made (queryEncode 7 exQuery defaultSuffix)).map List.length = some 56
    ∧ (made (resultEncode 7 exQuery exBoth defaultSuffix)).map List.length = some 317
    ∧ (do resultDecode (← resultEncode 7 exQuery exBoth defaultSuffix) defaultSuffix) = .ok (7, exQuery, exBoth) := by decide +kernel

/-- C46, witness: a service with an empty label is valid for the lookup client, but the packet
made for it is not understood. -/
theorem c46_empty_label_violated : ∃ q, Mslookup.Spec.Valid q ∧ ∃ d, queryEncode 1 q defaultSuffix = .ok d
    ∧ queryDecode d defaultSuffix = .error :=
  ⟨{ service := b "a..b", id := .imsi (b "001010000000001") },
    ⟨by decide +kernel, by decide +kernel, by show 6 ≤ (b "001010000000001").length ∧ _; decide +kernel⟩,
    _, rfl, by decide +kernel⟩

/-- C46, witness: with a long suffix the process aborts while making a packet. -/
theorem c46_suffix_violated : ∃ suffix, queryEncode 1 exQuery suffix = .crash :=
  ⟨List.replicate 1000 97, by decide +kernel⟩

/-! ## C47 -/

/-- C47: whatever bytes are read as a query, nothing is read or written out of bounds, and if
they are not refused the query is valid. -/
theorem c47_query (d suffix : Bytes) :
    queryDecode d suffix ≠ .crash ∧ ∀ id q, queryDecode d suffix = .ok (id, q) → Mslookup.Spec.Valid q ∧ id < 65536 := by
  have hq : ∀ dom, queryOf dom suffix ≠ .crash ∧ ∀ q, queryOf dom suffix = .ok q → Mslookup.Spec.Valid q := by
    intro dom
    unfold queryOf
    dsimp only
    split
    · exact ⟨fun h => (by cases h), fun _ h => (by cases h)⟩
    split
    · exact ⟨fun h => (by cases h), fun _ h => (by cases h)⟩
    · cases hp : parseDomain _ with
      | ok q => exact ⟨fun h => (by cases h), fun q' h => (by cases h; exact (c45_exact hp).1)⟩
      | error e => exact ⟨fun h => (by cases h), fun _ h => (by cases h)⟩
  constructor
  · unfold queryDecode
    refine bind_ne_crash ?_ ?_
    · unfold requestDecode
      split
      · intro h; cases h
      refine bind_ne_crash ?_ (fun _ _ h => by cases h)
      unfold questionDecode
      split
      · intro h; cases h
      refine bind_ne_crash (apnToStr_safe ?_) (fun _ _ h => by cases h)
      rename_i h
      intro e
      have := congrArg List.length e
      rw [List.length_take, List.length_nil] at this
      omega
    · intro r _
      exact bind_ne_crash (hq _).1 (fun _ _ h => by cases h)
  · intro id q h
    unfold queryDecode at h
    obtain ⟨r, hr, h⟩ := bind_eq_ok.1 h
    obtain ⟨q', hq', h⟩ := bind_eq_ok.1 h
    cases h
    refine ⟨(hq _).2 _ hq', ?_⟩
    unfold requestDecode at hr
    split at hr
    · cases hr
    obtain ⟨x, -, hr⟩ := bind_eq_ok.1 hr
    cases hr
    have := beNat_lt (d.take 2)
    have hl : (d.take 2).length ≤ 2 := by rw [List.length_take]; omega
    have : beNat (d.take 2) < 256 ^ 2 := Nat.lt_of_lt_of_le this (Nat.pow_le_pow_right (by decide) hl)
    exact this

example : queryDecode [0, 7] defaultSuffix = .error ∧ queryDecode (List.replicate 40 255) defaultSuffix = .error
    ∧ (do queryDecode (← queryEncode 7 exQuery defaultSuffix) defaultSuffix) = .ok (7, exQuery) := by decide +kernel

theorem decodeU32_le {s : Bytes} {n : Nat} (h : decodeU32 s = some n) : n ≤ 4294967295 := by
  have key : ∀ t : Bytes, (unsignedVal t).bind (fun v => if v > 4294967295 then none else some v) = some n → n ≤ 4294967295 := by
    intro t h
    cases ht : unsignedVal t with
    | none => rw [ht] at h; cases h
    | some v =>
      rw [ht] at h
      replace h : (if v > 4294967295 then none else some v) = some n := h
      split at h
      · cases h
      · cases h; omega
  unfold decodeU32 at h
  split at h
  · cases h; omega
  split at h
  · split at h
    · cases h; omega
    · cases h
  · exact key _ h
  · exact key _ h

theorem decodePort_le {s : Bytes} {n : Nat} (h : decodePort s = some n) : n ≤ 65535 := by
  unfold decodePort at h
  cases ht : decodeU32 s with
  | none => rw [ht] at h; cases h
  | some v =>
    rw [ht] at h
    replace h : (if v > 65535 then none else some v) = some n := h
    split at h
    · cases h
    · cases h; omega

/-- What is true of a result while its records are read. -/
structure Acc.Ok (s : Acc) : Prop where
  age : s.result.age < 2 ^ 32
  v4 : s.result.v4.v6 = false ∧ s.result.v4.ip < 2 ^ 32 ∧ s.result.v4.port < 65536
  v6 : (s.result.v6 = {} ∨ s.result.v6.v6 = true) ∧ s.result.v6.ip < 2 ^ 128 ∧ s.result.v6.port < 65536
  n4 : s.v4 = false → s.result.v4 = {}
  n6 : s.v6 = false → s.result.v6 = {}
  i6 : s.v6 = true → s.result.v6.v6 = true
  ex : ∀ v, s.expect = some v → (if v then s.v6 else s.v4) = true
  last : s.result.last = false

theorem accRecord_ok {s s' : Acc} (hs : Acc.Ok s) {r : Record} (h : accRecord s r = .ok s') : Acc.Ok s' := by
  have hb : ∀ k, r.data.length = k → beNat r.data < 256 ^ k := fun k e => e ▸ beNat_lt _
  unfold accRecord at h
  split at h
  · split at h
    · cases h
    split at h
    · cases h
    rename_i hl
    have hl : r.data.length = 4 := by omega
    cases h
    exact ⟨hs.age, ⟨rfl, by have := hb 4 hl; rw [pow4] at this; exact this, by show 0 < 65536; decide⟩, hs.v6, fun e => (by cases e), hs.n6, hs.i6,
      fun v e => (by cases e; rfl), hs.last⟩
  split at h
  · split at h
    · cases h
    split at h
    · cases h
    rename_i hl
    have hl : r.data.length = 16 := by omega
    cases h
    exact ⟨hs.age, hs.v4, ⟨.inr rfl, by have := hb 16 hl; rw [pow16] at this; exact this, by show 0 < 65536; decide⟩, hs.n4, fun e => (by cases e), fun _ => rfl,
      fun v e => (by cases e; rfl), hs.last⟩
  split at h
  · obtain ⟨kv, -, h⟩ := bind_eq_ok.1 h
    split at h
    · split at h
      · cases h
      split at h
      · cases h
      · rename_i a ha
        cases h
        exact ⟨by have := decodeU32_le ha; show a < 2 ^ 32; omega, hs.v4, hs.v6, hs.n4, hs.n6, hs.i6, hs.ex, hs.last⟩
    split at h
    · split at h
      · cases h
      rename_i v hex
      split at h
      · cases h
      rename_i p hp
      have hp := decodePort_le hp
      cases h
      have hv := hs.ex v hex
      cases v
      · have hv : s.v4 = true := hv
        exact ⟨hs.age, ⟨hs.v4.1, hs.v4.2.1, by show p < 65536; omega⟩, hs.v6, fun e => (by rw [show s.v4 = false from e] at hv; cases hv), hs.n6, hs.i6,
          fun v e => (by cases e), hs.last⟩
      · have hv : s.v6 = true := hv
        exact ⟨hs.age, hs.v4, ⟨.inr (hs.i6 hv), hs.v6.2.1, by show p < 65536; omega⟩, hs.n4,
          fun e => (by rw [show s.v6 = false from e] at hv; cases hv), fun e => hs.i6 e, fun v e => (by cases e), hs.last⟩
    · cases h
  · cases h

theorem accRecords_ok {s s' : Acc} (hs : Acc.Ok s) {l : List Record} (h : accRecords s l = .ok s') : Acc.Ok s' := by
  induction l generalizing s with
  | nil => cases h; exact hs
  | cons r l ih =>
    obtain ⟨s1, h1, h2⟩ := bind_eq_ok.1 (show (accRecord s r >>= fun s => accRecords s l) = _ from h)
    exact ih (accRecord_ok hs h1) h2

/-- C47: whatever bytes are read as a result, if they are not refused both the query and the
result are well-formed.  That reading is safe is `c47_safe_partial`. -/
theorem c47_result {d suffix : Bytes} {id : Nat} {q : Query} {r : Result} (h : resultDecode d suffix = .ok (id, q, r)) :
    Mslookup.Spec.Valid q ∧ id < 65536 ∧ r.rc = .result ∧ r.last = false ∧ r.age < 2 ^ 32
      ∧ (r.v4.v6 = false ∧ r.v4.ip < 2 ^ 32 ∧ r.v4.port < 65536)
      ∧ ((r.v6 = {} ∨ r.v6.v6 = true) ∧ r.v6.ip < 2 ^ 128 ∧ r.v6.port < 65536) := by
  unfold resultDecode at h
  obtain ⟨a, ha, h⟩ := bind_eq_ok.1 h
  split at h
  · cases h
  obtain ⟨q', hq, h⟩ := bind_eq_ok.1 h
  obtain ⟨r', hr, h⟩ := bind_eq_ok.1 h
  cases h
  refine ⟨?_, ?_, ?_⟩
  · unfold queryOf at hq
    dsimp only at hq
    split at hq
    · cases hq
    split at hq
    · cases hq
    · split at hq
      · rename_i hp
        cases hq
        exact (c45_exact hp).1
      · cases hq
  · unfold answerDecode at ha
    split at ha
    · cases ha
    obtain ⟨x, -, ha⟩ := bind_eq_ok.1 ha
    split at ha
    · cases ha
    cases ha
    have := beNat_lt (d.take 2)
    have hl : (d.take 2).length ≤ 2 := by rw [List.length_take]; omega
    have : beNat (d.take 2) < 256 ^ 2 := Nat.lt_of_lt_of_le this (Nat.pow_le_pow_right (by decide) hl)
    exact this
  · unfold resultOf at hr
    obtain ⟨s, hs, hr⟩ := bind_eq_ok.1 hr
    split at hr
    · cases hr
    cases hr
    have := accRecords_ok (s := {}) ⟨by decide, by decide, ⟨.inl rfl, by decide, by decide⟩, fun _ => rfl, fun _ => rfl,
      fun e => (by cases e), fun v e => (by cases e), rfl⟩ hs
    exact ⟨rfl, this.last, this.age, this.v4, this.v6⟩

/-! ### Safety of reading results -/

theorem rec_length (r : Rec) (h : Complete r) : r.bytes.length = r.name.length + 11 + r.data.length := by
  unfold Rec.bytes
  rw [List.length_append, List.length_cons, List.length_append, List.length_append, h.fixed]
  show _ + (8 + 2 + _ + 1) = _
  omega

/-- A complete record is read without touching anything else. -/
theorem record_safe {r : Rec} (h : Complete r) (t : Bytes) :
    recordDecode (r.bytes ++ t) = .error ∨ ∃ dom x, recordDecode (r.bytes ++ t) = .ok (dom, x, r.bytes.length) ∧ x.data = r.data := by
  have hlen : (r.bytes ++ t).length = r.name.length + 11 + r.data.length + t.length := by
    rw [List.length_append, rec_length r h]
  obtain ⟨x, hx⟩ : ∃ x, x = r.fixed ++ be16 r.data.length ++ r.data ++ t := ⟨_, rfl⟩
  have hxl : x.length = 10 + r.data.length + t.length := by
    rw [hx, List.length_append, List.length_append, List.length_append, h.fixed]; rfl
  have henc : r.bytes ++ t = r.name ++ 0 :: x := by
    unfold Rec.bytes
    rw [hx]
    simp
  have hn : nameLen (r.bytes ++ t) = some r.name.length := by
    unfold nameLen
    rw [if_neg (by omega), hlen, henc]
    have : (r.name ++ 0 :: x).take (r.name.length + 11 + r.data.length + t.length - 10)
        = r.name ++ 0 :: (x.take (r.data.length + t.length)) := by
      rw [List.take_append, List.take_of_length_le (by omega),
        show r.name.length + 11 + r.data.length + t.length - 10 - r.name.length = r.data.length + t.length + 1 from by omega]
      rfl
    rw [this, cstr_nul h.name.2]
  have drop : ∀ k, (r.name ++ 0 :: x).drop (r.name.length + (k + 1)) = x.drop k := by
    intro k
    rw [← List.drop_drop, List.drop_left]
    rfl
  unfold recordDecode
  rw [hn]
  dsimp only
  rw [hlen, henc]
  cases hget : (r.name ++ 0 :: x)[r.name.length + 1]? with
  | none =>
    rw [List.getElem?_eq_none_iff, List.length_append, List.length_cons, hxl] at hget
    omega
  | some c =>
    dsimp only
    split
    · exact .inl rfl
    rw [List.take_left]
    have hd8 : (r.fixed ++ (be16 r.data.length ++ r.data ++ t)).drop 8 = be16 r.data.length ++ r.data ++ t := by
      rw [← h.fixed, List.drop_left]
    have e1 : (r.name ++ 0 :: x).drop (r.name.length + 9) = be16 r.data.length ++ r.data ++ t := by
      rw [drop 8, hx, List.append_assoc, List.append_assoc, ← List.append_assoc (be16 _), hd8]
    have e2 : (r.name ++ 0 :: x).drop (r.name.length + 11) = r.data ++ t := by
      rw [show r.name.length + 11 = r.name.length + 9 + 2 from rfl, ← List.drop_drop, e1]; rfl
    have e4 : (be16 r.data.length ++ r.data ++ t).take 2 = be16 r.data.length := rfl
    have := apnToStr_safe h.name.1
    cases ha : apnToStr r.name with
    | crash => exact absurd ha this
    | error => exact .inl rfl
    | ok dom =>
      rw [bind_ok, if_neg (by omega), e1, e2, e4, beNat_be16 h.data.2, if_neg (by omega), List.take_left]
      rw [rec_length r h]
      exact .inr ⟨_, _, rfl, rfl⟩

theorem answerRecords_safe (l : List Rec) (hl : ∀ r ∈ l, Complete r) (dom : Option Bytes) (f : Nat)
    (hf : (l.flatMap Rec.bytes).length < f) :
    answerRecords f dom (l.flatMap Rec.bytes) = .error
      ∨ ∃ x rs, answerRecords f dom (l.flatMap Rec.bytes) = .ok (x, rs) ∧ (dom ≠ none ∨ l ≠ [] → x ≠ none) ∧ rs.map (·.data) = l.map (·.data) := by
  induction l generalizing dom f with
  | nil =>
    cases f with
    | zero => cases hf
    | succ f =>
      refine .inr ⟨dom, [], rfl, ?_, rfl⟩
      rintro (h | h)
      · exact h
      · exact absurd rfl h
  | cons r l ih =>
    cases f with
    | zero => cases hf
    | succ f =>
      have hr := hl r List.mem_cons_self
      rw [List.flatMap_cons] at hf ⊢
      have hlen := rec_length r hr
      rw [List.length_append, hlen] at hf
      have hne : (r.bytes ++ l.flatMap Rec.bytes).isEmpty = false := by
        cases hb : r.bytes with
        | nil => rw [hb] at hlen; rw [List.length_nil] at hlen; omega
        | cons c s => rfl
      rw [answerRecords, if_neg (by rw [hne]; simp)]
      rcases record_safe hr (l.flatMap Rec.bytes) with e | ⟨d, x, e, hx⟩
      · rw [e]; exact .inl rfl
      · rw [e, bind_ok]
        dsimp only
        split
        · exact .inl rfl
        rw [List.drop_left]
        rcases ih (fun r hr => hl r (List.mem_cons_of_mem _ hr)) (some (dom.getD (cstr d))) f (by omega) with e | ⟨y, rs, e, h1, h2⟩
        · rw [e]; exact .inl rfl
        · rw [e, bind_ok]
          refine .inr ⟨y, x :: rs, rfl, fun _ => h1 (.inl (by simp)), ?_⟩
          rw [List.map_cons, List.map_cons, h2, hx]

theorem accRecord_safe (s : Acc) {r : Record} (h : r.data ≠ []) : accRecord s r ≠ .crash := by
  unfold accRecord
  split
  · repeat' split
    all_goals intro e; cases e
  split
  · repeat' split
    all_goals intro e; cases e
  split
  case isFalse => intro e; cases e
  refine bind_ne_crash ?_ ?_
  · unfold txtDecode
    split
    · intro e; cases e
    split
    · rename_i e; exact absurd e h
    repeat' split
    all_goals intro e; cases e
  · intro kv _
    repeat' split
    all_goals intro e; cases e

theorem accRecords_safe (s : Acc) {l : List Record} (h : ∀ r ∈ l, r.data ≠ []) : accRecords s l ≠ .crash := by
  induction l generalizing s with
  | nil => intro e; cases e
  | cons r l ih =>
    show (accRecord s r >>= fun s => accRecords s l) ≠ _
    exact bind_ne_crash (accRecord_safe s (h r List.mem_cons_self)) (fun s' _ => ih s' (fun r hr => h r (List.mem_cons_of_mem _ hr)))

/-- C47: bytes that are too short, that are not an answer, or that consist of a header and one or
more complete records with names and data, whatever these contain, are read without touching
memory out of bounds.  Partial: other answers are not safe; see the witnesses below. -/
theorem c47_safe_partial (d suffix : Bytes)
    (h : d.length < 12 ∨ (headerDecode d).qr = false
      ∨ ∃ l, l ≠ [] ∧ (∀ r ∈ l, Complete r) ∧ d.drop 12 = l.flatMap Rec.bytes) :
    resultDecode d suffix ≠ .crash := by
  unfold resultDecode
  have hqs : ∀ dom, queryOf dom suffix ≠ .crash := by
    intro dom
    unfold queryOf
    dsimp only
    repeat' split
    all_goals intro e; cases e
  rcases Classical.em (d.length < 12 ∨ (headerDecode d).qr = false) with h0 | h0
  · unfold answerDecode
    rw [if_pos (by simpa using h0)]
    intro e; cases e
  · obtain ⟨l, hne, hl, hd⟩ := (h.resolve_left (fun e => h0 (.inl e))).resolve_left (fun e => h0 (.inr e))
    unfold answerDecode
    rw [if_neg (by simpa using h0), hd]
    rcases answerRecords_safe l hl none (d.length + 1) (by rw [← hd, List.length_drop]; omega) with e | ⟨x, rs, e, h1, h2⟩
    · rw [e]; intro e; cases e
    · rw [e, bind_ok]
      split
      · intro e; cases e
      rw [pure_ok, bind_ok]
      dsimp only
      cases x with
      | none => exact absurd rfl (h1 (.inr hne))
      | some dom =>
        dsimp only
        refine bind_ne_crash (hqs _) (fun q _ => bind_ne_crash ?_ (fun _ _ e => by cases e))
        unfold resultOf
        refine bind_ne_crash (accRecords_safe _ ?_) ?_
        · intro r hr e
          have : r.data ∈ l.map (·.data) := by rw [← h2]; exact List.mem_map_of_mem (f := fun r => r.data) hr
          obtain ⟨x, hx, hxe⟩ := List.mem_map.1 this
          exact (hl x hx).data.1 (by rw [hxe, e])
        · intro s _
          split <;> intro e <;> cases e

/-- The packet of `exBoth` consists of complete records. -/
example : ∃ d l, resultEncode 7 exQuery exBoth defaultSuffix = .ok d ∧ l ≠ [] ∧ (∀ r ∈ l, Complete r) ∧ d.drop 12 = l.flatMap Rec.bytes := by
  obtain ⟨d, hd⟩ := (c46_fits 7 exSendable (by decide +kernel)).2 exBoth
    ⟨by decide +kernel, by decide +kernel, by decide +kernel, by decide +kernel⟩
  have n : b "sip.voice.1001.msisdn.mdns.osmocom.org" = domainStr exQuery ++ 46 :: defaultSuffix := by decide +kernel
  let name := labels [] (b "sip.voice.1001.msisdn.mdns.osmocom.org")
  refine ⟨d, [⟨name, [0, 16, 0, 1, 0, 0, 0, 0], 14 :: b "age=4000000000"⟩, ⟨name, [0, 1, 0, 1, 0, 0, 0, 0], [10, 9, 8, 7]⟩,
    ⟨name, [0, 16, 0, 1, 0, 0, 0, 0], 9 :: b "port=5060"⟩, ⟨name, [0, 28, 0, 1, 0, 0, 0, 0], beBytes 16 exBoth.v6.ip⟩,
    ⟨name, [0, 16, 0, 1, 0, 0, 0, 0], 9 :: b "port=5061"⟩], hd, by simp, ?_, ?_⟩
  · intro r hr
    simp only [List.mem_cons, List.not_mem_nil, or_false] at hr
    rcases hr with rfl | rfl | rfl | rfl | rfl <;> exact ⟨by decide +kernel, by decide +kernel, by decide +kernel⟩
  · have hd2 : resultEncode 7 exQuery exBoth defaultSuffix = .ok d := hd
    have : (made (resultEncode 7 exQuery exBoth defaultSuffix)).map (List.drop 12) = some (d.drop 12) := by rw [hd2]; rfl
    refine Option.some.inj (this.symm.trans ?_)
    decide +kernel

/-- A header with the bit for answers set and `n` answers announced. -/
def exHeader (n : UInt8) : Bytes := [0, 7, 128, 0, 0, 0, 0, n, 0, 0, 0, 0]

/-- C47, witness: an answer without records makes every process that is waiting for answers
compute the length of a string at address 0. -/
theorem c47_empty_violated : ∃ d, d.length = 12 ∧ ∀ suffix, resultDecode d suffix = .crash :=
  ⟨exHeader 0, rfl, fun _ => rfl⟩

/-- C47, witness: less than 10 bytes after the header. -/
theorem c47_short_violated : ∃ d, d.length = 14 ∧ ∀ suffix, resultDecode d suffix = .crash :=
  ⟨exHeader 1 ++ [1, 97], rfl, fun _ => rfl⟩

/-- C47, witness: a record that ends within the length of its data. -/
theorem c47_cut_violated : ∃ d, d.length = 24 ∧ ∀ suffix, resultDecode d suffix = .crash :=
  ⟨exHeader 1 ++ [1, 97, 0, 0, 16, 0, 1, 0, 0, 0, 0, 0], rfl, fun _ => rfl⟩

/-- C47, witness: an empty name writes a byte to a buffer of no size. -/
theorem c47_noname_violated : ∃ d, d.length = 24 ∧ ∀ suffix, resultDecode d suffix = .crash :=
  ⟨exHeader 1 ++ [0, 0, 16, 0, 1, 0, 0, 0, 0, 0, 1, 0], rfl, fun _ => rfl⟩

/-- C47, witness: a text record without data, for an otherwise valid domain. -/
theorem c47_text_violated : ∃ d, resultDecode d defaultSuffix = .crash :=
  ⟨exHeader 1 ++ labels [] (b "sip.voice.1001.msisdn.mdns.osmocom.org") ++ [0, 0, 16, 0, 1, 0, 0, 0, 0, 0, 0], by decide +kernel⟩

/-- An empty age is read as 0 although it is no number. -/
theorem c47_age_violated : ∃ d r, resultDecode d defaultSuffix = .ok (7, exQuery, r) ∧ r.age = 0
    ∧ ∃ x, d = x ++ recordEncode (b "sip.voice.1001.msisdn.mdns.osmocom.org") ⟨16, 4 :: b "age="⟩ := by
  let n := b "sip.voice.1001.msisdn.mdns.osmocom.org"
  refine ⟨exHeader 3 ++ recordEncode n ⟨1, [10, 9, 8, 7]⟩ ++ recordEncode n ⟨16, 7 :: b "port=80"⟩ ++ recordEncode n ⟨16, 4 :: b "age="⟩,
    { rc := .result, v4 := ⟨false, 168364039, 80⟩ }, by decide +kernel, rfl, _, rfl⟩

end Verif.Mslookup.Props
