import Verif.Base
/-!
# Peer names: `src/gsupclient/cni_peer_id.c`
-/
namespace Verif.Gsup
open Verif

/-- `struct osmo_ipa_name` (include/osmocom/gsupclient/cni_peer_id.h): a buffer of 128
bytes of which the first `len` are the name.  The bytes after them keep what was there
before, and C string users of the buffer read up to the first NUL. -/
structure IpaName where
  len : Nat := 0
  val : Bytes := List.replicate 128 0
deriving DecidableEq, Repr

/-- Properly sized buffer. -/
def IpaName.WF (n : IpaName) : Prop := n.val.length = 128 ∧ n.len ≤ 128

/-- The name: the first `len` bytes. -/
def IpaName.name (n : IpaName) : Bytes := n.val.take n.len

/-- osmo_ipa_name_is_empty (cni_peer_id.c 25-28). -/
def IpaName.isEmpty (n : IpaName) : Bool := n.len == 0

/-- osmo_ipa_name_set (cni_peer_id.c 30-41); a NULL value is the empty list. -/
def ipaSet (n : IpaName) (v : Bytes) : Int × IpaName :=
  if v.isEmpty then (0, {})
  else if v.length > 128 then (-ENOSPC, n)
  else (0, { len := v.length, val := v ++ n.val.drop v.length })

/-- osmo_ipa_name_set_str (cni_peer_id.c 43-61) where `s` is the formatted string. -/
def ipaSetStr (n : IpaName) (s : Bytes) : Int × IpaName :=
  let t := s.take 127
  (0, { len := t.length + 1, val := t ++ [0] ++ n.val.drop (t.length + 1) })

/-- `memcmp` on two blocks of the same size; only the sign of its result is used. -/
def memcmp : Bytes → Bytes → Int
  | a :: as, b :: bs => if a < b then -1 else if b < a then 1 else memcmp as bs
  | _, _ => 0

/-- osmo_ipa_name_cmp (cni_peer_id.c 63-93) on two names at different addresses. -/
def ipaCmp (a b : IpaName) : Int :=
  if a.len = 0 ∧ b.len = 0 then 0
  else if a.len = 0 then -1
  else if b.len = 0 then 1
  else if a.len = b.len then memcmp (a.val.take a.len) (b.val.take a.len)
  else if a.len < b.len then
    let cmp := memcmp (a.val.take a.len) (b.val.take a.len)
    if cmp = 0 then -1 else cmp
  else
    let cmp := memcmp (a.val.take b.len) (b.val.take b.len)
    if cmp = 0 then 1 else cmp

/-- The C string at `n.val`: bytes up to the first NUL in the whole buffer; `none` if
there is none (the C code then reads beyond the buffer). -/
def IpaName.cstr (n : IpaName) : Option Bytes :=
  if n.val.contains 0 then some (n.val.takeWhile (· != 0)) else none

/-- `struct osmo_cni_peer_id`: only IPA names are supported. -/
inductive PeerId where
  | empty
  | ipa (n : IpaName)
deriving DecidableEq, Repr

/-- osmo_cni_peer_id_is_empty (cni_peer_id.c 117-129). -/
def PeerId.isEmpty : PeerId → Bool
  | .empty => true
  | .ipa n => n.isEmpty

/-- osmo_cni_peer_id_cmp (cni_peer_id.c 161-178) on ids at different addresses;
OSMO_CNI_PEER_ID_EMPTY is 0, OSMO_CNI_PEER_ID_IPA_NAME is 1. -/
def peerCmp : PeerId → PeerId → Int
  | .empty, .empty => -EINVAL
  | .empty, .ipa _ => -1
  | .ipa _, .empty => 1
  | .ipa a, .ipa b => ipaCmp a b

/-! ## Lemmas -/

theorem memcmp_eq_zero {a b : Bytes} (h : a.length = b.length) : memcmp a b = 0 ↔ a = b := by
  induction a generalizing b with
  | nil => cases b <;> simp_all [memcmp]
  | cons x a ih =>
    cases b with
    | nil => simp at h
    | cons y b =>
      simp only [List.length_cons, Nat.add_right_cancel_iff] at h
      simp only [memcmp, List.cons.injEq]
      split
      · rename_i hlt
        simp only [show ((-1 : Int) = 0) = False by simp, false_iff, not_and]
        intro he; subst he; exact absurd hlt (UInt8.lt_irrefl _)
      · split
        · rename_i hlt
          simp only [show ((1 : Int) = 0) = False by simp, false_iff, not_and]
          intro he; subst he; exact absurd hlt (UInt8.lt_irrefl _)
        · rename_i h1 h2
          have : x = y := UInt8.le_antisymm (UInt8.not_lt.1 h2) (UInt8.not_lt.1 h1)
          simp [this, ih h]

theorem memcmp_antisymm (a b : Bytes) : memcmp a b = - memcmp b a := by
  induction a generalizing b with
  | nil => cases b <;> simp [memcmp]
  | cons x a ih =>
    cases b with
    | nil => simp [memcmp]
    | cons y b =>
      simp only [memcmp]
      by_cases h1 : x < y
      · have h2 : ¬ y < x := fun h => UInt8.lt_asymm h1 h
        simp [h1, h2]
      · by_cases h2 : y < x
        · simp [h1, h2]
        · simp [h1, h2, ih b]

/-- Lexicographic order with the shorter name first. -/
def lexCmp : Bytes → Bytes → Int
  | [], [] => 0
  | [], _ :: _ => -1
  | _ :: _, [] => 1
  | a :: as, b :: bs => if a < b then -1 else if b < a then 1 else lexCmp as bs

theorem lexCmp_same {a b : Bytes} (h : a.length = b.length) : lexCmp a b = memcmp a b := by
  induction a generalizing b with
  | nil => cases b <;> simp_all [memcmp, lexCmp]
  | cons x a ih =>
    cases b with
    | nil => simp at h
    | cons y b => simp only [lexCmp, memcmp, ih (by simpa using h)]

theorem lexCmp_shorter {a b : Bytes} (h : a.length < b.length) :
    lexCmp a b = if memcmp a (b.take a.length) = 0 then -1 else memcmp a (b.take a.length) := by
  induction a generalizing b with
  | nil => cases b <;> simp_all [memcmp, lexCmp]
  | cons x a ih =>
    cases b with
    | nil => simp at h
    | cons y b =>
      simp only [List.length_cons, List.take_succ_cons, lexCmp, memcmp]
      split
      · simp
      · split
        · simp
        · exact ih (by simpa using h)

theorem lexCmp_antisymm (a b : Bytes) : lexCmp a b = - lexCmp b a := by
  induction a generalizing b with
  | nil => cases b <;> simp [lexCmp]
  | cons x a ih =>
    cases b with
    | nil => simp [lexCmp]
    | cons y b =>
      simp only [lexCmp]
      by_cases h1 : x < y
      · have h2 : ¬ y < x := fun h => UInt8.lt_asymm h1 h
        simp [h1, h2]
      · by_cases h2 : y < x
        · simp [h1, h2]
        · simp [h1, h2, ih b]

theorem lexCmp_eq_zero (a b : Bytes) : lexCmp a b = 0 ↔ a = b := by
  induction a generalizing b with
  | nil => cases b <;> simp [lexCmp]
  | cons x a ih =>
    cases b with
    | nil => simp [lexCmp]
    | cons y b =>
      simp only [lexCmp, List.cons.injEq]
      split
      · rename_i hlt
        simp only [show ((-1 : Int) = 0) = False by simp, false_iff, not_and]
        intro he; subst he; exact absurd hlt (UInt8.lt_irrefl _)
      · split
        · rename_i hlt
          simp only [show ((1 : Int) = 0) = False by simp, false_iff, not_and]
          intro he; subst he; exact absurd hlt (UInt8.lt_irrefl _)
        · rename_i h1 h2
          have : x = y := UInt8.le_antisymm (UInt8.not_lt.1 h2) (UInt8.not_lt.1 h1)
          simp [this, ih]

theorem lexCmp_trans (a b c : Bytes) (h1 : lexCmp a b ≤ 0) (h2 : lexCmp b c ≤ 0) :
    lexCmp a c ≤ 0 := by
  induction a generalizing b c with
  | nil => cases c <;> simp [lexCmp]
  | cons x a ih =>
    cases b with
    | nil => simp [lexCmp] at h1
    | cons y b =>
      cases c with
      | nil => simp [lexCmp] at h2
      | cons z c =>
        simp only [lexCmp] at h1 h2 ⊢
        by_cases hxy : x < y
        · by_cases hyz : y < z
          · simp [UInt8.lt_trans hxy hyz]
          · by_cases hzy : z < y
            · simp [hyz, hzy] at h2
            · have : y = z := UInt8.le_antisymm (UInt8.not_lt.1 hzy) (UInt8.not_lt.1 hyz)
              subst this
              simp [hxy]
        · by_cases hyx : y < x
          · simp [hxy, hyx] at h1
          · have : x = y := UInt8.le_antisymm (UInt8.not_lt.1 hyx) (UInt8.not_lt.1 hxy)
            subst this
            simp only [UInt8.lt_irrefl, if_false] at h1
            by_cases hyz : x < z
            · simp [hyz]
            · by_cases hzy : z < x
              · simp [hyz, hzy] at h2
              · simp only [hyz, hzy, if_false] at h2 ⊢
                exact ih b c h1 h2

theorem IpaName.WF.name_length {n : IpaName} (h : n.WF) : n.name.length = n.len := by
  simp [IpaName.name, h.1, h.2]

/-- The comparison is the lexicographic one on the names. -/
theorem ipaCmp_eq {a b : IpaName} (ha : a.WF) (hb : b.WF) : ipaCmp a b = lexCmp a.name b.name := by
  have la := ha.name_length
  have lb := hb.name_length
  unfold ipaCmp
  split
  · rename_i h
    have e1 : a.name = [] := List.length_eq_zero_iff.1 (by omega)
    have e2 : b.name = [] := List.length_eq_zero_iff.1 (by omega)
    simp [e1, e2, lexCmp]
  · split
    · rename_i h1 h2
      have e1 : a.name = [] := List.length_eq_zero_iff.1 (by omega)
      cases hb' : b.name with
      | nil => rw [hb'] at lb; simp at lb; exact absurd ⟨h2, lb.symm⟩ h1
      | cons y l => rw [e1]; rfl
    · split
      · rename_i h1 h2 h3
        have e1 : b.name = [] := List.length_eq_zero_iff.1 (by omega)
        cases ha' : a.name with
        | nil => rw [ha'] at la; simp at la; exact absurd la.symm h2
        | cons y l => rw [e1]; rfl
      · split
        · rename_i h1 h2 h3 h4
          rw [lexCmp_same (by omega)]
          simp only [IpaName.name, h4]
        · split
          · rename_i h5
            rw [lexCmp_shorter (by omega)]
            have e : b.name.take a.name.length = b.val.take a.len := by
              rw [la, IpaName.name, List.take_take, Nat.min_eq_left (by omega)]
            rw [e]
            rfl
          · rename_i h4 h5
            rw [lexCmp_antisymm, lexCmp_shorter (by omega)]
            have e : a.name.take b.name.length = a.val.take b.len := by
              rw [lb, IpaName.name, List.take_take, Nat.min_eq_left (by omega)]
            rw [e]
            have hs := memcmp_antisymm (b.val.take b.len) (a.val.take b.len)
            dsimp only
            show _ = -(if memcmp (b.val.take b.len) (a.val.take b.len) = 0 then (-1 : Int) else _)
            split
            · rename_i h0
              rw [if_pos (by omega)]; simp
            · rename_i h0
              rw [if_neg (by omega)]
              show _ = - memcmp (b.val.take b.len) (a.val.take b.len)
              omega

theorem ipaSet_wf {n : IpaName} (h : n.WF) (v : Bytes) : (ipaSet n v).2.WF := by
  unfold ipaSet
  split
  · exact ⟨by simp, by simp⟩
  · split
    · exact h
    · refine ⟨?_, by dsimp only; omega⟩
      have := h.1
      simp; omega

theorem ipaSetStr_wf {n : IpaName} (h : n.WF) (s : Bytes) : (ipaSetStr n s).2.WF := by
  have := h.1
  have : (s.take 127).length ≤ 127 := by simp; omega
  unfold ipaSetStr
  refine ⟨?_, by dsimp only; omega⟩
  simp only [List.length_append, List.length_drop, List.length_cons, List.length_nil]
  omega

end Verif.Gsup
