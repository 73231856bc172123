import Verif.Prov.VtySpec
import Verif.Prov.Lemmas5
/-! # Lemmas on the VTY: identities and texts -/
namespace Verif.Prov.Vty
open Verif Verif.Db Verif.Auc Verif.Mslookup Verif.Mslookup.Mdns Verif.Prov

/-! ## IMEIs -/

theorem dbl_eq {d : Nat} (h : d ≤ 9) : (if d * 2 > 9 then d * 2 - 9 else d * 2) = 2 * d / 10 + 2 * d % 10 := by
  split <;> omega

theorem digit_le {c : UInt8} (h : 48 ≤ c ∧ c ≤ 57) : c.toNat - 48 ≤ 9 ∧ 48 ≤ c.toNat ∧ c.toNat ≤ 57 := by
  obtain ⟨h1, h2⟩ := h
  have h1 : 48 ≤ c.toNat := h1
  have h2 : c.toNat ≤ 57 := h2
  omega

theorem len14 {s : Bytes} (h : s.length = 14) : ∃ a0 a1 a2 a3 a4 a5 a6 a7 a8 a9 a10 a11 a12 a13,
    s = [a0, a1, a2, a3, a4, a5, a6, a7, a8, a9, a10, a11, a12, a13] := by
  match s, h with
  | [a0, a1, a2, a3, a4, a5, a6, a7, a8, a9, a10, a11, a12, a13], _ => exact ⟨_, _, _, _, _, _, _, _, _, _, _, _, _, _, rfl⟩

theorem luhnSum_total {s : Bytes} (h : s.length = 14) (hd : ∀ c ∈ s, 48 ≤ c ∧ c ≤ 57) :
    luhnSum true s.reverse = total s := by
  obtain ⟨a0, a1, a2, a3, a4, a5, a6, a7, a8, a9, a10, a11, a12, a13, rfl⟩ := len14 h
  simp only [List.mem_cons, List.not_mem_nil, or_false, forall_eq_or_imp, forall_eq] at hd
  obtain ⟨h0, h1, h2, h3, h4, h5, h6, h7, h8, h9, h10, h11, h12, h13⟩ := hd
  have e1 := dbl_eq (digit_le h1).1
  have e3 := dbl_eq (digit_le h3).1
  have e5 := dbl_eq (digit_le h5).1
  have e7 := dbl_eq (digit_le h7).1
  have e9 := dbl_eq (digit_le h9).1
  have e11 := dbl_eq (digit_le h11).1
  have e13 := dbl_eq (digit_le h13).1
  show luhnSum true [a13, a12, a11, a10, a9, a8, a7, a6, a5, a4, a3, a2, a1, a0] = _
  simp only [luhnSum, e1, e3, e5, e7, e9, e11, e13]
  simp only [total, List.mapIdx_cons, List.mapIdx_nil, List.sum_cons, List.sum_nil]
  simp only [show (0 % 2 = 1) = False by simp, if_false]
  simp
  omega

theorem all_digit {s : Bytes} : s.all isDigit = true ↔ ∀ c ∈ s, 48 ≤ c ∧ c ≤ 57 := by
  rw [List.all_eq_true]
  constructor
  · intro h c hc; exact isDigit_iff.mp (h c hc)
  · intro h c hc; exact isDigit_iff.mpr (h c hc)

theorem luhn_eq {s : Bytes} (h : 14 ≤ s.length) (hd : ∀ c ∈ s.take 14, 48 ≤ c ∧ c ≤ 57) :
    luhn s 14 = some (UInt8.ofNat (total (s.take 14) * 9 % 10 + 48)) := by
  unfold luhn
  rw [if_pos (by rw [Bool.and_eq_true]; exact ⟨decide_eq_true h, all_digit.mpr hd⟩), luhnSum_total (by rw [List.length_take]; omega) hd]

theorem luhn14 {i : Bytes} (h : Digits 14 14 i) : luhn i 14 = some (checkDigit i) := by
  have ht : i.take 14 = i := List.take_of_length_le h.2.1
  rw [luhn_eq h.1 (by rw [ht]; exact h.2.2), ht]
  unfold checkDigit
  congr 2
  omega

theorem total_snoc {s : Bytes} (h : s.length = 14) (c : UInt8) : total (s ++ [c]) = total s + (c.toNat - 48) := by
  obtain ⟨a0, a1, a2, a3, a4, a5, a6, a7, a8, a9, a10, a11, a12, a13, rfl⟩ := len14 h
  simp [total, List.mapIdx_cons]
  omega

theorem chk_iff {s : Bytes} : imeiChkValid s = true ↔ FullImei s := by
  unfold imeiChkValid FullImei
  rw [Bool.and_eq_true, digits_valid]
  refine and_congr_right fun h => ?_
  have hl : s.length = 15 := Nat.le_antisymm h.2.1 h.1
  have hs : s = s.take 14 ++ [s[14]] := by
    conv => lhs; rw [← List.take_append_drop 14 s]
    rw [List.drop_eq_getElem_cons (by omega), List.drop_of_length_le (by omega)]
  have hc : (48 : UInt8) ≤ s[14] ∧ s[14] ≤ (57 : UInt8) := h.2.2 _ (List.getElem_mem _)
  obtain ⟨c1, c2, c3⟩ := digit_le hc
  rw [luhn_eq (by omega) (fun c hc => h.2.2 c (List.mem_of_mem_take hc)), List.getElem?_eq_getElem (by omega)]
  have ht : total s = total (s.take 14) + (s[14].toNat - 48) := by
    conv => lhs; rw [hs]
    rw [total_snoc (by rw [List.length_take]; omega)]
  rw [ht]
  have key : ∀ (n : Nat) (c : UInt8), n < 256 → (UInt8.ofNat n = c ↔ n = c.toNat) := by
    intro n c hn
    rw [← UInt8.toNat_inj, UInt8.toNat_ofNat']
    omega
  rw [beq_iff_eq, Option.some.injEq, key _ _ (by omega)]
  omega

theorem chk_false {s : Bytes} (h : ¬ FullImei s) : imeiChkValid s = false := by
  cases e : imeiChkValid s with
  | false => rfl
  | true => exact absurd (chk_iff.mp e) h

theorem ident_pos {id : Bytes} (h : FullImei id) : ident .imei id = (id.take 14, strip .imei id) := by
  unfold ident strip
  rw [if_pos ⟨rfl, chk_iff.mpr h⟩, if_pos ⟨rfl, h⟩]
  rfl

theorem ident_neg {t : IdType} {id : Bytes} (h : ¬ (t = .imei ∧ FullImei id)) : ident t id = (id, strip t id) := by
  unfold ident strip
  rw [if_neg (fun e => h ⟨e.1, chk_iff.mp e.2⟩), if_neg h]

theorem ident_snd (t : IdType) (id : Bytes) : (ident t id).2 = strip t id := by
  by_cases h : t = .imei ∧ FullImei id
  · obtain ⟨rfl, h⟩ := h
    rw [ident_pos h]
  · rw [ident_neg h]

/-! ## Which subscriber is found -/

/-- The condition an identity stands for. -/
def cond (t : IdType) (id : Bytes) : SubRow → Bool :=
  match t with
  | .imsi => (·.imsi == id)
  | .msisdn => (·.msisdn == some id)
  | .id => (·.id == atoll id)
  | .imei => (·.imei == some (ident .imei id).1)

theorem lookup_eq (t : IdType) (id : Bytes) : lookup t id = dbSel (cond t id) := by cases t <;> rfl

theorem atoll_numeral {t : Bytes} {n : Nat} (h : Numeral t n) (hn : n < 2 ^ 63) : atoll t = (n : Int) := by
  obtain ⟨h1, h2, h3⟩ := h
  cases t with
  | nil => exact absurd rfl h1
  | cons c t =>
    have hc := h2 c List.mem_cons_self
    have hs := not_space_of_digit hc
    have h43 : c ≠ 43 := fun e => by rw [e] at hc; exact absurd hc (by decide)
    have h45 : c ≠ 45 := fun e => by rw [e] at hc; exact absurd hc (by decide)
    have hl : leadDigits 0 (c :: t) = n := by rw [leadDigits_eq h2]; exact h3
    unfold atoll
    rw [List.dropWhile_cons, hs]
    simp only [Bool.false_eq_true, if_false]
    split
    · rename_i t' e; cases e; exact absurd rfl h45
    · rename_i t' e; cases e; exact absurd rfl h43
    · rw [hl]
      omega

theorem not_full_of_stored {d : Db} (hG : Good d) {r : SubRow} (hr : r ∈ d.subs) {id : Bytes} (h : r.imei = some id) :
    ¬ FullImei id := by
  intro hf
  have h1 := ((hG.idents r hr).2.2 id h).2.1
  have h2 := hf.1.1
  omega

theorem cond_iff {d : Db} (hG : Good d) {t : IdType} {id : Bytes} {r : SubRow} (hr : r ∈ d.subs) (hi : IdentOk t id) :
    cond t id r = true ↔ NamesV t id r := by
  cases t with
  | imsi => show (r.imsi == id) = true ↔ r.imsi = id; simp
  | msisdn => show (r.msisdn == some id) = true ↔ r.msisdn = some id; simp
  | id =>
    obtain ⟨n, hn, hN⟩ := hi rfl
    show (r.id == atoll id) = true ↔ ∃ n, Numeral id n ∧ r.id = (n : Int)
    rw [atoll_numeral hN hn, beq_iff_eq]
    constructor
    · intro e; exact ⟨n, hN, e⟩
    · rintro ⟨m, hm, e⟩
      rw [e, ← hm.2.2, ← hN.2.2]
  | imei =>
    show (r.imei == some (ident .imei id).1) = true ↔ r.imei = some id ∨ (FullImei id ∧ r.imei = some (id.take 14))
    rw [beq_iff_eq]
    by_cases hf : FullImei id
    · rw [ident_pos hf]
      constructor
      · intro e; exact .inr ⟨hf, e⟩
      · rintro (e | ⟨-, e⟩)
        · exact absurd hf (not_full_of_stored hG hr e)
        · exact e
    · rw [ident_neg (fun e => hf e.2)]
      constructor
      · intro e; exact .inl e
      · rintro (e | ⟨h, -⟩)
        · exact e
        · exact absurd h hf

theorem cond_found {d : Db} (hG : Good d) {t : IdType} {id : Bytes} {r : SubRow} (hi : IdentOk t id)
    (hf : d.subs.find? (cond t id) = some r) : NamesV t id r := by
  have e : cond t id r = true := by have := List.find?_some hf; simpa using this
  exact (cond_iff hG (List.mem_of_find?_eq_some hf) hi).mp e

/-- An identity other than an IMEI names at most one subscriber. -/
theorem namesV_unique {d : Db} (hG : Good d) {t : IdType} {id : Bytes} {r q : SubRow} (hr : r ∈ d.subs) (hq : q ∈ d.subs)
    (ht : t ≠ .imei) (h : NamesV t id r) (h' : NamesV t id q) : q = r := by
  cases t with
  | imsi => exact eq_of_nodup_map hG.unique.imsis hq hr (h'.trans h.symm)
  | msisdn => exact eq_of_nodup_filterMap hG.unique.msisdns hq hr (x := id) h' h
  | id =>
    obtain ⟨n, hn, e⟩ := h
    obtain ⟨m, hm, e'⟩ := h'
    refine eq_of_nodup_map hG.unique.ids hq hr ?_
    show q.id = r.id
    rw [e, e', ← hn.2.2, ← hm.2.2]
  | imei => exact absurd rfl ht

theorem namesV_ok {t : IdType} {id : Bytes} {r : SubRow} (h : NamesV t id r) (hid : r.id < 2 ^ 63) : IdentOk t id := by
  rintro rfl
  obtain ⟨n, hn, e⟩ := h
  exact ⟨n, by omega, hn⟩

/-- `r` is the one subscriber named. -/
def Only (d : Db) (t : IdType) (id : Bytes) (r : SubRow) : Prop :=
  r ∈ d.subs ∧ NamesV t id r ∧ ∀ q ∈ d.subs, NamesV t id q → q = r

theorem only_of {d : Db} (hG : Good d) {t : IdType} {id : Bytes} {r : SubRow} (hr : r ∈ d.subs) (h : NamesV t id r)
    (ht : t ≠ .imei) : Only d t id r := ⟨hr, h, fun _ hq h' => namesV_unique hG hr hq ht h h'⟩

theorem cond_names {d : Db} (hG : Good d) {t : IdType} {id : Bytes} {r : SubRow} (h : Only d t id r)
    (hid : r.id < 2 ^ 63) : d.subs.find? (cond t id) = some r := by
  obtain ⟨hr, hn, hu⟩ := h
  have hi := namesV_ok hn hid
  cases hf : d.subs.find? (cond t id) with
  | none => exact absurd ((cond_iff hG hr hi).mpr hn) (by simpa using List.find?_eq_none.mp hf r hr)
  | some q => rw [hu q (List.mem_of_find?_eq_some hf) (cond_found hG hi hf)]

/-! ## What is shown -/

theorem unit_eq (c : UInt8) (n : String) (hc : b n = [c]) (u a : Nat) (hu : 0 < u) :
    lastLu.unit c u a = unitIf (a / u) n := by
  unfold lastLu.unit unitIf
  rw [hc]
  by_cases h : a ≥ u
  · rw [if_pos h, if_neg (by have := Nat.div_pos h hu; omega)]
  · rw [if_neg h, if_pos (Nat.div_eq_of_lt (by omega))]

theorem lastLu_eq (ck : Clock) (dom : String) (t : Option Int) : lastLu ck (b dom) (t.getD 0) = seenText ck dom t := by
  cases t with
  | none => rfl
  | some t =>
    show lastLu ck (b dom) t = _
    unfold lastLu seenText
    dsimp only
    by_cases h : t = 0
    · rw [if_pos h, if_pos h]
    rw [if_neg h, if_neg h]
    congr 1
    unfold Sys.timestampAge
    dsimp only
    by_cases ha : 0 ≤ ck.now - t ∧ ck.now - t < 2 ^ 32
    · rw [if_pos ha, if_neg (by omega)]
      show b " (" ++ _ ++ _ ++ _ ++ _ ++ _ = _
      rw [unit_eq 100 "d" (by decide +kernel) _ _ (by decide), unit_eq 104 "h" (by decide +kernel) _ _ (by decide),
        unit_eq 109 "m" (by decide +kernel) _ _ (by decide), unit_eq 115 "s" (by decide +kernel) _ _ (by decide)]
      unfold ageText
      generalize (ck.now - t).toNat = a
      have e1 : a % 86400 / 3600 = a / 3600 % 24 := by omega
      have e2 : a % 86400 % 3600 / 60 = a / 60 % 60 := by omega
      have e3 : a % 86400 % 3600 % 60 / 1 = a % 60 := by omega
      rw [e1, e2, e3]
      simp only [List.append_assoc]
    · rw [if_neg ha, if_pos (by omega)]
      rfl

theorem optLine_eq (label : String) (v : Bytes) : optLine (b "    " ++ b label ++ b ": ") v = lineIf label v := by
  have e1 : b "\n" = [10] := by decide +kernel
  unfold optLine lineIf line
  rw [e1]
  cases v <;> simp

theorem dumpHead_eq (ck : Clock) {d : Db} (hG : Good d) {r : SubRow} (hr : r ∈ d.subs) :
    dumpHead ck (HlrSubscr.ofRow r) = subText ck r := by
  have e1 : b "    ID: " = b "    " ++ b "ID" ++ b ": " := by decide +kernel
  have e2 : b "    IMSI: " = b "    " ++ b "IMSI" ++ b ": " := by decide +kernel
  have e3 : b "    MSISDN: " = b "    " ++ b "MSISDN" ++ b ": " := by decide +kernel
  have e4 : b "    IMEI: " = b "    " ++ b "IMEI" ++ b ": " := by decide +kernel
  have e5 : b "    VLR number: " = b "    " ++ b "VLR number" ++ b ": " := by decide +kernel
  have e6 : b "    SGSN number: " = b "    " ++ b "SGSN number" ++ b ": " := by decide +kernel
  have e7 : b "\n" = [10] := by decide +kernel
  obtain ⟨i1, i2, i3⟩ := hG.idents r hr
  have hi : (if r.imsi.isEmpty = true then b "none" else r.imsi) = r.imsi := by
    rw [if_neg]
    intro h
    have := i1.1
    simp only [List.isEmpty_iff] at h
    rw [h] at this
    simp at this
  have hm : (if (r.msisdn.getD []).isEmpty = true then b "none" else r.msisdn.getD []) = r.msisdn.getD (b "none") := by
    cases h : r.msisdn with
    | none => rfl
    | some m =>
      have := (i2 m h).1
      have : m ≠ [] := by rintro rfl; simp at this
      simp [this]
  have hE : imeiLine (HlrSubscr.ofRow r).imei = (match r.imei with | none => [] | some i => line "IMEI" (i ++ [checkDigit i])) := by
    show imeiLine (strlcpy 16 (r.imei.getD [])) = _
    cases h : r.imei with
    | none => rfl
    | some i =>
      have hi := i3 i h
      have hs : strlcpy 16 i = i := List.take_of_length_le (by have := hi.2.1; omega)
      have hne : i.isEmpty = false := by
        have := hi.1
        cases i with
        | nil => simp at this
        | cons => rfl
      show imeiLine (strlcpy 16 i) = line "IMEI" (i ++ [checkDigit i])
      rw [hs]
      unfold imeiLine line
      rw [hne, luhn14 hi, e4, e7]
      simp
  unfold dumpHead subText
  rw [ofRow_imsi hG hr, ofRow_msisdn hG hr, hi, hm, hE, e1, e2, e3, e5, e6, optLine_eq, optLine_eq]
  show _ ++ _ ++ _ ++ _ ++ _ ++ _ ++ _ ++ _ ++ _ ++ _ ++ _ ++ _ ++ _ ++ _ ++ _ ++ _ ++ lastLu ck (b "CS") (r.lastLu.getD 0)
    ++ lastLu ck (b "PS") (r.lastLuPs.getD 0) = _
  rw [lastLu_eq, lastLu_eq]
  unfold line
  rw [e7]
  simp only [List.append_assoc]
  rfl

theorem dump2_eq {d : Db} (hG : Good d) (id : Int) : dump2 ((key2 d id).bind load2) = keysText2 (key2 d id) := by
  cases h : key2 d id with
  | none => rfl
  | some a =>
    obtain ⟨ki, h1, h2⟩ := algo2_ne hG h
    have e1 : b "    2G auth: " = b "    " ++ b "2G auth" ++ b ": " := by decide +kernel
    have e2 : b "\n             KI=" = b "\n" ++ b "             " ++ b "KI" ++ b "=" := by decide +kernel
    have e7 : b "\n" = [10] := by decide +kernel
    show dump2 (load2 a) = _
    rw [h2]
    unfold dump2 keysText2 line keyLine
    dsimp only
    rw [hexCol_dump h1, e1, e2, e7]
    simp only [List.append_assoc]

theorem dump3_eq {d : Db} (hG : Good d) (id : Int) : dump3 ((key3 d id).bind load3) = keysText3 (key3 d id) := by
  cases h : key3 d id with
  | none => rfl
  | some a =>
    obtain ⟨k, o, t, h1, h2, h3, h4⟩ := aud3_ne hG h
    have e1 : b "    3G auth: " = b "    " ++ b "3G auth" ++ b ": " := by decide +kernel
    have e2 : b "\n             K=" = b "\n" ++ b "             " ++ b "K" ++ b "=" := by decide +kernel
    have e3 : b "\n             " = b "\n" ++ b "             " := by decide +kernel
    have e4 : b "\n             IND-bitlen=" = b "\n" ++ b "             " ++ b "IND-bitlen" ++ b "=" := by decide +kernel
    have e7 : b "\n" = [10] := by decide +kernel
    show dump3 (load3 a) = _
    rw [h4]
    unfold dump3 keysText3 line keyLine
    dsimp only
    rw [hexCol_dump h1, hexCol_dump h2, e1, e2, e3, e4, e7]
    rcases h3 with ⟨p, q⟩ | ⟨p, q⟩
    · rw [p, q]
      simp only [Option.isSome_some, if_true, List.append_assoc]
    · rw [p, q]
      simp only [Option.isSome_none, Bool.false_eq_true, if_false, List.append_assoc]

theorem imsi_ne {d : Db} (hG : Good d) {r : SubRow} (hr : r ∈ d.subs) : (HlrSubscr.ofRow r).imsi.isEmpty = false := by
  rw [ofRow_imsi hG hr]
  have := (hG.idents r hr).1.1
  cases h : r.imsi with
  | nil => rw [h] at this; simp at this
  | cons => rfl

theorem dump_nil (ck : Clock) {d : Db} (hG : Good d) {r : SubRow} (hr : r ∈ d.subs) :
    dump ck (HlrSubscr.ofRow r) { db := d, script := [] } = (some (showText ck d r), { db := d, script := [] }) := by
  unfold dump
  rw [imsi_ne hG hr]
  simp only [Bool.false_eq_true, if_false]
  rw [bind_run, ofRow_imsi hG hr, getAuthData_nil, authKeys_ok hG.keys hG.unique hr, dumpHead_eq ck hG hr]
  unfold showText
  by_cases h : key2 d r.id = none ∧ key3 d r.id = none
  · rw [if_pos h, h.1, h.2]
    show (some (subText ck r), _) = _
    simp [keysText2, keysText3]
  · rw [if_neg h]
    show (some (subText ck r ++ _ ++ _), _) = _
    rw [dump2_eq hG, dump3_eq hG]

/-- What is said when the keys cannot be read. -/
def noKeys : Bytes := b "% Error retrieving data from database (-5)\n"

theorem dump_run (ck : Clock) {w : World} (hG : Good w.db) {r : SubRow} (hr : r ∈ w.db.subs) :
    ∃ o t, dump ck (HlrSubscr.ofRow r) w = (o, { db := w.db, script := t })
      ∧ (o = none ∨ o = some (subText ck r ++ noKeys) ∨ o = some (showText ck w.db r)) := by
  have hn := dump_nil ck hG hr
  unfold dump at hn ⊢
  rw [imsi_ne hG hr] at hn ⊢
  simp only [Bool.false_eq_true, if_false] at hn ⊢
  obtain ⟨o, t, h1, h2⟩ := getAuthData_run (HlrSubscr.ofRow r).imsi w
  rw [bind_run, getAuthData_nil] at hn
  rw [bind_run, h1]
  rcases h2 with rfl | rfl | rfl
  · exact ⟨none, t, rfl, .inl rfl⟩
  · refine ⟨_, t, rfl, .inr (.inl ?_)⟩
    rw [dumpHead_eq ck hG hr]
    have e : b "% Error retrieving data from database (" ++ decInt (-EIO) ++ b ")\n" = noKeys := by decide +kernel
    rw [← e]
    simp only [List.append_assoc]
  · dsimp only at hn ⊢
    cases hk : authKeys w.db (HlrSubscr.ofRow r).imsi with
    | keys i g u =>
      rw [hk] at hn
      refine ⟨_, t, rfl, .inr (.inr ?_)⟩
      exact congrArg (fun p => p.1) hn
    | err rc =>
      rw [hk] at hn
      dsimp only at hn ⊢
      by_cases h : rc = -ENOENT ∨ rc = -ENOKEY
      · rw [if_pos h] at hn ⊢
        exact ⟨_, t, rfl, .inr (.inr (congrArg (fun p => p.1) hn))⟩
      · rw [if_neg h] at hn ⊢
        exact ⟨_, t, rfl, .inr (.inr (congrArg (fun p => p.1) hn))⟩

end Verif.Prov.Vty
