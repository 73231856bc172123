import Verif.Prov.Spec
import Verif.Db.Props
import Verif.Db.Uniform
import Verif.Auc.Lemmas4
import Verif.Mslookup.MdnsLemmas
/-! # Lemmas on the provisioning commands -/
namespace Verif.Prov
open Verif Verif.Db Verif.Auc Verif.Mslookup Verif.Mslookup.Mdns

/-! ## Hexadecimal texts -/

theorem hexVal_lower {c v : UInt8} (h : hexVal c = some v) : v < 16 ∧ hexDigit v = lower c := by
  revert v
  have : ∀ c : UInt8, ∀ v, hexVal c = some v → v < 16 ∧ hexDigit v = lower c := by
    intro c
    have : ∀ n : Fin 256, ∀ v, hexVal (UInt8.ofFin n) = some v → v < 16 ∧ hexDigit v = lower (UInt8.ofFin n) := by
      decide +kernel
    have e := this c.toFin
    simpa using e
  intro v h
  exact this c v h

theorem hexdump_hexparse : ∀ {t x : Bytes}, hexparse t = some x → hexdump x = lowerHex t
  | [], x, h => by cases h; rfl
  | [_], x, h => by simp [hexparse] at h
  | a :: c :: t, x, h => by
    rw [hexparse] at h
    cases ha : hexVal a with
    | none => rw [ha] at h; simp at h
    | some u =>
      cases hc : hexVal c with
      | none => rw [ha, hc] at h; simp at h
      | some w =>
        cases ht : hexparse t with
        | none => rw [ha, hc, ht] at h; simp at h
        | some y =>
          rw [ha, hc, ht] at h
          simp only [Option.some.injEq] at h
          subst h
          obtain ⟨u1, u2⟩ := hexVal_lower ha
          obtain ⟨w1, w2⟩ := hexVal_lower hc
          have key : ∀ u w : UInt8, u < 16 → w < 16 → (u * 16 + w) / 16 = u ∧ (u * 16 + w) % 16 = w := by
            intro u w hu hw
            have hu : u.toNat < 16 := hu
            have hw : w.toNat < 16 := hw
            constructor <;> apply UInt8.toNat_inj.mp <;> simp <;> omega
          obtain ⟨k1, k2⟩ := key u w u1 w1
          rw [hexdump, k1, k2, u2, w2, hexdump_hexparse ht]
          rfl

theorem hexCol_dump {lo hi : Nat} {t x : Bytes} (h : hexCol lo hi t = some x) : hexdump x = lowerHex t := by
  unfold hexCol at h
  split at h
  · cases h
  · split at h
    · cases h
    · cases hp : hexparse t with
      | none => rw [hp] at h; simp at h
      | some y =>
        rw [hp] at h
        simp only at h
        split at h
        · cases h; exact hexdump_hexparse hp
        · cases h

/-! ## Selectors -/

theorem isPrefixOf_append (p t : Bytes) : p.isPrefixOf (p ++ t) = true := by
  induction p with
  | nil => simp [List.isPrefixOf]
  | cons a p ih => simp [List.isPrefixOf, ih]

theorem startswith_append (p t : Bytes) : startswith (p ++ t) p = true := isPrefixOf_append p t

theorem isPrefixOf_drop {p s : Bytes} (h : p.isPrefixOf s = true) : s = p ++ s.drop p.length := by
  obtain ⟨t, rfl⟩ := List.isPrefixOf_iff_prefix.mp h
  simp

/-- The condition a selector stands for, or the error code. -/
def selCond (sel : Bytes) : Except Int (SubRow → Bool) :=
  if startswith sel byImsi then
    if !imsiValid (sel.drop byImsi.length) then .error (-EINVAL) else .ok (·.imsi == sel.drop byImsi.length)
  else if startswith sel byMsisdn then
    if !msisdnValid (sel.drop byMsisdn.length) then .error (-EINVAL) else .ok (·.msisdn == some (sel.drop byMsisdn.length))
  else if startswith sel byId then
    if (sel.drop byId.length).head? == some 43 then .error (-EINVAL)
    else match strtoll (sel.drop byId.length) with
      | none => .error (-EINVAL)
      | some id => .ok (·.id == id)
  else .error (-ENOTSUP)

theorem selectSub_eq (sel : Bytes) : selectSub sel = match selCond sel with
    | .error rc => pure (rc, none)
    | .ok c => dbSel c := by
  unfold selectSub selCond getByImsi getByMsisdn getById
  dsimp only
  split
  · split <;> rfl
  · split
    · split <;> rfl
    · split
      · split
        · rfl
        · cases strtoll (sel.drop byId.length) <;> rfl
      · rfl

theorem byImsi_eq : byImsi = [98, 121, 45, 105, 109, 115, 105, 45] := by decide +kernel
theorem byMsisdn_eq : byMsisdn = [98, 121, 45, 109, 115, 105, 115, 100, 110, 45] := by decide +kernel
theorem byId_eq : byId = [98, 121, 45, 105, 100, 45] := by decide +kernel

/-! ## Numbers -/

theorem isDigit_iff {c : UInt8} : isDigit c = true ↔ 48 ≤ c ∧ c ≤ 57 := by
  simp [isDigit]

theorem digitsVal_iff {t : Bytes} : ∀ {n v : Nat}, digitsVal n t = some v ↔
    (∀ c ∈ t, 48 ≤ c ∧ c ≤ 57) ∧ t.foldl (fun n c => n * 10 + (c.toNat - 48)) n = v := by
  induction t with
  | nil => intro n v; simp [digitsVal]
  | cons c t ih =>
    intro n v
    rw [digitsVal]
    by_cases h : isDigit c = true
    · rw [if_pos h, ih]
      have := isDigit_iff.mp h
      simp only [List.mem_cons, forall_eq_or_imp, List.foldl_cons, this, true_and, and_self]
    · rw [if_neg h]
      have hn : ¬ (48 ≤ c ∧ c ≤ 57) := fun e => h (isDigit_iff.mpr e)
      simp [hn]

theorem numeral_iff {t : Bytes} {n : Nat} : unsignedVal t = some n ↔ Numeral t n := by
  unfold unsignedVal Numeral value
  cases t with
  | nil => simp
  | cons c t =>
    rw [if_neg (by simp), digitsVal_iff]
    simp

theorem not_space_of_digit {c : UInt8} (h : 48 ≤ c ∧ c ≤ 57) : isSpace c = false := by
  have : ∀ n : Fin 256, 48 ≤ UInt8.ofFin n ∧ UInt8.ofFin n ≤ 57 → isSpace (UInt8.ofFin n) = false := by decide +kernel
  simpa using this c.toFin (by simpa using h)

theorem strtoll_numeral {t : Bytes} {n : Nat} (h : Numeral t n) (hn : n < 2 ^ 63) :
    strtoll t = some (n : Int) ∧ t.head? ≠ some 43 := by
  have hv := numeral_iff.mpr h
  obtain ⟨h1, h2, -⟩ := h
  cases t with
  | nil => exact absurd rfl h1
  | cons c t =>
    have hc := h2 c List.mem_cons_self
    have hs := not_space_of_digit hc
    have h43 : c ≠ 43 := fun e => by rw [e] at hc; exact absurd hc (by decide)
    have h45 : c ≠ 45 := fun e => by rw [e] at hc; exact absurd hc (by decide)
    refine ⟨?_, by simpa using h43⟩
    unfold strtoll
    rw [if_neg (by simp), List.dropWhile_cons, hs]
    simp only [Bool.false_eq_true, if_false]
    split
    · rename_i t' e; cases e; exact absurd rfl h45
    · rename_i t' e; cases e; exact absurd rfl h43
    · rename_i e1 e2
      rw [hv]
      show (if n ≥ 2 ^ 63 then none else some (n : Int)) = _
      rw [if_neg (by omega)]

/-- A positive number is read only from digits, blanks and a plus sign aside. -/
theorem strtoll_pos {t : Bytes} {i : Int} (h : strtoll t = some i) (hi : 0 < i)
    (hs : ∀ c ∈ t, isSpace c = false ∧ c ≠ 43) : ∃ n : Nat, i = (n : Int) ∧ Numeral t n := by
  unfold strtoll at h
  split at h
  · cases h; omega
  · have hd : t.dropWhile isSpace = t := by
      cases t with
      | nil => rfl
      | cons c t => rw [List.dropWhile_cons, (hs c List.mem_cons_self).1]; simp
    rw [hd] at h
    split at h
    · rename_i u _
      cases hu : unsignedVal u with
      | none => rw [hu] at h; simp at h
      | some v =>
        rw [hu] at h
        simp only [Option.bind_some] at h
        split at h
        · cases h
        · cases h; omega
    · exact absurd rfl (hs 43 List.mem_cons_self).2
    · rename_i e1 e2
      cases hu : unsignedVal t with
      | none => rw [hu] at h; simp at h
      | some v =>
        rw [hu] at h
        simp only [Option.bind_some] at h
        split at h
        · cases h
        · cases h; exact ⟨v, rfl, numeral_iff.mp hu⟩

/-! ## Which subscriber a selector finds -/

/-- Every subscriber id is positive. -/
def IdsPos (d : Db) : Prop := ∀ r ∈ d.subs, 0 < r.id

theorem IdsPos.upd {d : Db} (h : IdsPos d) (c : SubRow → Bool) (f : SubRow → SubRow) (hf : ∀ r, (f r).id = r.id) :
    IdsPos { d with subs := d.subs.map (fun r => if c r then f r else r) } := by
  intro r hr
  obtain ⟨r0, h0, rfl⟩ := List.mem_map.mp hr
  split
  · rw [hf]; exact h r0 h0
  · exact h r0 h0

theorem idsPos_op (op : Op) : Sat (Keeps IdsPos) op.run := by
  refine Sat.op (Keeps.pre _) op ?_
  intro g hg d h
  cases hg with
  | create hv =>
    dsimp only [sqlCreate]
    split
    · exact h
    · intro r hr
      rcases List.mem_append.mp hr with hr | hr
      · exact h r hr
      · have := List.mem_singleton.mp hr; subst this
        show 0 < newId _
        unfold newId
        have := le_foldl_max (d.subs.map (·.id)) 0
        omega
  | del => exact fun r hr => h r (List.mem_filter.mp hr).1
  | del2 => exact h
  | del3 => exact h
  | aud2d => exact h
  | aud3d => exact h
  | aud2i _ _ => dsimp only [sqlInsAuc2]; split <;> exact h
  | aud3i _ _ => dsimp only [sqlInsAuc3]; split <;> exact h
  | msisdn hv =>
    dsimp only [sqlSetMsisdn]
    split
    · exact h
    · exact h.upd _ _ (fun _ => rfl)
  | noMsisdn => exact h.upd _ _ (fun _ => rfl)
  | imei hv => exact h.upd _ _ (fun _ => rfl)
  | @nam i v p | @purge i v p => cases p <;> exact h.upd _ _ (fun _ => rfl)
  | @lu1 i n p v t | @lu2 i n p v t => cases p <;> exact h.upd _ _ (fun _ => rfl)
  | ind _ => dsimp only [sqlIndAdd]; split <;> exact h
  | indDel _ => exact h
  | sqn => exact h

theorem reachable_idsPos (hist : List (Op × Script)) : IdsPos (runHist {} hist) :=
  runHist_keeps idsPos_op hist {} (fun _ h => by cases h)

/-- What holds of every reachable database. -/
structure Good (d : Db) : Prop where
  unique : Unique d
  idents : IdentitiesOk d
  pos : IdsPos d
  keys : KeysOk d

theorem good_op (op : Op) : Sat (Keeps Good) op.run := by
  intro w h
  exact ⟨unique_op op w h.unique, identitiesOk_op op w h.idents, idsPos_op op w h.pos, keysOk_op op w h.keys⟩

theorem good_empty : Good {} :=
  ⟨Db.Props.unique_empty, fun _ h => (by cases h), fun _ h => (by cases h), fun _ h => (by cases h), fun _ h => (by cases h)⟩

theorem reachable_good (hist : List (Op × Script)) : Good (runHist {} hist) :=
  runHist_keeps good_op hist {} good_empty

theorem digits_valid {lo hi : Nat} {t : Bytes} : isNDigits lo hi t = true ↔ Digits lo hi t := isNDigits_spec

/-- A selector that names a subscriber has a condition that only this one meets. -/
theorem selCond_names {d : Db} (hG : Good d) {sel : Bytes} {r : SubRow} (hr : r ∈ d.subs) (h : Names sel r)
    (hid : r.id < 2 ^ 63) : ∃ c, selCond sel = .ok c ∧ d.subs.find? c = some r := by
  have found : ∀ c : SubRow → Bool, c r = true → (∀ r' ∈ d.subs, c r' = true → r' = r) → d.subs.find? c = some r := by
    intro c h1 h2
    cases hf : d.subs.find? c with
    | none => exact absurd h1 (by simpa using List.find?_eq_none.mp hf r hr)
    | some r' =>
      have e1 : c r' = true := by have := List.find?_some hf; simpa using this
      rw [h2 r' (List.mem_of_find?_eq_some hf) e1]
  obtain ⟨i1, i2, -⟩ := hG.idents r hr
  rcases h with rfl | ⟨m, hm, rfl⟩ | ⟨t, n, rfl, hn, he⟩
  · refine ⟨(·.imsi == r.imsi), ?_, found _ (by simp) fun r' hr' e => ?_⟩
    · have hv : imsiValid r.imsi = true := digits_valid.mpr i1
      show selCond (byImsi ++ r.imsi) = _
      unfold selCond
      rw [if_pos (startswith_append _ _), List.drop_left, hv]
      rfl
    · exact eq_of_nodup_map hG.unique.imsis hr' hr (by simpa using e)
  · refine ⟨(·.msisdn == some m), ?_, found _ (by simp [hm]) fun r' hr' e => ?_⟩
    · have hv : msisdnValid m = true := digits_valid.mpr (i2 m hm)
      show selCond (byMsisdn ++ m) = _
      unfold selCond
      rw [if_neg (by simp [startswith, byImsi_eq, byMsisdn_eq, List.isPrefixOf]), if_pos (startswith_append _ _), List.drop_left, hv]
      rfl
    · exact eq_of_nodup_filterMap hG.unique.msisdns hr' hr (x := m) (by simpa using e) hm
  · refine ⟨(·.id == r.id), ?_, found _ (by simp) fun r' hr' e => ?_⟩
    · obtain ⟨s1, s2⟩ := strtoll_numeral hn (by omega)
      show selCond (byId ++ t) = _
      unfold selCond
      rw [if_neg (by simp [startswith, byImsi_eq, byId_eq, List.isPrefixOf]), if_neg (by simp [startswith, byMsisdn_eq, byId_eq, List.isPrefixOf]),
        if_pos (startswith_append _ _), List.drop_left, if_neg (by simpa using s2), s1, he]
    · exact eq_of_nodup_map hG.unique.ids hr' hr (by simpa using e)

/-- Conversely, a subscriber found was named. -/
theorem selCond_found {d : Db} (hG : Good d) {sel : Bytes} {c : SubRow → Bool} {r : SubRow} (hc : selCond sel = .ok c)
    (hs : ∀ x ∈ sel, isSpace x = false ∧ x ≠ 43) (hf : d.subs.find? c = some r) : Names sel r := by
  have hr := List.mem_of_find?_eq_some hf
  have e : c r = true := by have := List.find?_some hf; simpa using this
  unfold selCond at hc
  split at hc
  · rename_i hp
    split at hc
    · cases hc
    · cases hc
      have e : r.imsi = sel.drop byImsi.length := by simpa using e
      left
      rw [e]
      exact isPrefixOf_drop hp
  · split at hc
    · rename_i hp
      split at hc
      · cases hc
      · cases hc
        have e : r.msisdn = some (sel.drop byMsisdn.length) := by simpa using e
        right; left
        exact ⟨_, e, isPrefixOf_drop hp⟩
    · split at hc
      · rename_i hp
        split at hc
        · cases hc
        · split at hc
          · cases hc
          · rename_i id hid
            cases hc
            have e : r.id = id := by simpa using e
            obtain ⟨n, hn, hN⟩ := strtoll_pos hid (by have := hG.pos r hr; omega)
              (fun x hx => hs x (List.mem_of_mem_drop hx))
            right; right
            exact ⟨_, n, isPrefixOf_drop hp, hN, by omega⟩
      · cases hc

/-! ## Running commands -/

/-- Every result of a lookup: no effect on the database. -/
theorem dbSel_run (c : SubRow → Bool) (w : World) : ∃ o, dbSel c w = (o, { db := w.db, script := w.script.tail })
    ∧ (o = none ∨ o = some (-EIO, none) ∨ (o = some (-ENOENT, none) ∧ w.db.subs.find? c = none)
      ∨ ∃ r, o = some (0, some r) ∧ w.db.subs.find? c = some r) := by
  obtain ⟨d, s⟩ := w
  unfold dbSel
  rw [bind_run]
  have key : ∀ t, ∃ o, (match (some (sqlSel c d).1, ({ db := (sqlSel c d).2, script := t } : World)) with
      | (some a, w') => (match a with
        | .row r => (pure (0, some r) : DbM (Int × Option SubRow))
        | .done => pure (-ENOENT, none)
        | .error => pure (-EIO, none)) w'
      | (none, w') => (none, w')) = (o, { db := d, script := t })
      ∧ (o = none ∨ o = some (-EIO, none) ∨ (o = some (-ENOENT, none) ∧ d.subs.find? c = none)
      ∨ ∃ r, o = some (0, some r) ∧ d.subs.find? c = some r) := by
    intro t
    unfold sqlSel
    cases hf : d.subs.find? c with
    | none => exact ⟨_, rfl, .inr (.inr (.inl ⟨rfl, rfl⟩))⟩
    | some r => exact ⟨_, rfl, .inr (.inr (.inr ⟨r, rfl, rfl⟩))⟩
  rcases s with _ | ⟨_ | _ | _, s⟩
  · exact key []
  · exact key s
  · exact ⟨_, rfl, .inr (.inl rfl)⟩
  · exact ⟨_, rfl, .inl rfl⟩

theorem dbSel_nil (c : SubRow → Bool) (d : Db) : dbSel c { db := d, script := [] } =
    (some (match d.subs.find? c with | some r => (0, some r) | none => (-ENOENT, none)), { db := d, script := [] }) := by
  unfold dbSel
  rw [bind_run]
  show (match (match d.subs.find? c with | some r => RRes.row r | none => RRes.done) with
    | .row r => (pure (0, some r) : DbM (Int × Option SubRow))
    | .done => pure (-ENOENT, none)
    | .error => pure (-EIO, none)) { db := d, script := [] } = _
  cases d.subs.find? c <;> rfl

theorem withSub_nil {sel : Bytes} {c : SubRow → Bool} {d : Db} {r : SubRow} (hc : selCond sel = .ok c)
    (hf : d.subs.find? c = some r) (k : HlrSubscr → DbM Reply) :
    exec (withSub sel k) d [] = exec (k (HlrSubscr.ofRow r)) d [] := by
  unfold withSub exec
  rw [bind_run, selectSub_eq, hc]
  dsimp only
  rw [dbSel_nil, hf]

end Verif.Prov
