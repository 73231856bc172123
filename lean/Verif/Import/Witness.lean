import Verif.Import.Props
/-! # C65: examples and counterexamples -/
namespace Verif.Import
open Verif Verif.Db Verif.Prov

/-- An OsmoNITB database with two subscribers. -/
def exNitb : Nitb :=
  { subs := [{ id := 1, imsi := b "262420000000017", ext := some (b "1001"), expire := some 1500000000 },
             { id := 2, imsi := b "262420000000025", ext := none, authorized := 0, expire := some 1500000000 }]
    equips := [{ id := 7, imei := b "357613004448485", updated := 10 }, { id := 8, imei := b "490154203237518", updated := 20 }]
    watches := [{ sub := 1, equip := 7, updated := 11 }, { sub := 1, equip := 8, updated := 19 }]
    keys := [{ sub := 1, algo := 1, blob := some (encodeBinary 5 [1, 2, 3, 4, 5, 6, 7, 8, 9, 10, 11, 12, 13, 14, 15, 255]) }] }

/-- An HLR database with another subscriber. -/
def exHlr : Db :=
  { subs := [{ id := 3, imsi := b "901700000000001", msisdn := some (b "42") }]
    auc2 := [{ id := 3, algo := .comp128v1, ki := b "00112233445566778899aabbccddeeff" }] }

theorem exNitb_plain : Plain exNitb := by
  refine ⟨by decide +kernel, ?_, by decide +kernel, ?_, by decide +kernel, by decide +kernel, by decide +kernel, ?_, ?_⟩
  · intro n hn
    simp only [exNitb, List.mem_cons, List.not_mem_nil, or_false] at hn
    rcases hn with rfl | rfl <;> (unfold Digits; decide +kernel)
  · intro n hn m hm
    simp only [exNitb, List.mem_cons, List.not_mem_nil, or_false] at hn
    rcases hn with rfl | rfl
    · cases hm; unfold Digits; decide +kernel
    · cases hm
  · intro n hn
    simp only [exNitb, List.mem_cons, List.not_mem_nil, or_false] at hn
    rcases hn with rfl | rfl <;> exact ⟨1500000000, rfl, by decide, by decide⟩
  · intro k hk
    simp only [exNitb, List.mem_cons, List.not_mem_nil, or_false] at hk
    subst hk
    exact ⟨by decide, 5, _, rfl, by decide⟩

-- the hypotheses of `c65_import_partial` are met …
example : Plain exNitb ∧ Fresh exNitb exHlr ∧ Unique exHlr ∧ NoOrphanKeys exHlr ∧ ({} : Reads).Good := by
  refine ⟨exNitb_plain, ⟨by decide +kernel, ?_⟩, by constructor <;> decide +kernel, by constructor <;> decide +kernel, rfl, rfl, rfl, fun _ => rfl⟩
  intro n hn r hr m hm
  simp only [exNitb, exHlr, List.mem_cons, List.not_mem_nil, or_false] at hn hr
  rcases hn with rfl | rfl
  · subst hr; cases hm; decide +kernel
  · cases hm
-- … and two interrupted runs leave parts of the import behind
example :
    (exec (importNitb exNitb {}) exHlr [.ok, .ok, .ioerr, .ok, .ok, .ok, .ok, .ok, .crash]).1 = none
    ∧ (exec (importNitb exNitb {}) exHlr [.ok, .ok, .ioerr, .ok, .ok, .ok, .ok, .ok, .crash]).2.subs.length = 2
    ∧ (exec (importNitb exNitb {}) exHlr []).2
      = { subs := [{ id := 3, imsi := b "901700000000001", msisdn := some (b "42") },
            { id := 4, imsi := b "262420000000017", msisdn := some (b "1001"), imei := some (b "49015420323751"), lastLu := some 1499996340 },
            { id := 5, imsi := b "262420000000025", namCs := false, namPs := false, lastLu := some 1499996340 }]
          auc2 := [{ id := 3, algo := .comp128v1, ki := b "00112233445566778899aabbccddeeff" },
            { id := 4, algo := .comp128v1, ki := b "0102030405060708090a0b0c0d0e0fff" }] } := by decide +kernel
-- `c65_decode`: all escapes occur
example : encodeBinary 5 [5, 6, 44, 7] = [5, 1, 1, 1, 2, 1, 40, 2, 0]
    ∧ decodeBinary [5, 1, 1, 1, 2, 1, 40, 2, 0] = some [5, 6, 44, 7] := by decide +kernel
-- `c65_others`: a subscriber that is not imported, and one that is
example : (∀ n ∈ exNitb.subs, imsiStr n.imsi ≠ b "901700000000001")
    ∧ (exec (importNitb exNitb {}) exHlr [.ok, .ok, .ok, .ok, .ok, .ok, .ok, .ok, .crash]).1 = none := by decide +kernel

/-! ## Where the import falls short -/

/-- C65 violated: a subscriber the HLR knows already is not kept: number, IMEI, access, time of
last contact and 2G key are replaced by those of OsmoNITB, and the tool reports success. -/
theorem c65_existing_violated : ∃ (d : Db) (r : SubRow) (a : Auc2), Unique d ∧ NoOrphanKeys d ∧ r ∈ d.subs ∧ key2 d r.id = some a
    ∧ (exec (importNitb exNitb {}) d []).1 = some (.status 0)
    ∧ r ∉ (exec (importNitb exNitb {}) d []).2.subs
    ∧ key2 (exec (importNitb exNitb {}) d []).2 r.id ≠ some a :=
  ⟨{ subs := [{ id := 1, imsi := b "262420000000017", msisdn := some (b "4917012345"), vlr := some (b "msc-1") }],
     auc2 := [{ id := 1, algo := .comp128v3, ki := b "00112233445566778899aabbccddeeff" }] },
   { id := 1, imsi := b "262420000000017", msisdn := some (b "4917012345"), vlr := some (b "msc-1") },
   { id := 1, algo := .comp128v3, ki := b "00112233445566778899aabbccddeeff" },
   by constructor <;> decide +kernel, by constructor <;> decide +kernel, by decide +kernel, by decide +kernel,
   by decide +kernel, by decide +kernel, by decide +kernel⟩

theorem decGo_head (f n : Nat) (h : 1 ≤ n) (hf : n < 10 ^ f) : (Mslookup.Mdns.decGo f n).head? ≠ some 48 := by
  induction f generalizing n with
  | zero => simp at hf; omega
  | succ f ih =>
    unfold Mslookup.Mdns.decGo
    split
    · intro e
      rename_i h10
      injection e with e
      have : (48 + n).toUInt8.toNat = 48 := by rw [e]; rfl
      rw [Mslookup.Mdns.toNat_toUInt8] at this
      omega
    · rename_i h10
      have := ih (n / 10) (by omega) (by rw [Nat.pow_succ] at hf; omega)
      rw [List.head?_append]
      intro e
      rcases hh : (Mslookup.Mdns.decGo f (n / 10)).head? with _ | x
      · obtain ⟨_, _, h3⟩ := Mslookup.Mdns.decGo_spec f (n / 10)
        cases f with
        | zero => simp at hf; omega
        | succ f => exact h3 (by omega) (List.head?_eq_none_iff.1 hh)
      · rw [hh] at e this
        exact this e

/-- C65 violated: no subscriber whose IMSI begins with a zero (country codes 001 of test networks
and 0xx) is imported under its IMSI. -/
theorem c65_zero_violated (t : Bytes) (h : Digits 6 15 t) (hz : t.head? = some 48) : imsiStr t ≠ t := by
  intro e
  unfold imsiStr at e
  rw [atoll_digits h.2.2 (by have := h.2.1; omega), if_neg (by omega)] at e
  have e : Mslookup.Mdns.decGo 20 (leadDigits 0 t) = t := e
  by_cases h0 : leadDigits 0 t = 0
  · rw [h0] at e
    have h6 := h.1
    rw [← e] at h6
    exact absurd h6 (by decide +kernel)
  · have hlt := leadDigits_lt t h.2.2 0
    have : (10 : Nat) ^ t.length ≤ 10 ^ 20 := Nat.pow_le_pow_right (by decide) (by have := h.2.1; omega)
    have := decGo_head 20 (leadDigits 0 t) (by omega) (by omega)
    rw [e] at this
    exact this hz

-- such a subscriber: it is imported as somebody else, and the tool reports success
example : (Digits 6 15 (b "001010000000001") ∧ (b "001010000000001").head? = some 48)
    ∧ (exec (importNitb { subs := [{ id := 1, imsi := b "001010000000001", expire := some 1500000000 }] } {}) {} []).1 = some (.status 0)
    ∧ (exec (importNitb { subs := [{ id := 1, imsi := b "001010000000001", expire := some 1500000000 }] } {}) {} []).2.subs.map (·.imsi)
      = [b "1010000000001"] := by unfold Digits; decide +kernel

/-- C65 violated: a subscriber who was never seen is imported as seen before 1970, one whose
subscription expires after January 2038 as seen 136 years earlier. -/
theorem c65_time_violated :
    (exec (importNitb { subs := [{ id := 1, imsi := b "262420000000017" }] } {}) {} []).2.subs.map (·.lastLu) = [some (-3660)]
    ∧ (exec (importNitb { subs := [{ id := 1, imsi := b "262420000000017", expire := some 2208988800 }] } {}) {} []).2.subs.map (·.lastLu)
      = [some (2208988800 - 3660 - 2 ^ 32)] := by decide +kernel

/-- C65 violated: the exit status does not tell whether the subscribers were imported.  Whatever
fails on the HLR database, and if the OsmoNITB database cannot be read to its end, it is that of
success (unless the tool dies). -/
theorem c65_status_violated :
    (∀ N F d s, F.openOk = true → F.prepOk = true →
      (exec (importNitb N F) d s).1 = none ∨ (exec (importNitb N F) d s).1 = some .ub
      ∨ (exec (importNitb N F) d s).1 = some (.status 0))
    ∧ exec (importNitb exNitb {}) {} [.ioerr, .ok, .ok, .ok, .ok, .ok, .ok, .ioerr] = (some (.status 0), {})
    ∧ exec (importNitb exNitb { rows := some 0 }) {} [] = (some (.status 0), {}) := by
  refine ⟨?_, by decide +kernel, by decide +kernel⟩
  intro N F d s ho hp
  unfold importNitb Db.exec
  rw [ho, hp, if_neg (by decide), bind_run]
  generalize importSubs N F _ { db := d, script := s } = x
  rcases x with ⟨_ | _ | _, w⟩
  · exact .inl rfl
  · exact .inr (.inr rfl)
  · exact .inr (.inl rfl)

/-- C65 violated: a number the HLR has given to somebody else is dropped, one of more than 15
digits is cut; both silently. -/
theorem c65_number_violated :
    (exec (importNitb exNitb {}) { subs := [{ id := 1, imsi := b "901700000000001", msisdn := some (b "1001") }] } []).1 = some (.status 0)
    ∧ ((exec (importNitb exNitb {}) { subs := [{ id := 1, imsi := b "901700000000001", msisdn := some (b "1001") }] } []).2.subs.map (·.msisdn))
      = [some (b "1001"), none, none]
    ∧ (exec (importNitb { subs := [{ id := 1, imsi := b "262420000000017", ext := some (b "1234567890123456"), expire := some 1500000000 }] } {}) {} []).2.subs.map (·.msisdn)
      = [some (b "123456789012345")] := by decide +kernel

/-- A subscriber of OsmoNITB with key data `blob`. -/
def badSub : NSub := { id := 1, imsi := b "262420000000017", expire := some 1500000000 }
def badKey (blob : Option Bytes) : Nitb := { subs := [badSub], keys := [{ sub := 1, algo := 1, blob := blob }] }

theorem decode_beyond {t : Bytes} (h : 0 ∉ t.tail) : decodeBinary t = none := by
  have loop : ∀ (k : Nat) (e : UInt8) (t : Bytes), t.length ≤ k → 0 ∉ t → decodeLoop e t = none := by
    intro k
    induction k with
    | zero =>
      intro e t hl _
      rw [List.eq_nil_of_length_eq_zero (Nat.le_zero.1 hl)]
      rfl
    | succ k ih =>
      intro e t hl h0
      cases t with
      | nil => rfl
      | cons c t =>
        have hc : c ≠ 0 := fun h => h0 (by rw [h]; exact List.mem_cons_self)
        have ht : (0 : UInt8) ∉ t := fun h => h0 (List.mem_cons_of_mem _ h)
        have hl : t.length ≤ k := by simpa using hl
        by_cases h1 : c = 1
        · subst h1
          cases t with
          | nil => rfl
          | cons x t =>
            rw [decodeLoop, if_neg (by decide), if_pos rfl, ih e t (by simp at hl; omega) (fun h => ht (List.mem_cons_of_mem _ h))]
            rfl
        · rw [decodeLoop_plain e c t hc h1, ih e t hl ht]
          rfl
  cases t with
  | nil => rfl
  | cons e t => exact loop t.length e t (Nat.le_refl _) h

/-- C65 violated: a key that is NULL, empty or lacks the final NUL makes the tool read memory that
does not belong to the key. -/
theorem c65_key_violated (blob : Option Bytes) (h : blob = none ∨ ∃ t, blob = some t ∧ t.length ≤ 4096 ∧ 0 ∉ t.tail) :
    (exec (importNitb (badKey blob) {}) {} []).1 = some .ub := by
  have key : ∀ hid, importKeys (badKey blob) {} 1 hid = pure .ub := by
    intro hid
    unfold importKeys
    rw [if_neg (by decide)]
    have : List.filter (fun k : NKey => k.sub == int32 1) (badKey blob).keys = [{ sub := 1, algo := 1, blob := blob }] := by
      show List.filter _ [_] = _
      rw [List.filter_cons, if_pos (show ((1 : Int) == int32 1) = true by decide)]
      rfl
    rw [this]
    dsimp only
    rcases h with rfl | ⟨t, rfl, hl, h0⟩
    · rfl
    · dsimp only
      rw [if_neg (by omega), decode_beyond h0]
  have hsub : (importSub (badKey blob) {} badSub { db := {}, script := [] }).1 = some .ub := by
    have ei : imeiCol (badKey blob) badSub = [] := rfl
    unfold importSub
    rw [ei]
    have e1 : ∀ k : Int × Option SubRow → DbM End, ((do
        let _ ← subscrCreate (imsiStr badSub.imsi) true true
        if expireCol badSub - 3660 < -2 ^ 31 then pure .ub
        else do
          let _ ← updateMsisdn (imsiStr badSub.imsi) (some (textCol badSub.ext))
          let _ ← setImei (imsiStr badSub.imsi) []
          let _ ← updateLuByImsi (imsiStr badSub.imsi) (expireCol badSub - 3660)
          let _ ← subscrNam (imsiStr badSub.imsi) (int32 badSub.authorized != 0) true
          let _ ← subscrNam (imsiStr badSub.imsi) (int32 badSub.authorized != 0) false
          let r ← getByImsi (imsiStr badSub.imsi)
          k r : DbM End) { db := {}, script := [] })
        = k (0, some { id := 1, imsi := b "262420000000017", lastLu := some 1499996340 })
            { db := { subs := [{ id := 1, imsi := b "262420000000017", lastLu := some 1499996340 }] }, script := [] } := by
      intro k
      rfl
    rw [e1]
    unfold importTail
    dsimp only
    rw [if_neg (by decide +kernel)]
    show (importKeys (badKey blob) {} 1 1 _).1 = _
    rw [key]
    rfl
  have hs : (importSubs (badKey blob) {} [badSub] { db := {}, script := [] }).1 = some .ub := by
    unfold importSubs
    rw [bind_run]
    rcases hx : importSub (badKey blob) {} badSub { db := {}, script := [] } with ⟨o, w⟩
    rw [hx] at hsub
    have hsub : o = some .ub := hsub
    subst hsub
    rfl
  have hm : importNitb (badKey blob) {} = (do
      let e ← importSubs (badKey blob) {} [badSub]
      pure e.exit) := rfl
  rw [hm]
  unfold Db.exec
  rw [bind_run]
  rcases hx : importSubs (badKey blob) {} [badSub] { db := {}, script := [] } with ⟨o, w⟩
  rw [hx] at hs
  have hs : o = some .ub := hs
  subst hs
  rfl

-- an unencoded key of 16 bytes without a zero
example : some [1, 2, 3, 4, 5, 6, 7, 8, 9, 10, 11, 12, 13, 14, 15, 16] = (none : Option Bytes)
    ∨ ∃ t : Bytes, some [1, 2, 3, 4, 5, 6, 7, 8, 9, 10, 11, 12, 13, 14, 15, 16] = some t ∧ t.length ≤ 4096 ∧ 0 ∉ t.tail :=
  .inr ⟨_, rfl, by decide, by decide⟩

/-- C65 violated: "The most recently associated IMEI" (help text): the query looks at when the
phone was last updated, with any subscriber, not at when this subscriber was seen with it. -/
theorem c65_imei_violated : ∃ N : Nitb, ∃ n ∈ N.subs, ∃ w ∈ N.watches, ∃ e ∈ N.equips,
    w.sub = n.id ∧ w.equip = e.id ∧ (∀ w' ∈ N.watches, w'.sub = n.id → w'.updated ≤ w.updated)
    ∧ (exec (importNitb N {}) {} []).2.subs.all (fun r => r.imsi != n.imsi || r.imei != some (e.imei.take 14)) = true :=
  ⟨{ exNitb with watches := [{ sub := 1, equip := 7, updated := 30 }, { sub := 1, equip := 8, updated := 19 }] },
   { id := 1, imsi := b "262420000000017", ext := some (b "1001"), expire := some 1500000000 }, by decide +kernel,
   { sub := 1, equip := 7, updated := 30 }, by decide +kernel, { id := 7, imei := b "357613004448485", updated := 10 }, by decide +kernel,
   by decide +kernel⟩

end Verif.Import
