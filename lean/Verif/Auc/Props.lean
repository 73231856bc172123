import Verif.Auc.Xor
/-!
# Properties C12–C17: authentication vectors

In all of them `past` is an arbitrary history of database operations and
authentication requests from an empty database, each under an arbitrary script of
statement failures and crashes; the cryptographic functions `c`, the random source
(`rands`, `rnd`) and the configuration are arbitrary.
-/
namespace Verif.Auc.Props
open Verif Verif.Db Verif.Hlr

/-! ## Example data -/

/-- Arbitrary but total cryptographic functions; an AUTS verifies if it is `[1]`. -/
def exCrypto : Crypto where
  gsm _ ki r := some (ki.take 2, r.take 2)
  umts _ k _ _ _ q r := some (UInt8.ofNat q :: k.take 2, k.take 3, r.take 3)
  auts _ _ _ _ _ t := if t == [1] then some 1000 else none

def exRands (i : Nat) : Option Bytes := some [UInt8.ofNat i, 7]

/-- The database of `Db.Props.exHist` (subscriber 1 has 2G and 3G keys), then 2G keys
for subscriber 2 and a subscriber without keys. -/
def exPast : List Ev :=
  Db.Props.exHist.map (fun p => Ev.db p.1 p.2)
  ++ [.db (.aud 2 (.gsm .comp128v3 (b "00112233445566778899aabbccddeeff"))) [],
      .db (.create (b "001010000000003") true true) []]

def exReq : SaiReq := { imsi := b "001010000000001", source := b "MSC-1" ++ [0], num := 3 }

def exSai (q : SaiReq) (s : Script) : Ev := .sai {} exCrypto exRands (fun _ => none) q s

/-! ## C12 -/

/-- C12, for all algorithms but XOR-3G (for that one see `c12_xor_constant` and
`c12_violated`): whatever happens after `past`, as long as the 3G keys of the subscriber are
not re-provisioned and they do not re-synchronise, the sequence numbers handed out
for them are strictly increasing (so pairwise distinct) and above the one stored.

The bound says that 48 bits suffice for the sequence numbers used (each request uses
up at most five steps of `2 ^ ind_bitlen`); see `c12_wraps` for why it is needed. -/
theorem c12_no_sqn_reuse_partial (past evs : List Ev) (id : Int) (imsi : Bytes) (a : Auc3)
    (hrow : ∃ r ∈ (runEvs {} past).subs, r.id = id ∧ r.imsi = imsi)
    (hkey : key3 (runEvs {} past) id = some a) (halg : a.algo ≠ .xor3g)
    (hplain : ∀ e ∈ evs, e.Plain id imsi)
    (hbound : (a.sqn / 2 ^ a.indBitlen + 5 * numSai evs + 1) * 2 ^ a.indBitlen ≤ 2 ^ 48) :
    (issued imsi (runEvs {} past) evs).Pairwise (· < ·)
    ∧ ∀ x ∈ issued imsi (runEvs {} past) evs, a.sqn < x ∧ x < 2 ^ 48 := by
  obtain ⟨h1, h2⟩ := issued_increasing id imsi evs a _ ⟨(reach_good past).1, hrow, hkey⟩ halg hplain hbound
  refine ⟨h1, fun x hx => ?_⟩
  obtain ⟨h3, h4⟩ := h2 x hx
  refine ⟨?_, h4⟩
  have := Nat.lt_div_mul_add (a := a.sqn) (Nat.two_pow_pos a.indBitlen)
  unfold slot at h3
  rw [Nat.add_mul, Nat.one_mul] at h3
  omega

/-- Requests from two VLRs, one of them failing to store, one crashing before it
stores, one for another subscriber, one after a location update. -/
def exEvs : List Ev :=
  [exSai exReq [], exSai { exReq with source := b "MSC-2" ++ [0] } [],
   exSai exReq [.ok, .ok, .ok, .ioerr], exSai exReq [.ok, .ok, .ok, .crash],
   .db (.lu 1 (b "MSC-2") false none (some 2000)) [],
   exSai { exReq with imsi := b "001010000000002" } [], exSai exReq []]

-- the hypotheses of C12 hold of a history in which nine numbers are handed out
example : (runEvs {} exPast).subs.any (fun r => r.id == 1 && r.imsi == b "001010000000001") = true
    ∧ (key3 (runEvs {} exPast) 1).any (fun a => a.sqn == 0 && a.indBitlen == 5) = true := by
  decide +kernel
example : ∀ e ∈ exEvs, e.Plain 1 (b "001010000000001") := by
  simp [exEvs, exSai, exReq, Ev.Plain]
example : issued (b "001010000000001") (runEvs {} exPast) exEvs
    = [33, 65, 97, 130, 162, 194, 225, 257, 289] := by decide +kernel

/-- Without the bound the statement fails: the sequence number wraps around. -/
theorem c12_wraps : ∃ (past evs : List Ev) (id : Int) (imsi : Bytes),
    (∃ r ∈ (runEvs {} past).subs, r.id = id ∧ r.imsi = imsi)
    ∧ (key3 (runEvs {} past) id).isSome ∧ (∀ e ∈ evs, e.Plain id imsi)
    ∧ ¬ (issued imsi (runEvs {} past) evs).Pairwise (· < ·) := by
  refine ⟨exPast ++ [.db (.sqn 1 (2 ^ 48 - 64)) []], [exSai exReq []], 1, b "001010000000001",
    ?_, by decide +kernel, by simp [exSai, exReq, Ev.Plain], by decide +kernel⟩
  have : (runEvs {} (exPast ++ [.db (.sqn 1 (2 ^ 48 - 64)) []])).subs.any
    (fun r => r.id == 1 && r.imsi == b "001010000000001") = true := by decide +kernel
  obtain ⟨r, hr, h⟩ := List.any_eq_true.mp this
  exact ⟨r, hr, by simpa using h⟩

/-- A subscriber with the algorithm XOR-3G and ind_bitlen 5. -/
def exXorPast : List Ev :=
  exPast ++ [.db (.aud 1 (.umts .xor3g (b "00112233445566778899aabbccddeeff") (b "00000000000000000000000000000000")
    false 5)) [], .db (.sqn 1 70) []]

theorem exXor_row : ∃ r ∈ (runEvs {} exXorPast).subs, r.id = 1 ∧ r.imsi = b "001010000000001" := by
  have : (runEvs {} exXorPast).subs.any
    (fun r => r.id == 1 && r.imsi == b "001010000000001") = true := by decide +kernel
  obtain ⟨r, hr, h⟩ := List.any_eq_true.mp this
  exact ⟨r, hr, by simpa using h⟩

/-- C12 fails for XOR-3G: whatever happens, every vector handed out for such a subscriber
carries one and the same sequence number, the stored one. -/
theorem c12_xor_constant (past evs : List Ev) (id : Int) (imsi : Bytes) (a : Auc3)
    (hrow : ∃ r ∈ (runEvs {} past).subs, r.id = id ∧ r.imsi = imsi)
    (hkey : key3 (runEvs {} past) id = some a) (halg : a.algo = .xor3g)
    (hplain : ∀ e ∈ evs, e.Plain id imsi) :
    ∀ x ∈ issued imsi (runEvs {} past) evs, x = a.sqn % 2 ^ 48 :=
  issued_xor id imsi a halg evs _ ⟨(reach_good past).1, hrow, hkey⟩ hplain

/-- C12 fails for XOR-3G: the sequence numbers handed out are 70, 70, 70, 70, 70, 70. -/
theorem c12_violated : ∃ (past evs : List Ev) (id : Int) (imsi : Bytes) (a : Auc3),
    (∃ r ∈ (runEvs {} past).subs, r.id = id ∧ r.imsi = imsi)
    ∧ key3 (runEvs {} past) id = some a ∧ (∀ e ∈ evs, e.Plain id imsi)
    ∧ (a.sqn / 2 ^ a.indBitlen + 5 * numSai evs + 1) * 2 ^ a.indBitlen ≤ 2 ^ 48
    ∧ ¬ (issued imsi (runEvs {} past) evs).Nodup :=
  ⟨exXorPast, [exSai exReq [], exSai exReq []], 1, b "001010000000001", (key3 (runEvs {} exXorPast) 1).get
    (by decide +kernel), exXor_row, by decide +kernel, by simp [exSai, exReq, Ev.Plain], by decide +kernel,
    by decide +kernel⟩

example : issued (b "001010000000001") (runEvs {} exXorPast) [exSai exReq [], exSai exReq []]
    = [70, 70, 70, 70, 70, 70] := by decide +kernel

/-! ## C13 -/

/-- C13: when vectors with UMTS part are returned, the sequence number of the last
of them is the one in the database (which holds 64 bits, AUTN 48).  The side
condition on the 2G algorithm concerns subscribers with separate 2G keys only; see
`c13_sqn_covered` for what holds without it. -/
theorem c13_sqn_persisted (past : List Ev) (cfg : Cfg) (c : Crypto) (rands : Nat → Option Bytes)
    (rnd : Nat → Option (Nat → UInt8)) (q : SaiReq) (s : Script) (vs : List Vec) (d' : Db)
    (h : exec (rxSai cfg c rands rnd q) (runEvs {} past) s = (some (.result vs), d'))
    (hgsm : ∀ al k r, c.gsm al k r ≠ none) :
    ∀ v x y, vs.getLast? = some v → v.umts = some (x, y) →
      ∃ r ∈ d'.subs, r.imsi = q.imsi ∧ ∃ a, key3 d' r.id = some a ∧ x = a.sqn % 2 ^ 48 := by
  intro v x y hl hv
  obtain ⟨id, g, u, ind, hk, hG, hi, hne, ok⟩ := rxSai_vecs (reach_good past) h
  obtain ⟨⟨r, hr, hri, hrid⟩, h2, h3⟩ := authKeys_keys hk
  refine ⟨r, hr, hri, ?_⟩
  rw [hrid]
  cases u with
  | none =>
    have := ok.from_ v (List.mem_of_getLast? hl)
    simp only [withSep, Option.map_none] at this
    unfold VecFrom at this
    cases g with
    | none => exact this.elim
    | some g => simp only at this; rw [hv] at this; simp at this
  | some u =>
    have := ok.last (fun x r _ => hgsm _ _ r) u v rfl hl
    cases hk3 : key3 d' id with
    | none => rw [hk3] at h3; simp at h3
    | some a =>
      rw [hk3] at h3
      refine ⟨a, rfl, ?_⟩
      have e := (load3_fields h3.symm).1
      rw [← e]
      simpa [Vec.sqn?, hv] using this

/-- C13: in any case (until the 48 bits are used up) the stored sequence number is at
least as high as that of every vector returned, so none of them can be returned
again. -/
theorem c13_sqn_covered (past : List Ev) (cfg : Cfg) (c : Crypto) (rands : Nat → Option Bytes)
    (rnd : Nat → Option (Nat → UInt8)) (q : SaiReq) (s : Script) (vs : List Vec) (d' : Db)
    (id : Int) (a : Auc3)
    (hrow : ∃ r ∈ (runEvs {} past).subs, r.id = id ∧ r.imsi = q.imsi)
    (hkey : key3 (runEvs {} past) id = some a) (hauts : q.auts = none)
    (hbound : (a.sqn / 2 ^ a.indBitlen + 6) * 2 ^ a.indBitlen ≤ 2 ^ 48)
    (h : exec (rxSai cfg c rands rnd q) (runEvs {} past) s = (some (.result vs), d')) :
    ∃ a', key3 d' id = some a' ∧ ∀ x ∈ sqnsOf vs, x ≤ a'.sqn := by
  have hOwn : Own id q.imsi a (runEvs {} past) := ⟨(reach_good past).1, hrow, hkey⟩
  by_cases hxor : a.algo = .xor3g
  · obtain ⟨h1, h2⟩ := rxSai_xor cfg c rands rnd q hauts id a hxor _ s hOwn
    rw [h] at h1 h2
    refine ⟨a, h1.key, fun x hx => ?_⟩
    rw [h2 vs rfl x hx]
    exact Nat.mod_le _ _
  have hpost := rxSai_post cfg c rands rnd q (I := Own id q.imsi a)
    (Q := fun o d' => ∃ x, SqnStep id q.imsi a (saiNum q.num) x d' ∧ o = x.map (saiAnswer cfg))
    (fun d h => h.uniq) (own_cod _ _ _) (own_ind _)
    (fun d h => ⟨none, .same h (by simp), rfl⟩)
    (fun d ind o d' h hpp => ⟨o, by
      rw [hauts] at hpp
      refine auc_step h hxor ?_ hpp
      refine Nat.le_trans (Nat.mul_le_mul_right _ ?_) hbound
      have := saiNum_le q.num
      unfold slot; omega, rfl⟩)
  obtain ⟨x, ⟨ind, m, len, a', hOwn', hlm, hmn, hmi, ha', hx⟩, ho⟩ := hpost.exec _ s hOwn
  rw [h] at ho hOwn'
  refine ⟨a', hOwn'.key, ?_⟩
  cases x with
  | none => simp at ho
  | some y =>
    simp only [Option.map_some, Option.some.injEq] at ho
    rw [hx vs (by rw [saiAnswer_result ho.symm])]
    intro z hz
    obtain ⟨k, hk, rfl⟩ := List.mem_map.mp hz
    rw [List.mem_range] at hk
    have hm0 : m ≠ 0 := by omega
    rw [ha', if_neg hm0]
    have : (slot a + (1 + k)) * 2 ^ a.indBitlen ≤ (slot a + m) * 2 ^ a.indBitlen :=
      Nat.mul_le_mul_right _ (by omega)
    dsimp only
    omega

/-- C13: if the statement that stores the sequence number fails, no vectors are
returned.  (The statement is the last one issued: whatever is issued before, failing
with the database unchanged by the request means no vectors with UMTS part.) -/
theorem c13_not_stored_no_vectors (c : Crypto) (rands : Nat → Option Bytes) (past : List Ev)
    (imsi : Bytes) (ind n : Nat) (ra au : Option Bytes) (sep : Bool) (f : Fault) (hf : f ≠ .ok)
    (id : Int) (g : Option Aud2) (u : Aud3)
    (hk : authKeys (runEvs {} past) imsi = .keys id g (some u)) :
    ∀ vs, (exec (dbGetAuc c rands imsi ind n ra au sep) (runEvs {} past) [.ok, f]).1
      ≠ some (.vecs vs) := by
  intro vs
  obtain ⟨hbl, hal⟩ := authKeys_u (reach_good past).2 hk
  generalize runEvs {} past = d at *
  have h1 : getAuthData imsi { db := d, script := [.ok, f] }
      = (some (authKeys d imsi), { db := d, script := [f] }) := by
    unfold getAuthData
    rw [bind_run]
    simp only [stmt, sqlAuc, authKeys]
    cases hf : List.find? (fun r => r.imsi == imsi) d.subs with
    | none => rfl
    | some r => rfl
  unfold exec dbGetAuc
  simp only [bind_run, h1, hk]
  have hbl' : ¬ 32 ≤ u.bl := by omega
  simp only [hbl', decide_false, Bool.false_eq_true, if_false, Option.map_some]
  obtain ⟨q, h2⟩ := (compute_snd c rands n g
    (some { u with ind := ind % 2 ^ u.bl, sep := sep }) ra au).2 _ rfl
  have hal' : (u.algo == Algo.none) = false := by simpa using hal
  simp only [aucFinish, h2, hal', Bool.false_eq_true, if_false, bind_run, updateSqn]
  cases f with
  | ok => exact absurd rfl hf
  | ioerr =>
    intro h
    have h' : some (AucRes.err (-1)) = some (.vecs vs) := h
    simp at h'
  | crash => simp [stmt]

-- vectors 33, 65, 97 are returned and 97 is stored; with a failing store nothing is
example : ((exec (rxSai {} exCrypto exRands (fun _ => none) exReq) (runEvs {} exPast) []).1 matches
      some (.result [_, _, _])) = true
    ∧ ((key3 (exec (rxSai {} exCrypto exRands (fun _ => none) exReq) (runEvs {} exPast) []).2 1).any
      (fun a => a.sqn == 97)) = true
    ∧ (exec (rxSai {} exCrypto exRands (fun _ => none) exReq) (runEvs {} exPast)
      [.ok, .ok, .ok, .ioerr]).1 = some (.error .netFail) := by decide +kernel

/-! ## C14 -/

/-- C14, for all algorithms but XOR-3G (see `c14_violated`): every sequence number handed out ends in the IND of the requesting VLR,
modulo `2 ^ ind_bitlen`.  The IND is the one assigned to the VLR in the database; if
none could be obtained (failing database, unusable name) it is 0, which is never
assigned to a VLR (`c14_ind_zero`). -/
theorem c14_sqn_carries_ind_partial (past : List Ev) (cfg : Cfg) (c : Crypto) (rands : Nat → Option Bytes)
    (rnd : Nat → Option (Nat → UInt8)) (q : SaiReq) (s : Script) (vs : List Vec) (d' : Db)
    (h : exec (rxSai cfg c rands rnd q) (runEvs {} past) s = (some (.result vs), d'))
    (r : SubRow) (hr : r ∈ d'.subs) (hri : r.imsi = q.imsi) (a : Auc3) (ha : key3 d' r.id = some a)
    (halg : a.algo ≠ .xor3g) :
    ∃ ind, (ind = 0 ∨ indOf d' (cstr q.source) = some ind)
      ∧ ∀ x ∈ sqnsOf vs, x % 2 ^ a.indBitlen = ind % 2 ^ a.indBitlen := by
  obtain ⟨id, g, u, ind, hk, hG, hi, hne, ok⟩ := rxSai_vecs (reach_good past) h
  refine ⟨ind, hi, ?_⟩
  obtain ⟨⟨r', hr', hri', hrid⟩, h2, h3⟩ := authKeys_keys hk
  have : r' = r := eq_of_nodup_map hG.1.imsis hr' hr (hri'.trans hri.symm)
  subst this
  subst hrid
  rw [ha] at h3
  obtain ⟨u', hu', -⟩ := load3_total (hG.2.2 a (List.mem_of_find?_eq_some ha))
  have hu : u = some u' := h3.trans hu'
  intro x hx
  have := ok.low u' hu (by rw [(load3_fields hu').2.2]; exact halg) x hx
  rw [(load3_fields hu').2.1] at this
  exact this

/-- C14 fails for XOR-3G: MSC-1 has the index 1 and gets vectors with the sequence number
70, whose low five bits are 6. -/
theorem c14_violated : ∃ (past : List Ev) (c : Crypto) (rands : Nat → Option Bytes) (q : SaiReq) (vs : List Vec),
    (exec (rxSai {} c rands (fun _ => none) q) (runEvs {} past) []).1 = some (.result vs)
    ∧ indOf (exec (rxSai {} c rands (fun _ => none) q) (runEvs {} past) []).2 (cstr q.source) = some 1
    ∧ ((key3 (runEvs {} past) 1).any (fun a => a.indBitlen == 5)) = true
    ∧ ∃ x ∈ sqnsOf vs, x % 2 ^ 5 = 6 := by
  have h : ((exec (rxSai {} exCrypto exRands (fun _ => none) exReq) (runEvs {} exXorPast) []).1.any
      (fun o => match o with | .result vs => (sqnsOf vs).any (fun x => x % 2 ^ 5 == 6) | _ => false)) = true := by
    decide +kernel
  cases ho : (exec (rxSai {} exCrypto exRands (fun _ => none) exReq) (runEvs {} exXorPast) []).1 with
  | none => rw [ho] at h; simp at h
  | some o =>
    rw [ho] at h
    cases o with
    | result vs =>
      obtain ⟨x, hx, h2⟩ := List.any_eq_true.mp (show (sqnsOf vs).any (fun x => x % 2 ^ 5 == 6) = true from h)
      exact ⟨exXorPast, exCrypto, exRands, exReq, vs, ho, by decide +kernel, by decide +kernel, x, hx, eq_of_beq h2⟩
    | error _ => simp at h
    | ub => simp at h

/-- C14: index 0 is not assigned to any VLR. -/
theorem c14_ind_zero (past : List Ev) (name : Bytes) : indOf (runEvs {} past) name ≠ some 0 := by
  intro h
  have hp : IndPos (runEvs {} past) := runEvs_indPos past {} (by simp [IndPos])
  unfold indOf at h
  cases hf : List.find? (fun r => r.vlr == name) (runEvs {} past).inds with
  | none => rw [hf] at h; simp at h
  | some x =>
    rw [hf] at h
    exact hp x (List.mem_of_find?_eq_some hf) (by simpa using h)

/-- C14: two VLRs whose INDs differ modulo `2 ^ ind_bitlen` never get the same
sequence number — for whatever stored sequence number and request. -/
theorem c14_vlrs_disjoint (bl i j x y : Nat) (hx : x % 2 ^ bl = i % 2 ^ bl)
    (hy : y % 2 ^ bl = j % 2 ^ bl) (hij : i % 2 ^ bl ≠ j % 2 ^ bl) : x ≠ y := by
  rintro rfl; exact hij (hx.symm.trans hy)

example : ((exec (rxSai {} exCrypto exRands (fun _ => none) { exReq with source := b "MSC-2" ++ [0] })
    (runEvs {} exPast) []).1 matches some (.result [_, _, _])) = true
    ∧ indOf (exec (rxSai {} exCrypto exRands (fun _ => none) { exReq with source := b "MSC-2" ++ [0] })
      (runEvs {} exPast) []).2 (b "MSC-2") = some 2 := by decide +kernel
-- a failing db_ind: IND 0
example : issued (b "001010000000001") (runEvs {} exPast) [exSai exReq [.ok, .ioerr, .ioerr]]
    = [32, 64, 96] := by decide +kernel

/-! ## C15 -/

/-- C15: number and kinds of the vectors.
* at most as many as requested, at most five; five is the default;
* each is computed from the keys stored for the IMSI asked for (`VecFrom`);
* resynchronisation needs both RAND and AUTS, and 3G keys. -/
theorem c15_number_and_kind (past : List Ev) (cfg : Cfg) (c : Crypto) (rands : Nat → Option Bytes)
    (rnd : Nat → Option (Nat → UInt8)) (q : SaiReq) (s : Script) (vs : List Vec) (d' : Db)
    (h : exec (rxSai cfg c rands rnd q) (runEvs {} past) s = (some (.result vs), d')) :
    (vs ≠ [] ∧ vs.length ≤ 5 ∧ (1 ≤ q.num → q.num ≤ 5 → vs.length ≤ q.num))
    ∧ ∃ id g u, authKeys d' q.imsi = .keys id g u
      ∧ (∀ v ∈ vs, VecFrom c g (u.map (fun a => { a with sep := q.sgs })) v)
      ∧ (q.rand.isSome ↔ q.auts.isSome) ∧ (q.auts.isSome → u.isSome) := by
  obtain ⟨id, g, u, ind, hk, hG, hi, hne, ok⟩ := rxSai_vecs (reach_good past) h
  have hl := ok.len
  refine ⟨⟨hne, Nat.le_trans hl (saiNum_le _), ?_⟩, id, g, u, hk, ok.from_, ok.args⟩
  intro h1 h2
  unfold saiNum at hl
  rw [if_pos ⟨by omega, h2⟩] at hl
  exact hl

/-- C15: the number is exact when neither the random source nor an algorithm fails. -/
theorem c15_exact_number (past : List Ev) (cfg : Cfg) (c : Crypto) (rands : Nat → Option Bytes)
    (rnd : Nat → Option (Nat → UInt8)) (q : SaiReq) (s : Script) (vs : List Vec) (d' : Db)
    (h : exec (rxSai cfg c rands rnd q) (runEvs {} past) s = (some (.result vs), d'))
    (hq : q.rand = none) (hrand : ∀ i, rands i ≠ none) (hgsm : ∀ al k r, c.gsm al k r ≠ none)
    (humts : ∀ al k o p s q r, c.umts al k o p s q r ≠ none) :
    vs.length = if 1 ≤ q.num ∧ q.num ≤ 5 then q.num else 5 := by
  obtain ⟨id, g, u, ind, hk, hG, hi, hne, ok⟩ := rxSai_vecs (reach_good past) h
  rw [ok.full hrand hgsm humts hq]
  rfl

-- 2G only, both, none; default number; AUTS without RAND
example : ((exec (rxSai {} exCrypto exRands (fun _ => none) { exReq with imsi := b "001010000000002" })
    (runEvs {} exPast) []).1 matches some (.result [⟨_, none, _, _⟩, _, _])) = true
    ∧ ((exec (rxSai {} exCrypto exRands (fun _ => none) { exReq with num := 9 })
    (runEvs {} exPast) []).1 matches some (.result [_, _, _, ⟨_, some _, _, _⟩, _])) = true
    ∧ (exec (rxSai {} exCrypto exRands (fun _ => none) { exReq with auts := some [1] })
    (runEvs {} exPast) []).1 = some (.error .netFail)
    ∧ (exec (rxSai {} exCrypto exRands (fun _ => none)
      { exReq with imsi := b "001010000000002", rand := some [2], auts := some [1] })
    (runEvs {} exPast) []).1 = some (.error .netFail) := by decide +kernel

/-! ## C16 -/

/-- C16, for all algorithms but XOR-3G (see `c16_violated`): with a valid AUTS reporting `ms`, the sequence numbers are strictly
increasing and all above the reported one: re-synchronisation applies to the first
vector, and to no other (else they would repeat). -/
theorem c16_resync_partial (past : List Ev) (cfg : Cfg) (c : Crypto) (rands : Nat → Option Bytes)
    (rnd : Nat → Option (Nat → UInt8)) (q : SaiReq) (s : Script) (vs : List Vec) (d' : Db)
    (h : exec (rxSai cfg c rands rnd q) (runEvs {} past) s = (some (.result vs), d'))
    (r t : Bytes) (hr : q.rand = some r) (ht : q.auts = some t)
    (id : Int) (g : Option Aud2) (u : Aud3) (hk : authKeys d' q.imsi = .keys id g (some u))
    (halg : u.algo ≠ .xor3g) (ms : Nat) (hms : c.auts u.algo u.k u.opc u.isOp r t = some ms)
    (hbound : (ms % 2 ^ 48 / 2 ^ u.bl + 6) * 2 ^ u.bl ≤ 2 ^ 48) :
    (sqnsOf vs).length = vs.length ∧ (sqnsOf vs).Pairwise (· < ·)
    ∧ ∀ x ∈ sqnsOf vs, ms % 2 ^ 48 < x := by
  obtain ⟨id', g', u', ind, hk', hG, hi, hne, ok⟩ := rxSai_vecs (reach_good past) h
  rw [hk] at hk'
  cases hk'
  rw [ok.auts u r t ms rfl halg hr ht hms (by
    refine Nat.le_trans (Nat.mul_le_mul_right _ ?_) hbound
    have := saiNum_le q.num; omega)]
  refine ⟨by simp, pairwise_slots _ _ _ _, ?_⟩
  intro x hx
  obtain ⟨k, hk, rfl⟩ := List.mem_map.mp hx
  have h1 := Nat.lt_div_mul_add (a := ms % 2 ^ 48) (Nat.two_pow_pos u.bl)
  have h2 : (ms % 2 ^ 48 / 2 ^ u.bl + 1) * 2 ^ u.bl
      ≤ (ms % 2 ^ 48 / 2 ^ u.bl + (1 + k)) * 2 ^ u.bl := Nat.mul_le_mul_right _ (by omega)
  rw [Nat.add_mul, Nat.one_mul] at h2
  omega

/-- C16 fails for XOR-3G: the USIM reports 1000, and all the vectors carry 1000. -/
theorem c16_violated : issued (b "001010000000001") (runEvs {} exXorPast)
      [exSai { exReq with rand := some [2], auts := some [1] } []] = [1000, 1000, 1000]
    ∧ exCrypto.auts .xor3g [] [] false [2] [1] = some 1000 := by
  decide +kernel

/-- C16: an AUTS that does not verify yields no vectors, and leaves the stored
sequence numbers alone. -/
theorem c16_bad_auts (past : List Ev) (cfg : Cfg) (c : Crypto) (rands : Nat → Option Bytes)
    (rnd : Nat → Option (Nat → UInt8)) (q : SaiReq) (s : Script)
    (r t : Bytes) (hr : q.rand = some r) (ht : q.auts = some t)
    (hbad : ∀ al k o p, c.auts al k o p r t = none) :
    (∀ vs d', exec (rxSai cfg c rands rnd q) (runEvs {} past) s ≠ (some (.result vs), d'))
    ∧ (exec (rxSai cfg c rands rnd q) (runEvs {} past) s).2.auc3 = (runEvs {} past).auc3 := by
  have hG := reach_good past
  constructor
  · intro vs d' h
    obtain ⟨id, g, u, ind, hk, hG, hi, hne, ok⟩ := rxSai_vecs hG h
    have hu := ok.args.2 (by rw [ht]; rfl)
    cases u with
    | none => simp at hu
    | some u => exact hne (ok.badAuts u r t rfl hr ht (hbad _ _ _ _))
  · generalize hd : runEvs {} past = d at *
    have cod : Sat (Keeps (fun x => Good x ∧ x.auc3 = d.auc3)) (createOnDemand cfg rnd q.imsi) :=
      fun w hw => ⟨createOnDemand_sat (Keeps.pre _) cfg rnd q.imsi (good_op _) (fun _ => good_op _) w
        hw.1, (cod_sameKeys cfg rnd q.imsi w).2.trans hw.2⟩
    have ind : Sat (Keeps (fun x => Good x ∧ x.auc3 = d.auc3)) (dbInd q.source) :=
      fun w hw => ⟨dbInd_sat (Keeps.pre _) q.source (good_op _) w hw.1,
        (dbInd_sameKeys q.source w).2.trans hw.2⟩
    refine (rxSai_post cfg c rands rnd q (I := fun x => Good x ∧ x.auc3 = d.auc3)
      (Q := fun _ x => x.auc3 = d.auc3) (fun _ h => h.1.1) cod ind (fun _ h => h.2)
      (fun d1 i o d' h ha => ?_)).exec d s ⟨hG, rfl⟩
    rw [← h.2]
    cases ha with
    | @stored id g u r' a hk hbl ha hc =>
      have : a.sqn = u.sqn := by
        unfold computeVectors at hc
        rw [hr, ht] at hc
        dsimp only at hc
        rw [filter_algo (u := { u with ind := i % 2 ^ u.bl, sep := q.sgs }) ha] at hc
        simp only [Option.isNone_some, Bool.and_false, Bool.false_eq_true, if_false] at hc
        rw [vecLoop_bad_auts c rands _ r t _ _ (.inl (hbad _ _ _ _))] at hc
        simp only [Prod.mk.injEq, Option.some.injEq] at hc
        rw [← hc.2]
      rw [this]
      obtain ⟨-, -, h3⟩ := authKeys_keys hk
      cases hk3 : key3 d1 id with
      | none => rw [hk3] at h3; simp at h3
      | some x =>
        rw [hk3] at h3
        rw [(load3_fields h3.symm).1]
        show d1.auc3.map _ = d1.auc3
        conv => rhs; rw [← List.map_id d1.auc3]
        apply List.map_congr_left
        intro y hy
        split
        · rename_i hyid
          have hx := List.mem_of_find?_eq_some hk3
          have hxid : x.id = id := by have := List.find?_some hk3; simpa using this
          have : y = x := eq_of_nodup_map h.1.1.keys3 hy hx
            ((by simpa using hyid : y.id = id).trans hxid.symm)
          subst this
          rfl
        · rfl
    | _ => rfl

example : issued (b "001010000000001") (runEvs {} exPast)
    [exSai { exReq with rand := some [2], auts := some [1] } []] = [1025, 1057, 1089] := by
  decide +kernel
example : issued (b "001010000000001") (runEvs {} exPast)
    [exSai { exReq with rand := some [2], auts := some [9] } [], exSai exReq []] = [33, 65, 97] := by
  decide +kernel

/-! ## C17 -/

/-- C17: whatever fails, a request is answered (unless the process dies) with a
non-empty list of vectors, "IMSI unknown", the configured reject cause (only if the
subscriber does not exist) or "network failure"; no undefined behaviour.  (The
vectors are those of the subscriber asked for: C15.) -/
theorem c17_outcomes (past : List Ev) (cfg : Cfg) (c : Crypto) (rands : Nat → Option Bytes)
    (rnd : Nat → Option (Nat → UInt8)) (q : SaiReq) (s : Script) (o : SaiOut) (d' : Db)
    (h : exec (rxSai cfg c rands rnd q) (runEvs {} past) s = (some o, d')) :
    (∃ vs, vs ≠ [] ∧ o = .result vs) ∨ (o = .error .imsiUnknown ∧ Known d' q.imsi)
    ∨ (o = .error cfg.rejectCause ∧ ¬ Known d' q.imsi) ∨ o = .error .netFail := by
  have hp := (rxSai_saiPost cfg c rands rnd q).exec _ s (reach_good past)
  rw [h] at hp
  rcases hp with hp | ⟨d1, ind, x, hG1, hi, ha, ho⟩
  · simp at hp
  · cases x with
    | none => simp at ho
    | some x =>
      simp only [Option.map_some, Option.some.injEq] at ho
      have hkn : Known d' q.imsi ↔ Known d1 q.imsi := by
        rcases aucPost_subs ha with e | ⟨i, q', e⟩
        · simp only at e; rw [e]
        · simp only at e; rw [e]; exact Iff.rfl
      rw [hkn]
      rcases aucPost_err hG1 ha with ⟨vs, rfl⟩ | rfl | rfl | ⟨rfl, hk⟩ | ⟨rfl, hk⟩
      · cases vs with
        | nil =>
          refine .inr (.inl ⟨ho, ?_⟩)
          obtain ⟨id, g, u, hk, -⟩ := aucPost_vecs hG1 ha
          obtain ⟨⟨r, hr, hri, -⟩, -⟩ := authKeys_keys hk
          exact hkn.mp ⟨r, hr, hri⟩
        | cons v l => exact .inl ⟨v :: l, by simp, ho⟩
      · exact .inr (.inr (.inr ho))
      · exact .inr (.inr (.inr ho))
      · exact .inr (.inr (.inl ⟨ho, hk⟩))
      · exact .inr (.inl ⟨ho, hk⟩)

/-- C17: without database failures the outcome is determined as follows (`d'` is the
database after the request; a subscriber created on demand counts as existing). -/
theorem c17_fault_free (past : List Ev) (cfg : Cfg) (c : Crypto) (rands : Nat → Option Bytes)
    (rnd : Nat → Option (Nat → UInt8)) (q : SaiReq) (s : Script) (hs : ∀ f ∈ s, f = .ok)
    (o : Option SaiOut) (d' : Db)
    (h : exec (rxSai cfg c rands rnd q) (runEvs {} past) s = (o, d')) :
    (¬ Known d' q.imsi → o = some (.error cfg.rejectCause))
    ∧ (∀ r ∈ d'.subs, r.imsi = q.imsi → key2 d' r.id = none → key3 d' r.id = none →
        o = some (.error .imsiUnknown))
    ∧ (∀ r ∈ d'.subs, r.imsi = q.imsi → key2 d' r.id ≠ none ∨ key3 d' r.id ≠ none →
        q.rand = none → q.auts = none →
        (∃ vs, vs ≠ [] ∧ o = some (.result vs)) ∨ o = some (.error .imsiUnknown)) := by
  rw [(rxSai_uniform cfg c rands rnd q).exec _ hs] at h
  obtain ⟨d1, ind, hG, e⟩ := rxSai_ok cfg c rands rnd q _ (reach_good past)
  rw [e] at h
  simp only [Prod.mk.injEq] at h
  obtain ⟨h1, h2⟩ := h
  have hpost := (dbGetAuc_post c rands q.imsi ind (saiNum q.num) q.rand q.auts q.sgs d1 hG.1).exec
    d1 [] rfl
  rw [h2] at hpost
  rw [dbGetAuc_ok c rands q.imsi ind (saiNum q.num) q.rand q.auts q.sgs d1 hG] at h1
  have hG' : Good d' := by
    rw [← h2]; exact (dbGetAuc_sat (Keeps.pre _) c rands _ _ _ _ _ _ (fun i x => good_op (.sqn i x))).exec d1 [] hG
  have hsub : d'.subs = d1.subs ∧ (∀ i, key2 d' i = key2 d1 i)
      ∧ (∀ i, key3 d' i = none ↔ key3 d1 i = none) := by
    rcases aucPost_subs hpost with e | ⟨i, q', e⟩
    · rw [e]; exact ⟨rfl, fun _ => rfl, fun _ => Iff.rfl⟩
    · rw [e]
      refine ⟨rfl, fun _ => rfl, fun j => ?_⟩
      show (d1.auc3.map _).find? _ = none ↔ d1.auc3.find? _ = none
      simp only [List.find?_eq_none, List.mem_map, forall_exists_index, and_imp,
        forall_apply_eq_imp_iff₂]
      refine forall_congr' fun x => forall_congr' fun _ => ?_
      split <;> rfl
  subst h1
  refine ⟨fun hk => ?_, fun r hr hri k2 k3 => ?_, fun r hr hri hk hra hau => ?_⟩
  · have : ¬ Known d1 q.imsi := by unfold Known at hk ⊢; rw [hsub.1] at hk; exact hk
    rw [authKeys_unknown this]
    rfl
  · rw [hsub.1] at hr
    rw [hsub.2.1] at k2
    rw [hsub.2.2] at k3
    rw [← hri, authKeys_ok hG.2 hG.1 hr, if_pos ⟨k2, k3⟩]
    rfl
  · rw [hsub.1] at hr
    rw [hsub.2.1, Ne, Ne, hsub.2.2] at hk
    rw [← hri, authKeys_ok hG.2 hG.1 hr, if_neg (by rintro ⟨a, b⟩; rcases hk with h | h <;> contradiction)]
    have hkeys : authKeys d1 r.imsi = .keys r.id ((key2 d1 r.id).bind load2) ((key3 d1 r.id).bind load3) := by
      rw [authKeys_ok hG.2 hG.1 hr, if_neg (by rintro ⟨a, b⟩; rcases hk with h | h <;> contradiction)]
    generalize hg : (key2 d1 r.id).bind load2 = g at hkeys
    generalize hu : (key3 d1 r.id).bind load3 = u at hkeys
    dsimp only
    obtain ⟨vs, hvs⟩ := computeVectors_some c rands (saiNum q.num) g
      (u.map (fun a => { a with ind := ind % 2 ^ a.bl, sep := q.sgs }))
      (fun x hx => authKeys_g hG.2 (hx ▸ hkeys))
      (by
        intro a ha
        cases u with
        | none => simp at ha
        | some u => cases ha; exact (authKeys_u hG.2 hkeys).2)
      (by
        rcases hk with h | h
        · left
          cases hk2 : key2 d1 r.id with
          | none => exact absurd hk2 h
          | some x =>
            obtain ⟨y, hy, -⟩ := load2_total (hG.2.1 x (List.mem_of_find?_eq_some hk2))
            rw [hk2] at hg
            rw [← hg]; simp [hy]
        · right
          cases hk3 : key3 d1 r.id with
          | none => exact absurd hk3 h
          | some x =>
            obtain ⟨y, hy, -⟩ := load3_total (hG.2.2 x (List.mem_of_find?_eq_some hk3))
            rw [hk3] at hu
            rw [← hu]; simp [hy])
    rw [hra, hau, hvs]
    cases vs with
    | nil => exact .inr rfl
    | cons v l => exact .inl ⟨v :: l, by simp, rfl⟩

/-- C17: a database failure while the keys are read or the sequence number is stored
is answered "network failure" (or by dying). -/
theorem c17_db_failure (past : List Ev) (cfg : Cfg) (c : Crypto) (rands : Nat → Option Bytes)
    (imsi : Bytes) (ind n : Nat) (ra au : Option Bytes) (sep : Bool) (s : Script) (f : Fault)
    (hf : f ≠ .ok) :
    ∀ o, (exec (dbGetAuc c rands imsi ind n ra au sep) (runEvs {} past) (f :: s)).1 = some o →
      saiAnswer cfg o = .error .netFail := by
  intro o h
  unfold exec dbGetAuc getAuthData at h
  cases f with
  | ok => exact absurd rfl hf
  | ioerr =>
    simp only [bind_run, stmt] at h
    have h' : some (AucRes.err (-EIO)) = some o := h
    cases h'
    rfl
  | crash => simp [bind_run, stmt] at h

/-- C17: of the keys, a request changes at most the sequence number of the
subscriber it asks for. -/
theorem c17_keys_kept (past : List Ev) (cfg : Cfg) (c : Crypto) (rands : Nat → Option Bytes)
    (rnd : Nat → Option (Nat → UInt8)) (q : SaiReq) (s : Script) (d' : Db)
    (hd : d' = (exec (rxSai cfg c rands rnd q) (runEvs {} past) s).2)
    (r : SubRow) (hr : r ∈ d'.subs) (hri : r.imsi = q.imsi) :
    d'.auc2 = (runEvs {} past).auc2
    ∧ ∃ n, d'.auc3 = (runEvs {} past).auc3.map
        (fun a => if a.id == r.id then { a with sqn := n } else a) := by
  subst hd
  exact rxSai_keys cfg c rands rnd q _ s (reach_good past) r hr hri

example : (exec (rxSai {} exCrypto exRands (fun _ => none) { exReq with imsi := b "001010000000009" })
      (runEvs {} exPast) []).1 = some (.error .imsiUnknown)
    ∧ (exec (rxSai { rejectCause := .plmnNotAllowed } exCrypto exRands (fun _ => none)
      { exReq with imsi := b "001010000000009" }) (runEvs {} exPast) []).1
      = some (.error .plmnNotAllowed)
    ∧ (exec (rxSai { rejectCause := .plmnNotAllowed } exCrypto exRands (fun _ => none)
      { exReq with imsi := b "001010000000003" }) (runEvs {} exPast) []).1
      = some (.error .imsiUnknown)
    ∧ (exec (rxSai {} exCrypto exRands (fun _ => none) exReq) (runEvs {} exPast)
      [.ok, .ok, .ioerr]).1 = some (.error .netFail) := by decide +kernel

end Verif.Auc.Props
