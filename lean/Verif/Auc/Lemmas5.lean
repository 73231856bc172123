import Verif.Auc.Lemmas4
/-! # What a request with vectors says -/
namespace Verif.Auc
open Verif Verif.Db Verif.Hlr

theorem load3_sqn {a : Auc3} {u : Aud3} (q : Nat) (h : load3 a = some u) :
    load3 { a with sqn := q } = some { u with sqn := q } := by
  unfold load3 at h ⊢
  split at h
  · simp at h
  · rename_i k hk
    rw [hk]
    dsimp only
    split at h
    · simp at h
    · rename_i o ho
      cases h
      cases hop : a.op with
      | none => rw [hop] at ho
      | some t => rw [hop] at ho

theorem key3_setSqn {d : Db} {id : Int} {q : Nat} {a : Auc3} (h : key3 d id = some a) :
    key3 (setSqn d id q) id = some { a with sqn := q } :=
  find_map_eq h

theorem authKeys_setSqn {d : Db} {imsi : Bytes} {id : Int} {g : Option Aud2} {u : Aud3} (q : Nat)
    (h : authKeys d imsi = .keys id g (some u)) :
    authKeys (setSqn d id q) imsi = .keys id g (some { u with sqn := q }) := by
  obtain ⟨-, h2, h3⟩ := authKeys_keys h
  unfold authKeys at h ⊢
  have hs : (setSqn d id q).subs = d.subs := rfl
  rw [hs]
  split at h
  · rename_i r hr
    have hid := (loadKeys_id h).1
    subst hid
    cases hk : key3 d r.id with
    | none => rw [hk] at h3; simp at h3
    | some a =>
      rw [hk] at h3 h
      rw [key3_setSqn hk]
      have e2 : key2 (setSqn d r.id q) r.id = key2 d r.id := rfl
      rw [e2]
      unfold loadKeys
      simp only [load3_sqn q h3.symm, ← h2]
  · simp at h

/-- `u` with the separation bit the request asks for. -/
abbrev withSep (sep : Bool) (u : Option Aud3) : Option Aud3 := u.map (fun a => { a with sep := sep })

theorem vecFrom_ind {c : Crypto} {g : Option Aud2} {a : Aud3} {s i : Nat} {v : Vec} :
    VecFrom c g (some { a with sqn := s, ind := i }) v ↔ VecFrom c g (some a) v := by
  cases g <;> exact Iff.rfl

/-- What holds when db_get_auc hands out `vs`. -/
structure VecsOk (c : Crypto) (rands : Nat → Option Bytes) (imsi : Bytes) (ind n : Nat)
    (ra au : Option Bytes) (sep : Bool) (vs : List Vec) (d' : Db) (g : Option Aud2)
    (u : Option Aud3) : Prop where
  len : vs.length ≤ n
  from_ : ∀ v ∈ vs, VecFrom c g (withSep sep u) v
  args : (ra.isSome ↔ au.isSome) ∧ (au.isSome → u.isSome)
  low : ∀ a, u = some a → a.algo ≠ .xor3g → ∀ x ∈ sqnsOf vs, x % 2 ^ a.bl = ind % 2 ^ a.bl
  last : (∀ x r, g = some x → c.gsm x.algo x.ki r ≠ none) →
    ∀ a v, u = some a → vs.getLast? = some v → v.sqn? = some (a.sqn % 2 ^ 48)
  full : (∀ i, rands i ≠ none) → (∀ al k r, c.gsm al k r ≠ none) →
    (∀ al k o p s q r, c.umts al k o p s q r ≠ none) → ra = none → vs.length = n
  auts : ∀ a r t ms, u = some a → a.algo ≠ .xor3g → ra = some r → au = some t →
    c.auts a.algo a.k a.opc a.isOp r t = some ms →
    (ms % 2 ^ 48 / 2 ^ a.bl + n + 1) * 2 ^ a.bl ≤ 2 ^ 48 →
    sqnsOf vs = (List.range vs.length).map
      (fun k => (ms % 2 ^ 48 / 2 ^ a.bl + (1 + k)) * 2 ^ a.bl + ind % 2 ^ a.bl)
  badAuts : ∀ a r t, u = some a → ra = some r → au = some t →
    c.auts a.algo a.k a.opc a.isOp r t = none → vs = []

theorem compute_ok {c : Crypto} {rands : Nat → Option Bytes} {imsi : Bytes} {ind n : Nat}
    {ra au : Option Bytes} {sep : Bool} {vs : List Vec} {d' : Db} {g : Option Aud2}
    {u : Option Aud3} {s : Option Aud3}
    (hg : ∀ x, g = some x → x.algo ≠ .none) (hu : ∀ a, u = some a → a.algo ≠ .none ∧ a.bl ≤ 28)
    (h : computeVectors c rands n g (u.map (fun a => { a with ind := ind % 2 ^ a.bl, sep := sep }))
      ra au = (some vs, s)) :
    VecsOk c rands imsi ind n ra au sep vs d' g
      (match s, u with | some s, some u => some { u with sqn := s.sqn } | _, _ => none) := by
  unfold computeVectors at h
  dsimp only at h
  rw [filter_algo2 hg] at h
  have hfu : Option.filter (fun a : Aud3 => a.algo != Algo.none)
      (u.map (fun a => { a with ind := ind % 2 ^ a.bl, sep := sep }))
      = u.map (fun a => { a with ind := ind % 2 ^ a.bl, sep := sep }) := by
    cases u with
    | none => rfl
    | some a => exact filter_algo (u := { a with ind := ind % 2 ^ a.bl, sep := sep }) (hu a rfl).1
  rw [hfu] at h
  generalize hu0 : u.map (fun a => { a with ind := ind % 2 ^ a.bl, sep := sep }) = u0 at h
  split at h
  · simp at h
  · rename_i hne
    have core : ∀ rs, vecLoop c rands g rs n 0 u0 = (vs, s) →
        ((ra = none → rs = none) ∧ ∀ r t, ra = some r → au = some t → rs = some (r, t)) →
        ((ra.isSome ↔ au.isSome) ∧ (au.isSome → u.isSome)) →
        VecsOk c rands imsi ind n ra au sep vs d' g
          (match s, u with | some s, some u => some { u with sqn := s.sqn } | _, _ => none) := by
      intro rs hv hrs hargs
      have hfrom := vecLoop_from c rands g rs n 0 u0
      dsimp only at hfrom
      rw [hv] at hfrom
      obtain ⟨f1, f2, f3, f4⟩ := hfrom
      cases u with
      | none =>
        simp only [Option.map_none] at hu0
        subst hu0
        have hs := f3 rfl
        dsimp only at hs
        subst hs
        refine ⟨f1, ?_, hargs, by simp, by simp, ?_, by simp, by simp⟩
        · intro v hvm
          obtain ⟨k, hk, rfl⟩ := List.getElem_of_mem hvm
          exact (f2 k hk).1
        · intro h1 h2 h3 h4
          have : rs = none := hrs.1 h4
          subst this
          have := vecLoop_full c rands g h1 h2 h3 n 0 none (by
            cases g with
            | none => simp at hne
            | some _ => simp) (by simp)
          rw [hv] at this; exact this
      | some a =>
        simp only [Option.map_some] at hu0
        subst hu0
        obtain ⟨q, hs⟩ := f4 _ rfl
        dsimp only at hs
        subst hs
        refine ⟨f1, ?_, ?_, ?_, ?_, ?_, ?_, ?_⟩
        · intro v hvm
          obtain ⟨k, hk, rfl⟩ := List.getElem_of_mem hvm
          have := (f2 k hk).1
          cases g <;> exact this
        · exact ⟨hargs.1, by simp⟩
        · intro a' ha' hxor x hx
          cases ha'
          have := vecLoop_low c rands g rs n 0 { a with ind := ind % 2 ^ a.bl, sep := sep } hxor
          rw [hv] at this
          exact this x hx
        · intro hgg a' v ha' hl
          cases ha'
          obtain ⟨a'', e1, e2⟩ := vecLoop_last c rands g rs hgg n 0
            { a with ind := ind % 2 ^ a.bl, sep := sep } v (by rw [hv]; exact hl)
          rw [hv] at e1
          cases e1
          exact e2
        · intro h1 h2 h3 h4
          have : rs = none := hrs.1 h4
          subst this
          have := vecLoop_full c rands g h1 h2 h3 n 0
            (some { a with ind := ind % 2 ^ a.bl, sep := sep }) (by simp) (by
              intro a' ha'; cases ha'
              exact ⟨(hu a rfl).2, Nat.mod_lt _ (Nat.two_pow_pos _)⟩)
          rw [hv] at this; exact this
        · intro a' r t ms ha' hxor hr ht hc hb
          cases ha'
          dsimp only at hc hb
          have hrs := hrs.2 r t hr ht
          subst hrs
          by_cases hn0 : n = 0
          · subst hn0
            simp only [vecLoop, Prod.mk.injEq] at hv
            rw [← hv.1]; rfl
          · cases hr0 : rands 0 with
            | none =>
              have := vecLoop_bad_auts c rands g r t n { a with ind := ind % 2 ^ a.bl, sep := sep }
                (.inr hr0)
              rw [hv] at this
              simp only [Prod.mk.injEq] at this
              rw [this.1]; rfl
            | some x =>
              have e := vecLoop_auts c rands g r t n { a with ind := ind % 2 ^ a.bl, sep := sep } ms x
                hc hr0 (by omega)
              rw [hv] at e
              have h3 := vecLoop_3g c rands g none n 0
                { a with ind := ind % 2 ^ a.bl, sep := sep, sqn := ms % 2 ^ 48 } (.inl rfl) hxor hb
              dsimp only at h3
              rw [← e] at h3
              exact sqnsOf_of_map h3.1
        · intro a' r t ha' hr ht hc
          cases ha'
          have hrs := hrs.2 r t hr ht
          subst hrs
          have := vecLoop_bad_auts c rands g r t n { a with ind := ind % 2 ^ a.bl, sep := sep }
            (.inl hc)
          rw [hv] at this
          simp only [Prod.mk.injEq] at this
          exact this.1
    cases ra with
    | some r =>
      cases au with
      | none => simp at h
      | some t =>
        dsimp only at h
        split at h
        · simp at h
        · rename_i hns
          simp only [Prod.mk.injEq, Option.some.injEq] at h
          refine core (some (r, t)) (Prod.ext h.1 h.2)
            ⟨by simp, by intro r' t' e1 e2; cases e1; cases e2; rfl⟩ ⟨by simp, fun _ => ?_⟩
          subst hu0
          cases u <;> simp at hns ⊢
    | none =>
      cases au with
      | some t => simp at h
      | none =>
        simp only [Prod.mk.injEq, Option.some.injEq] at h
        refine core none (Prod.ext h.1 ?_) ⟨by simp, by simp⟩ ⟨by simp, by simp⟩
        obtain ⟨h1, h2⟩ := h
        rw [← h2]
        split
        · rename_i hnn
          have : u0 = none := by simpa using hnn
          rw [this]
          exact ((vecLoop_from c rands g none n 0 none).2.2.1 rfl)
        · rfl

/-- Vectors from db_get_auc on a sound database. -/
theorem aucPost_vecs {c : Crypto} {rands : Nat → Option Bytes} {imsi : Bytes} {ind n : Nat}
    {ra au : Option Bytes} {sep : Bool} {vs : List Vec} {d d' : Db} (hG : Good d)
    (h : AucPost c rands imsi ind n ra au sep d (some (.vecs vs)) d') :
    ∃ id g u, authKeys d' imsi = .keys id g u ∧ VecsOk c rands imsi ind n ra au sep vs d' g u := by
  generalize ho : (some (AucRes.vecs vs)) = o at h
  cases h with
  | died => simp at ho
  | eio => simp at ho
  | nokeys _ => simp at ho
  | ub _ _ => simp at ho
  | @only2g id g r hk hr =>
    obtain ⟨r1, r2⟩ := r
    simp only [Option.some.injEq] at ho
    cases r1 with
    | none => simp [aucRet] at ho
    | some l =>
      simp only [aucRet, AucRes.vecs.injEq] at ho
      subst ho
      refine ⟨id, g, none, hk, ?_⟩
      have := compute_ok (imsi := imsi) (ind := ind) (sep := sep) (u := none) (d' := d)
        (fun x hx => authKeys_g hG.2 (hx ▸ hk)) (by simp) hr
      simpa using this
  | @noalgo id g u r hk ha hr => exact absurd ha (authKeys_u hG.2 hk).2
  | unstored _ => simp at ho
  | @stored id g u r a hk hbl ha hr =>
    simp only [Option.some.injEq] at ho
    cases r with
    | none => simp [aucRet] at ho
    | some l =>
      simp only [aucRet, AucRes.vecs.injEq] at ho
      subst ho
      refine ⟨id, g, _, authKeys_setSqn a.sqn hk, ?_⟩
      have := compute_ok (imsi := imsi) (u := some u) (d' := setSqn d id a.sqn)
        (fun x hx => authKeys_g hG.2 (hx ▸ hk))
        (fun a' ha' => by cases ha'; exact ⟨ha, (authKeys_u hG.2 hk).1⟩) hr
      exact this

/-- Other outcomes of db_get_auc on a sound database: never undefined behaviour. -/
theorem aucPost_err {c : Crypto} {rands : Nat → Option Bytes} {imsi : Bytes} {ind n : Nat}
    {ra au : Option Bytes} {sep : Bool} {o : AucRes} {d d' : Db} (hG : Good d)
    (h : AucPost c rands imsi ind n ra au sep d (some o) d') :
    (∃ vs, o = .vecs vs) ∨ o = .err (-EIO) ∨ o = .err (-1)
      ∨ (o = .err (-ENOENT) ∧ ¬ Known d imsi) ∨ (o = .err (-ENOKEY) ∧ Known d imsi) := by
  generalize ho : some o = o' at h
  have ret : ∀ x, (∃ vs, aucRet x = .vecs vs) ∨ aucRet x = .err (-1) := by
    intro x; cases x with
    | none => exact .inr rfl
    | some l => exact .inl ⟨l, rfl⟩
  cases h with
  | died => simp at ho
  | eio => cases ho; exact .inr (.inl rfl)
  | @nokeys rc hk =>
    cases ho
    by_cases hn : Known d imsi
    · have := authKeys_known hk hn hG.2 hG.1
      subst this
      exact .inr (.inr (.inr (.inr ⟨rfl, hn⟩)))
    · rw [authKeys_unknown hn] at hk
      cases hk
      exact .inr (.inr (.inr (.inl ⟨rfl, hn⟩)))
  | ub hk hb => have := (authKeys_u hG.2 hk).1; omega
  | @only2g id g r hk hr =>
    cases ho
    rcases ret r.1 with h | h
    · exact .inl h
    · exact .inr (.inr (.inl h))
  | @noalgo id g u r hk ha hr => exact absurd ha (authKeys_u hG.2 hk).2
  | unstored _ => cases ho; exact .inr (.inr (.inl rfl))
  | @stored id g u r a hk hbl ha hr =>
    cases ho
    rcases ret r with h | h
    · exact .inl h
    · exact .inr (.inr (.inl h))

end Verif.Auc
