import Verif.Mslookup.ServerSpec
import Verif.Mslookup.ConfigProps
import Verif.Db.Uniform
/-!
# C41: the mslookup server answers only for subscribers served here; C48: ages
-/
namespace Verif.Mslookup.Props
open Verif Verif.Db Verif.Sys Verif.Gsup Verif.Mslookup

/-! ## C48 -/

/-- C48: an age is valid exactly if the time lies in the past by less than 2^32 seconds, and
then it is the number of seconds in between; otherwise it is the largest number. -/
theorem c48_age (c ts : Int) (v : Bool) (a : Nat) : timestampAge c ts = (v, a) ↔
    (v = true ∧ c = ts + a ∧ a < 2 ^ 32) ∨ (v = false ∧ a = 2 ^ 32 - 1 ∧ (c < ts ∨ ts + 2 ^ 32 ≤ c)) := by
  unfold timestampAge
  dsimp only
  split
  · rename_i h
    rw [Prod.mk.injEq]
    constructor
    · rintro ⟨rfl, rfl⟩
      exact .inr ⟨rfl, rfl, by omega⟩
    · rintro (⟨-, h1, h2⟩ | ⟨h1, h2, -⟩)
      · omega
      · exact ⟨h1.symm, h2.symm⟩
  · rename_i h
    rw [Prod.mk.injEq]
    constructor
    · rintro ⟨rfl, rfl⟩
      exact .inl ⟨rfl, by omega, by omega⟩
    · rintro (⟨h1, h2, h3⟩ | ⟨-, -, h3⟩)
      · exact ⟨h1.symm, by omega⟩
      · omega

/-- The offset of the local clock from UTC, leaving out daylight saving, is the same at both
times. -/
def SameOffset (z : Zone) (t t' : Int) : Prop := z t' - z t = t' - t

/-- C48: the age of a time stamp taken at `t` is the number of seconds elapsed since then, as
long as the standard offset of the local time zone is the same. -/
theorem c48_elapsed_partial (z : Zone) {t now : Int} (h : SameOffset z t now) (h1 : t ≤ now) (h2 : now - t < 2 ^ 32) :
    timestampAgeAt z now (timestampUpdate z t) = (true, (now - t).toNat) := by
  unfold SameOffset at h
  rw [timestampAgeAt, c48_age]
  unfold timestampUpdate
  exact .inl ⟨rfl, by omega, by omega⟩

/-- C48: with a fixed offset a future time stamp, or one older than 2^32 seconds, is refused. -/
theorem c48_refused (z : Zone) {t now : Int} (h : SameOffset z t now) (h1 : now < t ∨ t + 2 ^ 32 ≤ now) :
    timestampAgeAt z now (timestampUpdate z t) = (false, 4294967295) := by
  unfold SameOffset at h
  rw [timestampAgeAt, c48_age]
  unfold timestampUpdate
  exact .inr ⟨rfl, rfl, by omega⟩

/-- C48: a time stamp just taken has age 0, whatever the time zone. -/
theorem c48_now (z : Zone) (now : Int) : timestampAgeAt z now (timestampUpdate z now) = (true, 0) := by
  rw [timestampAgeAt, c48_age]
  exact .inl ⟨rfl, by simp, by decide⟩

/-- A fixed zone, one hour east of Greenwich. -/
def cet : Zone := fun t => t - 3600

example : SameOffset cet 1000000 1000090 ∧ timestampAgeAt cet 1000090 (timestampUpdate cet 1000000) = (true, 90) := by
  refine ⟨?_, by decide +kernel⟩
  show (1000090 : Int) - 3600 - (1000000 - 3600) = 1000090 - 1000000
  decide

/-- A zone whose standard offset grows from two to three hours. -/
def moved : Zone := fun t => if t < 1000000 then t - 7200 else t - 10800

/-- C48 fails when the standard offset of the local zone changes in between: a time stamp
taken a minute ago counts as lying in the future. -/
theorem c48_offset_violated : ∃ (z : Zone) (t now : Int), t ≤ now ∧ now - t < 2 ^ 32
    ∧ timestampAgeAt z now (timestampUpdate z t) ≠ (true, (now - t).toNat) :=
  ⟨moved, 999970, 1000030, by decide, by decide, by decide +kernel⟩

/-! ## C41: one answer -/

theorem exec_map (m : DbM α) (g : α → β) (d : Db) (sc : Script) :
    exec (do pure (g (← m))) d sc = ((exec m d sc).1.map g, (exec m d sc).2) := by
  unfold exec
  simp only [bind_run]
  rcases m { db := d, script := sc } with ⟨_ | a, w⟩ <;> rfl

theorem exec_pure (a : α) (d : Db) (sc : Script) : exec (pure a : DbM α) d sc = (some a, d) := rfl

/-- One SELECT: what it finds if it works. -/
theorem sel_exec (c : SubRow → Bool) (d : Db) (sc : Script) :
    (exec (dbSel c) d sc).1.map (·.2) = some (d.subs.find? c)
    ∨ ¬ AllOk sc ∧ ((exec (dbSel c) d sc).1.map (·.2) = some none ∨ (exec (dbSel c) d sc).1 = none) := by
  unfold exec dbSel
  simp only [bind_run]
  unfold stmt
  have key : ∀ w : World, (((match (sqlSel c d).1 with
      | .row r => pure (0, some r)
      | .done => pure (-ENOENT, none)
      | .error => pure (-EIO, none)) : DbM (Int × Option SubRow)) w).1.map (·.2) = some (d.subs.find? c) := by
    intro w
    unfold sqlSel
    cases d.subs.find? c <;> rfl
  cases sc with
  | nil => exact .inl (key _)
  | cons f s =>
    cases f with
    | ok => exact .inl (key _)
    | ioerr => exact .inr ⟨(fun h => by cases h _ List.mem_cons_self), .inl rfl⟩
    | crash => exact .inr ⟨(fun h => by cases h _ List.mem_cons_self), .inr rfl⟩

/-- Selecting a row by the id asked for. -/
def namesB : Id → SubRow → Bool
  | .none, _ => false
  | .imsi v, r => r.imsi == v
  | .msisdn v, r => r.msisdn == some v

theorem namesB_iff (id : Id) (r : SubRow) : namesB id r = true ↔ Spec.Names id r := by
  cases id <;> simp [namesB, Spec.Names]

theorem rowFor_exec (id : Id) (d : Db) (sc : Script) :
    (exec (rowFor id) d sc).1 = some (d.subs.find? (namesB id))
    ∨ ¬ AllOk sc ∧ ((exec (rowFor id) d sc).1 = some none ∨ (exec (rowFor id) d sc).1 = none) := by
  have sel : ∀ c : SubRow → Bool, (exec (do pure (← dbSel c).2) d sc).1 = some (d.subs.find? c)
      ∨ ¬ AllOk sc ∧ ((exec (do pure (← dbSel c).2) d sc).1 = some none
        ∨ (exec (do pure (← dbSel c).2) d sc).1 = none) := by
    intro c
    rw [exec_map (dbSel c) (·.2)]
    rcases sel_exec c d sc with h | ⟨h, h' | h'⟩
    · exact .inl h
    · exact .inr ⟨h, .inl h'⟩
    · exact .inr ⟨h, .inr (by rw [h']; rfl)⟩
  cases id with
  | none =>
    refine .inl ?_
    show some none = some (d.subs.find? _)
    have : d.subs.find? (namesB .none) = none := by
      rw [List.find?_eq_none]; intro x _; simp [namesB]
    rw [this]
  | imsi v => exact sel _
  | msisdn v => exact sel _

theorem rowFor_mem {id : Id} {d : Db} {sc : Script} {r : SubRow} (h : (exec (rowFor id) d sc).1 = some (some r)) :
    r ∈ d.subs ∧ Spec.Names id r := by
  rcases rowFor_exec id d sc with h' | ⟨-, h' | h'⟩
  · rw [h] at h'
    have h' := (Option.some.inj h').symm
    refine ⟨List.mem_of_find?_eq_some h', ?_⟩
    have := List.find?_some h'
    exact (namesB_iff id r).1 (by simpa using this)
  · rw [h] at h'; cases h'
  · rw [h] at h'; cases h'

theorem serverRx_exec {z : Zone} {now : Int} {c : Srv} {p : List ProxyEntry} {q : Query} (hq : q.service ≠ HLR_GSUP)
    (d : Db) (sc : Script) :
    (exec (serverRx z now c p q) d sc).1 = (exec (rowFor q.id) d sc).1.map fun row =>
      serviceAnswer c q.service (luHere (optAtt (luHereHlr z now c.maxAge) row)
        (optAtt (luHereProxy z now c.maxAge) (entryFor p q.id))) := by
  unfold serverRx
  rw [if_neg hq]
  rw [exec_map (rowFor q.id) fun row => serviceAnswer c q.service (luHere (optAtt (luHereHlr z now c.maxAge) row)
        (optAtt (luHereProxy z now c.maxAge) (entryFor p q.id)))]

theorem setStr_name (s : Bytes) : (ipaSetStr {} s).2.name = s.take 127 ++ [0] := (Node.msc s).ipa_name

theorem setStr_len (s : Bytes) : (ipaSetStr {} s).2.len ≠ 0 := by unfold ipaSetStr; simp

theorem fmtText_len {s t : Bytes} (h : fmtText s = some t) : t.length ≤ s.length := by
  induction s using fmtText.induct generalizing t with
  | case1 => cases h; exact Nat.le_refl _
  | case2 s' ih =>
    rw [fmtText, if_pos rfl] at h
    rw [if_pos rfl] at h
    obtain ⟨u, hu, rfl⟩ := Option.map_eq_some_iff.1 h
    have := ih hu
    simp only [List.length_cons]
    omega
  | case3 d s' hd =>
    rw [fmtText, if_pos rfl] at h
    rw [if_neg hd] at h
    cases h
  | case4 =>
    rw [fmtText, if_pos rfl] at h
    cases h
  | case5 c s hc ih =>
    rw [fmtText.eq_def] at h
    dsimp only at h
    rw [if_neg hc] at h
    obtain ⟨u, hu, rfl⟩ := Option.map_eq_some_iff.1 h
    have := ih hu
    simp only [List.length_cons]
    omega

theorem since_iff {z : Zone} {now t : Int} {maxAge a : Nat} :
    Spec.Since z now t maxAge a ↔ timestampAgeAt z now t = (true, a) ∧ ¬ a > maxAge := by
  rw [timestampAgeAt, c48_age]
  unfold Spec.Since timestampUpdate
  constructor
  · rintro ⟨h1, h2, h3⟩
    exact ⟨.inl ⟨rfl, h1, by omega⟩, by omega⟩
  · rintro ⟨⟨-, h1, h2⟩ | ⟨h, -, -⟩, h3⟩
    · exact ⟨h1, by omega, by omega⟩
    · cases h

theorem luHereHlr_yes {z : Zone} {now : Int} {maxAge : Nat} {r : SubRow} {a : Nat} {n : IpaName}
    (h : luHereHlr z now maxAge r = .yes a n) :
    ∃ vlr, r.vlr = some vlr ∧ vlr ≠ [] ∧ r.vlrViaProxy = none ∧ Spec.Since z now (parseLastLu z r.lastLu) maxAge a
      ∧ Spec.Stored vlr n := by
  unfold luHereHlr at h
  dsimp only at h
  split at h
  · cases h
  split at h
  · cases h
  rename_i hv
  split at h
  · cases h
  rename_i hp
  split at h
  · cases h
  rename_i ht
  split at h
  · cases h
  rename_i hm
  split at h
  · cases h
  rename_i s hs
  cases h
  cases hr : r.vlr with
  | none => rw [hr] at hv; exact absurd rfl hv
  | some vlr =>
    rw [hr] at hv hs
    have hne : vlr ≠ [] := by rintro rfl; exact hv rfl
    refine ⟨vlr, rfl, hne, by simpa using hp, ?_, ?_⟩
    · rw [since_iff]
      refine ⟨?_, hm⟩
      have : (timestampAgeAt z now (parseLastLu z r.lastLu)).1 = true := by simpa using ht
      exact Prod.ext this rfl
    · have hlen := fmtText_len hs
      have hs' : fmtText (vlr.take 31) = some s := hs
      have h31 : s.length ≤ 31 := Nat.le_trans hlen (by simp [strlcpy]; omega)
      have hn : (ipaSetStr {} s).2.name = s ++ [0] := by
        rw [setStr_name, List.take_of_length_le (by omega)]
      refine ⟨by rw [hs', hn]; simp, by rw [hn]; simp, (Node.msc s).ipa_wf, by rw [hn]; simp⟩

theorem luHereProxy_yes {z : Zone} {now : Int} {maxAge : Nat} {x : ProxySub} {a : Nat} {n : IpaName}
    (h : luHereProxy z now maxAge x = .yes a n) :
    x.cs.vlr = n ∧ x.cs.via.len = 0 ∧ Spec.Since z now x.cs.lastLu maxAge a := by
  unfold luHereProxy at h
  dsimp only at h
  split at h
  · cases h
  rename_i h1
  split at h
  · cases h
  rename_i h2
  cases h
  refine ⟨rfl, by omega, ?_⟩
  rw [since_iff]
  have : (timestampAgeAt z now x.cs.lastLu).1 = true := by
    cases hb : (timestampAgeAt z now x.cs.lastLu).1
    · exact absurd (.inl (by rw [hb]; rfl)) h1
    · rfl
  exact ⟨Prod.ext this rfl, fun e => h1 (.inr e)⟩

theorem entryFor_mem {p : List ProxyEntry} {id : Id} {x : ProxySub} (h : entryFor p id = some x) :
    ∃ e ∈ p, e.data = x ∧ Spec.PNames id x := by
  cases id with
  | none => cases h
  | imsi v =>
    obtain ⟨e, he, rfl⟩ := Option.map_eq_some_iff.1 h
    refine ⟨e, List.mem_of_find?_eq_some he, rfl, ?_⟩
    have := List.find?_some he
    simpa [Spec.PNames] using this
  | msisdn v =>
    obtain ⟨e, he, rfl⟩ := Option.map_eq_some_iff.1 h
    refine ⟨e, List.mem_of_find?_eq_some he, rfl, ?_⟩
    have := List.find?_some he
    simpa [Spec.PNames] using this

theorem luHere_yes {x y : Att} {a : Nat} {n : IpaName} (h : luHere x y = .yes a n) :
    n.len ≠ 0 ∧ (x = .yes a n ∨ y = .yes a n) ∧ (∀ a' n', x = .yes a' n' → a ≤ a') ∧ (∀ a' n', y = .yes a' n' → a ≤ a') := by
  cases x with
  | ub => cases h
  | no =>
    cases y with
    | ub => cases h
    | no => cases h
    | yes a' n' =>
      unfold luHere at h
      dsimp only at h
      split at h
      · cases h
      · cases h
        exact ⟨by assumption, .inr rfl, (fun _ _ h => by cases h), fun a' n' h => by cases h; exact Nat.le_refl _⟩
  | yes a1 n1 =>
    have one : ∀ {y : Att}, (∀ a n, y ≠ .yes a n) → (if n1.len = 0 then Att.no else .yes a1 n1) = .yes a n →
        n.len ≠ 0 ∧ (Att.yes a1 n1 = .yes a n ∨ y = .yes a n) ∧ (∀ a' n', Att.yes a1 n1 = .yes a' n' → a ≤ a')
        ∧ (∀ a' n', y = .yes a' n' → a ≤ a') := by
      intro y hy h
      split at h
      · cases h
      · cases h
        exact ⟨by assumption, .inl rfl, (fun a' n' h => by cases h; exact Nat.le_refl _), fun a' n' h => absurd h (hy a' n')⟩
    cases y with
    | ub => exact one (fun _ _ h => by cases h) h
    | no => exact one (fun _ _ h => by cases h) h
    | yes a2 n2 =>
      unfold luHere at h
      dsimp only at h
      split at h
      · split at h
        · cases h
        · cases h
          exact ⟨by assumption, .inr rfl, (fun a' n' h => by cases h; omega), fun a' n' h => by cases h; exact Nat.le_refl _⟩
      · split at h
        · cases h
        · cases h
          exact ⟨by assumption, .inl rfl, (fun a' n' h => by cases h; exact Nat.le_refl _), fun a' n' h => by cases h; omega⟩

theorem setResult_eq {h : Host} {a : Nat} (hr : (setResult h a).rc = .result) :
    setResult h a = { rc := .result, v4 := h.v4, v6 := h.v6, age := a } ∧ (h.v4.nonzero = true ∨ h.v6.nonzero = true) := by
  unfold setResult at hr ⊢
  split at hr
  · cases hr
  · rename_i hn
    rw [if_neg hn]
    refine ⟨rfl, ?_⟩
    simp only [Bool.not_eq_true', not_and, Bool.not_eq_false] at hn
    cases h4 : h.v4.nonzero
    · exact .inr (hn h4)
    · exact .inl rfl

theorem setResult_rc (h : Host) (a : Nat) : (setResult h a).rc = .result ∨ setResult h a = notFound := by
  unfold setResult
  split
  · exact .inr rfl
  · exact .inl rfl

theorem serviceAnswer_result {c : Srv} {svc : Bytes} {t : Att} {r : Result} (h : serviceAnswer c svc t = some r)
    (hr : r.rc = .result) : ∃ a n, t = .yes a n ∧ r.age = a ∧ Spec.Configured c.services n svc r
      ∧ (r.v4.nonzero = true ∨ r.v6.nonzero = true) := by
  cases t with
  | ub => cases h
  | no => cases h; cases hr
  | yes a n =>
    refine ⟨a, n, rfl, ?_⟩
    unfold serviceAnswer at h
    dsimp only at h
    have key : ∀ h : Host, some (setResult h a) = some r → (serviceGet c.services n svc = some h
        ∨ serviceGet c.services n svc = none ∧ serviceGet c.services {} svc = some h) →
        r.age = a ∧ Spec.Configured c.services n svc r ∧ (r.v4.nonzero = true ∨ r.v6.nonzero = true) := by
      intro x he hc
      cases he
      obtain ⟨e1, e2⟩ := setResult_eq hr
      rw [e1]
      exact ⟨rfl, ⟨x, hc, rfl, rfl⟩, e2⟩
    split at h
    · rename_i x hx
      exact key x h (.inl hx)
    · rename_i hx
      split at h
      · rename_i y hy
        exact key y h (.inr ⟨hx, hy⟩)
      · cases h; cases hr

/-- C41: a query for a service is answered with an address only if the database or the proxy
says that the subscriber is at a node connected to this HLR, with the age of that location
update, at most the configured maximum, and with the addresses configured for the node.  This
holds for every database, proxy, clock and failure. -/
theorem c41_service {z : Zone} {now : Int} {c : Srv} {p : List ProxyEntry} {q : Query} {d : Db} {sc : Script} {r : Result}
    (hq : q.service ≠ HLR_GSUP) (h : (exec (serverRx z now c p q) d sc).1 = some (some r)) (hr : r.rc = .result) :
    ∃ n, Spec.Configured c.services n q.service r ∧ (r.v4.nonzero = true ∨ r.v6.nonzero = true)
      ∧ ((∃ vlr, Spec.HlrHere z now c.maxAge d q.id r.age vlr ∧ Spec.Stored vlr n)
        ∨ Spec.ProxyHere z now c.maxAge p q.id r.age n) := by
  rw [serverRx_exec hq] at h
  obtain ⟨row, hrow, ha⟩ := Option.map_eq_some_iff.1 h
  obtain ⟨a, n, ht, hage, hc, hz⟩ := serviceAnswer_result ha hr
  obtain ⟨hn, ht, -⟩ := luHere_yes ht
  refine ⟨n, hc, hz, ?_⟩
  rw [hage]
  rcases ht with ht | ht
  · refine .inl ?_
    cases row with
    | none => cases ht
    | some x =>
      obtain ⟨vlr, h1, h2, h3, h4, h5⟩ := luHereHlr_yes ht
      obtain ⟨m1, m2⟩ := rowFor_mem hrow
      exact ⟨vlr, ⟨x, m1, m2, h1, h2, h3, h4⟩, h5⟩
  · refine .inr ?_
    cases he : entryFor p q.id with
    | none => rw [he] at ht; cases ht
    | some x =>
      rw [he] at ht
      obtain ⟨h1, h2, h3⟩ := luHereProxy_yes ht
      obtain ⟨e, m1, rfl, m2⟩ := entryFor_mem he
      exact ⟨e, m1, m2, h1, hn, h2, h3⟩

/-- C41: every answer is an address or "not found". -/
theorem c41_answers {z : Zone} {now : Int} {c : Srv} {p : List ProxyEntry} {q : Query} {d : Db} {sc : Script} {r : Result}
    (h : (exec (serverRx z now c p q) d sc).1 = some (some r)) : r.rc = .result ∨ r = { rc := .notFound } := by
  by_cases hq : q.service = HLR_GSUP
  · unfold serverRx at h
    rw [if_pos hq, exec_map] at h
    obtain ⟨x, hx, he⟩ := Option.map_eq_some_iff.1 h
    cases he
    cases hi : q.id with
    | none => rw [hi] at hx; exact .inr (Option.some.inj hx).symm
    | imsi v =>
      rw [hi] at hx
      unfold rxHlrGsup at hx
      rw [exec_map (existsByImsi v) fun rc => if rc ≠ 0 then notFound else setResult (localGsup c) 0] at hx
      obtain ⟨rc, -, rfl⟩ := Option.map_eq_some_iff.1 hx
      split
      · exact .inr rfl
      · exact setResult_rc _ _
    | msisdn v =>
      rw [hi] at hx
      unfold rxHlrGsup at hx
      rw [exec_map (existsByMsisdn v) fun rc => if rc ≠ 0 then notFound else setResult (localGsup c) 0] at hx
      obtain ⟨rc, -, rfl⟩ := Option.map_eq_some_iff.1 hx
      split
      · exact .inr rfl
      · exact setResult_rc _ _
  · rw [serverRx_exec hq] at h
    obtain ⟨row, -, ha⟩ := Option.map_eq_some_iff.1 h
    unfold serviceAnswer at ha
    split at ha
    · cases ha
    · cases ha; exact .inr rfl
    · split at ha
      · cases ha; exact setResult_rc _ _
      · split at ha
        · cases ha; exact setResult_rc _ _
        · cases ha; exact .inr rfl

/-- The names stored for the subscriber have no percent sign that would be taken for a
conversion. -/
def PrintableNames (r : SubRow) : Prop := (fmtText (r.vlrViaProxy.getD [])).isSome = true
  ∧ (fmtText (r.sgsnViaProxy.getD [])).isSome = true ∧ (fmtText ((r.vlr.getD []).take 31)).isSome = true

theorem luHereHlr_def {z : Zone} {now : Int} {maxAge : Nat} {r : SubRow} (h : PrintableNames r) :
    luHereHlr z now maxAge r ≠ .ub
    ∧ ∀ a vlr, r.vlr = some vlr → vlr ≠ [] → r.vlrViaProxy = none → Spec.Since z now (parseLastLu z r.lastLu) maxAge a →
      ∃ n, luHereHlr z now maxAge r = .yes a n ∧ n.len ≠ 0 := by
  obtain ⟨h1, h2, h3⟩ := h
  have hn : ¬ ((fmtText (r.vlrViaProxy.getD [])).isNone = true ∨ (fmtText (r.sgsnViaProxy.getD [])).isNone = true) := by
    rw [Option.isSome_iff_ne_none] at h1 h2
    rintro (e | e)
    · exact h1 (by simpa using e)
    · exact h2 (by simpa using e)
  obtain ⟨s, hs⟩ := Option.isSome_iff_exists.1 h3
  have hs : fmtText (strlcpy 32 (r.vlr.getD [])) = some s := hs
  constructor
  · unfold luHereHlr
    dsimp only
    rw [if_neg hn, hs]
    dsimp only
    split
    · exact fun e => by cases e
    split
    · exact fun e => by cases e
    split
    · exact fun e => by cases e
    split <;> exact fun e => by cases e
  · intro a vlr hv hne hp hsi
    obtain ⟨t1, t2⟩ := since_iff.1 hsi
    refine ⟨(ipaSetStr {} s).2, ?_, setStr_len s⟩
    unfold luHereHlr
    dsimp only
    have hvn : ¬ (strlcpy 32 (r.vlr.getD [])).isEmpty = true := by
      rw [hv]
      show ¬ (vlr.take 31).isEmpty = true
      cases vlr with
      | nil => exact absurd rfl hne
      | cons x l => simp
    rw [if_neg hn, if_neg hvn, if_neg (by rw [hp]; simp), t1, hs]
    dsimp only
    rw [if_neg (by simp), if_neg t2]

theorem luHere_le {x y : Att} {a : Nat} (hx : x ≠ .ub) (hlx : ∀ a n, x = .yes a n → n.len ≠ 0)
    (hly : ∀ a n, y = .yes a n → n.len ≠ 0) (h : (∃ n, x = .yes a n) ∨ (∃ n, y = .yes a n)) :
    ∃ a' n, luHere x y = .yes a' n ∧ a' ≤ a := by
  cases x with
  | ub => exact absurd rfl hx
  | no =>
    rcases h with ⟨n, h⟩ | ⟨n, rfl⟩
    · cases h
    · exact ⟨a, n, (by unfold luHere; dsimp only; rw [if_neg (hly _ _ rfl)]), Nat.le_refl _⟩
  | yes a1 n1 =>
    have l1 := hlx _ _ rfl
    have one : ∀ {y : Att}, (∀ a n, y ≠ .yes a n) → ((∃ n, Att.yes a1 n1 = .yes a n) ∨ (∃ n, y = .yes a n)) → a1 ≤ a := by
      rintro y hy (⟨n, h⟩ | ⟨n, h⟩)
      · cases h; exact Nat.le_refl _
      · exact absurd h (hy _ _)
    cases y with
    | ub => exact ⟨a1, n1, (by unfold luHere; dsimp only; rw [if_neg l1]), one (fun _ _ h => by cases h) h⟩
    | no => exact ⟨a1, n1, (by unfold luHere; dsimp only; rw [if_neg l1]), one (fun _ _ h => by cases h) h⟩
    | yes a2 n2 =>
      have l2 := hly _ _ rfl
      by_cases hlt : a2 < a1
      · refine ⟨a2, n2, (by unfold luHere; dsimp only; rw [if_pos hlt, if_neg l2]), ?_⟩
        rcases h with ⟨n, h⟩ | ⟨n, h⟩
        · cases h; omega
        · cases h; exact Nat.le_refl _
      · refine ⟨a1, n1, (by unfold luHere; dsimp only; rw [if_neg hlt, if_neg l1]), ?_⟩
        rcases h with ⟨n, h⟩ | ⟨n, h⟩
        · cases h; exact Nat.le_refl _
        · cases h; omega

theorem entryFor_found {p : List ProxyEntry} {id : Id} {e : ProxyEntry} (he : e ∈ p) (hn : Spec.PNames id e.data)
    (hp : ∀ x ∈ p, ∀ y ∈ p, Spec.PNames id x.data → Spec.PNames id y.data → x = y) : entryFor p id = some e.data := by
  have key : ∀ f : ProxyEntry → Bool, (∀ x, f x = true ↔ Spec.PNames id x.data) → (p.find? f).map (·.data) = some e.data := by
    intro f hf
    have hs : (p.find? f).isSome = true := by rw [List.find?_isSome]; exact ⟨e, he, (hf e).2 hn⟩
    obtain ⟨y, hy⟩ := Option.isSome_iff_exists.1 hs
    have h1 := List.find?_some hy
    rw [hy, hp y (List.mem_of_find?_eq_some hy) e he ((hf y).1 (by simpa using h1)) hn]
    rfl
  cases id with
  | none => exact absurd hn id
  | imsi v => exact key _ fun x => by simp [Spec.PNames]
  | msisdn v => exact key _ fun x => by simp [Spec.PNames]

theorem luHereProxy_here {z : Zone} {now : Int} {maxAge : Nat} {x : ProxySub} {a : Nat} (hv : x.cs.via.len = 0)
    (h : Spec.Since z now x.cs.lastLu maxAge a) : luHereProxy z now maxAge x = .yes a x.cs.vlr := by
  obtain ⟨t1, t2⟩ := since_iff.1 h
  unfold luHereProxy
  dsimp only
  rw [t1, if_neg (by simp; omega), if_neg (by omega)]

theorem rowFor_found {id : Id} {d : Db} {r : SubRow} (hr : r ∈ d.subs) (hn : Spec.Names id r)
    (hd : ∀ r ∈ d.subs, ∀ r' ∈ d.subs, Spec.Names id r → Spec.Names id r' → r = r') :
    d.subs.find? (namesB id) = some r := by
  have hs : (d.subs.find? (namesB id)).isSome = true := by rw [List.find?_isSome]; exact ⟨r, hr, (namesB_iff id r).2 hn⟩
  obtain ⟨y, hy⟩ := Option.isSome_iff_exists.1 hs
  have h1 := List.find?_some hy
  rw [hy, hd y (List.mem_of_find?_eq_some hy) r hr ((namesB_iff id y).1 (by simpa using h1)) hn]

/-- C41: a subscriber who is at a node connected to this HLR is found: if the database
works, the names are printable, a service is configured for all MSCs and every configured
service has an address (which holds for every configuration, `c42_offers`), the query is
answered with an address and the age of the youngest location update here. -/
theorem c41_found {z : Zone} {now : Int} {c : Srv} {p : List ProxyEntry} {q : Query} {d : Db} {sc : Script}
    (hq : q.service ≠ HLR_GSUP) (hsc : AllOk sc)
    (hd : ∀ r ∈ d.subs, ∀ r' ∈ d.subs, Spec.Names q.id r → Spec.Names q.id r' → r = r')
    (hp : ∀ x ∈ p, ∀ y ∈ p, Spec.PNames q.id x.data → Spec.PNames q.id y.data → x = y)
    (hpr : ∀ r ∈ d.subs, Spec.Names q.id r → PrintableNames r)
    (hpe : ∀ x ∈ p, Spec.PNames q.id x.data → x.data.cs.vlr.len = 0 → ∀ a, ¬ Spec.Since z now x.data.cs.lastLu c.maxAge a)
    (hs : ∃ h, serviceGet c.services {} q.service = some h)
    (ho : ∀ n h, serviceGet c.services n q.service = some h → h.v4.nonzero = true ∨ h.v6.nonzero = true)
    {a : Nat} (hh : (∃ vlr, Spec.HlrHere z now c.maxAge d q.id a vlr) ∨ (∃ n, Spec.ProxyHere z now c.maxAge p q.id a n)) :
    ∃ r, (exec (serverRx z now c p q) d sc).1 = some (some r) ∧ r.rc = .result ∧ r.age ≤ a := by
  rw [serverRx_exec hq]
  have hrow : (exec (rowFor q.id) d sc).1 = some (d.subs.find? (namesB q.id)) := by
    rcases rowFor_exec q.id d sc with hrow | ⟨h, -⟩
    · exact hrow
    · exact absurd hsc h
  rw [hrow]
  have hx : optAtt (luHereHlr z now c.maxAge) (d.subs.find? (namesB q.id)) ≠ .ub := by
    cases hf : d.subs.find? (namesB q.id) with
    | none => exact fun e => by cases e
    | some r =>
      have h1 := List.find?_some hf
      exact (luHereHlr_def (hpr r (List.mem_of_find?_eq_some hf) ((namesB_iff q.id r).1 (by simpa using h1)))).1
  have hlx : ∀ a n, optAtt (luHereHlr z now c.maxAge) (d.subs.find? (namesB q.id)) = .yes a n → n.len ≠ 0 := by
    intro a n h
    cases hf : d.subs.find? (namesB q.id) with
    | none => rw [hf] at h; cases h
    | some r =>
      rw [hf] at h
      obtain ⟨vlr, -, -, -, -, -, h5, h6, -⟩ := luHereHlr_yes h
      intro e
      apply h5
      unfold IpaName.name
      rw [e]; rfl
  have hly : ∀ a n, optAtt (luHereProxy z now c.maxAge) (entryFor p q.id) = .yes a n → n.len ≠ 0 := by
    intro a n h e
    cases he : entryFor p q.id with
    | none => rw [he] at h; cases h
    | some x =>
      rw [he] at h
      obtain ⟨h1, h2, h3⟩ := luHereProxy_yes h
      obtain ⟨e', m1, rfl, m2⟩ := entryFor_mem he
      exact hpe e' m1 m2 (by rw [h1]; exact e) a h3
  have hin : (∃ n, optAtt (luHereHlr z now c.maxAge) (d.subs.find? (namesB q.id)) = .yes a n)
      ∨ (∃ n, optAtt (luHereProxy z now c.maxAge) (entryFor p q.id) = .yes a n) := by
    rcases hh with ⟨vlr, r, hr, hn, h1, h2, h3, h4⟩ | ⟨n, e, he, hn, h1, h2, h3, h4⟩
    · rw [rowFor_found hr hn hd]
      obtain ⟨n, h5, -⟩ := (luHereHlr_def (hpr r hr hn)).2 a vlr h1 h2 h3 h4
      exact .inl ⟨n, h5⟩
    · rw [entryFor_found he hn hp]
      exact .inr ⟨_, luHereProxy_here h3 h4⟩
  obtain ⟨a', n, hl, hle⟩ := luHere_le hx hlx hly hin
  obtain ⟨h0, hs⟩ := hs
  have key : ∀ n' h, serviceGet c.services n' q.service = some h →
      (setResult h a').rc = .result ∧ (setResult h a').age ≤ a := by
    intro n' h hg
    have hz := ho n' h hg
    have : ¬ (((!h.v4.nonzero) = true) ∧ ((!h.v6.nonzero) = true)) := by
      rintro ⟨e1, e2⟩
      rcases hz with hz | hz
      · rw [hz] at e1; cases e1
      · rw [hz] at e2; cases e2
    unfold setResult
    rw [if_neg this]
    exact ⟨rfl, hle⟩
  have hans : ∃ h n', serviceGet c.services n' q.service = some h
      ∧ serviceAnswer c q.service (.yes a' n) = some (setResult h a') := by
    unfold serviceAnswer
    dsimp only
    cases hg : serviceGet c.services n q.service with
    | some h => exact ⟨h, n, hg, rfl⟩
    | none =>
      refine ⟨h0, {}, hs, ?_⟩
      dsimp only
      rw [hs]
  obtain ⟨h, n', hg, hans⟩ := hans
  refine ⟨setResult h a', ?_, key n' h hg⟩
  rw [Option.map_some, hl, hans]

/-- The address of the GSUP server of this HLR: the one configured, or else the one it is bound
to. -/
def HlrAddress (c : Srv) (r : Result) : Prop :=
  (∃ h, serviceGet c.services {} HLR_GSUP = some h ∧ r.v4 = h.v4 ∧ r.v6 = h.v6)
  ∨ serviceGet c.services {} HLR_GSUP = none
    ∧ (if c.bind.v6 = true then r.v4 = {} ∧ r.v6 = c.bind else r.v4 = c.bind ∧ r.v6 = {})

theorem exists_exec (c : SubRow → Bool) (d : Db) (sc : Script) (m : DbM Int)
    (hm : m = do
      match ← stmt (sqlSel c) .error with
      | .row _ => pure 0
      | .done => pure (-ENOENT)
      | .error => pure SQLITE_IOERR) :
    ((exec m d sc).1 = some 0 → ∃ x ∈ d.subs, c x = true)
    ∧ (AllOk sc → (∃ x ∈ d.subs, c x = true) → (exec m d sc).1 = some 0) := by
  subst hm
  have good : ∀ w : World, (((match (sqlSel c d).1 with
      | .row _ => pure 0
      | .done => pure (-ENOENT)
      | .error => pure SQLITE_IOERR) : DbM Int) w).1 = some (if (d.subs.find? c).isSome = true then 0 else -ENOENT) := by
    intro w
    unfold sqlSel
    cases d.subs.find? c <;> rfl
  have fnd : (d.subs.find? c).isSome = true ↔ ∃ x ∈ d.subs, c x = true := by rw [List.find?_isSome]
  have fwd : some (if (d.subs.find? c).isSome = true then (0 : Int) else -ENOENT) = some 0 → ∃ x ∈ d.subs, c x = true := by
    intro h
    split at h
    · rename_i hs; exact fnd.1 hs
    · exact absurd (Option.some.inj h) (by decide)
  unfold exec
  simp only [bind_run]
  unfold stmt
  cases sc with
  | nil =>
    refine ⟨fun h => fwd ((good _).symm.trans h), fun _ hx => (good _).trans ?_⟩
    rw [if_pos (fnd.2 hx)]
  | cons f s =>
    cases f with
    | ok =>
      refine ⟨fun h => fwd ((good _).symm.trans h), fun _ hx => (good _).trans ?_⟩
      rw [if_pos (fnd.2 hx)]
    | ioerr => exact ⟨(fun h => absurd (Option.some.inj h) (by decide)), fun h => by cases h _ List.mem_cons_self⟩
    | crash => exact ⟨(fun h => by cases h), fun h => by cases h _ List.mem_cons_self⟩

theorem rxHlr_exec (c : Srv) (id : Id) (d : Db) (sc : Script) (r : Result) :
    ((exec (rxHlrGsup c id) d sc).1 = some r → r = notFound ∨ r = setResult (localGsup c) 0 ∧ ∃ x ∈ d.subs, Spec.Names id x)
    ∧ (AllOk sc → (∃ x ∈ d.subs, Spec.Names id x) → (exec (rxHlrGsup c id) d sc).1 = some (setResult (localGsup c) 0)) := by
  have key : ∀ (m : DbM Int) (hm : m = do
        match ← stmt (sqlSel (namesB id)) .error with
        | .row _ => pure 0
        | .done => pure (-ENOENT)
        | .error => pure SQLITE_IOERR) (f : DbM Result)
      (hf : f = do pure (if (← m) ≠ 0 then notFound else setResult (localGsup c) 0)),
      ((exec f d sc).1 = some r → r = notFound ∨ r = setResult (localGsup c) 0 ∧ ∃ x ∈ d.subs, Spec.Names id x)
      ∧ (AllOk sc → (∃ x ∈ d.subs, Spec.Names id x) → (exec f d sc).1 = some (setResult (localGsup c) 0)) := by
    intro m hm f hf
    subst hf
    obtain ⟨h1, h2⟩ := exists_exec (namesB id) d sc m hm
    rw [exec_map m fun rc => if rc ≠ 0 then notFound else setResult (localGsup c) 0]
    simp only [namesB_iff] at h1 h2
    constructor
    · intro h
      obtain ⟨rc, hrc, rfl⟩ := Option.map_eq_some_iff.1 h
      by_cases h0 : rc = 0
      · rw [if_neg (by simpa using h0)]
        exact .inr ⟨rfl, h1 (by rw [hrc, h0])⟩
      · rw [if_pos h0]; exact .inl rfl
    · intro ha hx
      rw [h2 ha hx, Option.map_some, if_neg (by simp)]
  cases id with
  | none =>
    refine ⟨fun h => .inl (Option.some.inj h).symm, ?_⟩
    rintro - ⟨x, -, h⟩
    exact absurd h (fun h => h)
  | imsi v => exact key (existsByImsi v) rfl _ rfl
  | msisdn v => exact key (existsByMsisdn v) rfl _ rfl

/-- C41: a query for the HLR itself is answered with an address only if the subscriber is in
the database; the address is that of this HLR's GSUP server, with age 0. -/
theorem c41_hlr {z : Zone} {now : Int} {c : Srv} {p : List ProxyEntry} {q : Query} {d : Db} {sc : Script} {r : Result}
    (hq : q.service = HLR_GSUP) (h : (exec (serverRx z now c p q) d sc).1 = some (some r)) (hr : r.rc = .result) :
    (∃ x ∈ d.subs, Spec.Names q.id x) ∧ r.age = 0 ∧ HlrAddress c r := by
  unfold serverRx at h
  rw [if_pos hq, exec_map (rxHlrGsup c q.id) some] at h
  obtain ⟨x, hx, he⟩ := Option.map_eq_some_iff.1 h
  cases he
  rcases (rxHlr_exec c q.id d sc r).1 hx with rfl | ⟨e, hm⟩
  · cases hr
  · subst e
    refine ⟨hm, ?_⟩
    rw [(setResult_eq hr).1]
    refine ⟨rfl, ?_⟩
    unfold HlrAddress localGsup
    cases hg : serviceGet c.services {} HLR_GSUP with
    | some h => exact .inl ⟨h, rfl, rfl, rfl⟩
    | none =>
      refine .inr ⟨rfl, ?_⟩
      dsimp only
      by_cases h6 : c.bind.v6 = true
      · rw [if_pos h6, if_pos h6]; exact ⟨rfl, rfl⟩
      · rw [if_neg h6, if_neg h6]; exact ⟨rfl, rfl⟩

/-- C41: if the database works and the HLR has an address, every subscriber in the database
is found by a query for the HLR. -/
theorem c41_hlr_found {z : Zone} {now : Int} {c : Srv} {p : List ProxyEntry} {q : Query} {d : Db} {sc : Script}
    (hq : q.service = HLR_GSUP) (hsc : AllOk sc) (hx : ∃ x ∈ d.subs, Spec.Names q.id x)
    (hb : c.bind.nonzero = true)
    (ho : ∀ h, serviceGet c.services {} HLR_GSUP = some h → h.v4.nonzero = true ∨ h.v6.nonzero = true) :
    ∃ r, (exec (serverRx z now c p q) d sc).1 = some (some r) ∧ r.rc = .result := by
  unfold serverRx
  rw [if_pos hq, exec_map (rxHlrGsup c q.id) some, (rxHlr_exec c q.id d sc notFound).2 hsc hx]
  refine ⟨_, rfl, ?_⟩
  have : (localGsup c).v4.nonzero = true ∨ (localGsup c).v6.nonzero = true := by
    unfold localGsup
    cases hg : serviceGet c.services {} HLR_GSUP with
    | some h => exact ho h hg
    | none =>
      dsimp only
      split
      · exact .inr hb
      · exact .inl hb
  have : ¬ (((!(localGsup c).v4.nonzero) = true) ∧ ((!(localGsup c).v6.nonzero) = true)) := by
    rintro ⟨e1, e2⟩
    rcases this with hz | hz
    · rw [hz] at e1; cases e1
    · rw [hz] at e2; cases e2
  unfold setResult
  rw [if_neg this]

end Verif.Mslookup.Props
