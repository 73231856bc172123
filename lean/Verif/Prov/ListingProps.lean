import Verif.Prov.ListingSpec
import Verif.Prov.VtyProps3
/-! # C57: listing subscribers -/
namespace Verif.Prov.Listing.Props
open Verif Verif.Db Verif.Mslookup Verif.Mslookup.Mdns Verif.Prov Verif.Prov.Vty Verif.Prov.Listing

theorem padR_eq (n : Nat) (v : Bytes) : padR n v = column n v := by
  unfold padR column
  split
  · rfl
  · rw [Nat.sub_eq_zero_of_le (by omega)]; simp

theorem lastAge_eq (ck : Clock) (t : Option Int) : lastAge ck (t.getD 0) = agoText ck t := by
  cases t with
  | none => rfl
  | some t =>
    show lastAge ck t = _
    unfold lastAge agoText
    dsimp only
    by_cases h : t = 0
    · rw [if_pos h, if_pos h]
    rw [if_neg h, if_neg h]
    unfold Sys.timestampAge
    dsimp only
    by_cases ha : 0 ≤ ck.now - t ∧ ck.now - t < 2 ^ 32
    · rw [if_pos ha, if_neg (by omega)]
      dsimp only
      rw [unit_eq 100 "d" (by decide +kernel) _ _ (by decide), unit_eq 104 "h" (by decide +kernel) _ _ (by decide),
        unit_eq 109 "m" (by decide +kernel) _ _ (by decide), unit_eq 115 "s" (by decide +kernel) _ _ (by decide)]
      unfold ageText
      generalize (ck.now - t).toNat = a
      have e1 : a % 86400 / 3600 = a / 3600 % 24 := by omega
      have e2 : a % 86400 % 3600 / 60 = a / 60 % 60 := by omega
      have e3 : a % 86400 % 3600 % 60 / 1 = a % 60 := by omega
      rw [e1, e2, e3]
      simp only [List.append_assoc]
    · rw [if_neg ha, if_pos (by omega)]

theorem summary_eq (ck : Clock) (q : Query) {d : Db} (hG : Good d) {r : SubRow} (hr : r ∈ d.subs) :
    summary ck (entry q.ls r) = rowText ck q r := by
  obtain ⟨i1, i2, i3⟩ := hG.idents r hr
  have h1 : (entry q.ls r).imsi = r.imsi := ofRow_imsi hG hr
  have h2 : (entry q.ls r).msisdn = r.msisdn.getD [] := ofRow_msisdn hG hr
  have hi : (if r.imsi.isEmpty = true then b "none" else r.imsi) = r.imsi := by
    rw [if_neg]
    intro h
    have := i1.1
    simp only [List.isEmpty_iff] at h
    rw [h] at this
    simp at this
  have hm : (if (r.msisdn.getD []).isEmpty = true then b "none" else r.msisdn.getD []) = r.msisdn.getD (b "none") := by
    cases h : r.msisdn with
    | none => rfl
    | some m =>
      have := (i2 m h).1
      have : m ≠ [] := by rintro rfl; simp at this
      simp [this]
  have hE : imeiCol (entry q.ls r).imei
      = (match r.imei with
        | none => b "   ------------- "
        | some i => b "  " ++ i ++ [checkDigit i]) := by
    have : (entry q.ls r).imei = strlcpy 16 (r.imei.getD []) := rfl
    rw [this]
    cases h : r.imei with
    | none => rfl
    | some i =>
      have hi := i3 i h
      have hs : strlcpy 16 i = i := List.take_of_length_le (by have := hi.2.1; omega)
      have hne : i.isEmpty = false := by
        have := hi.1
        cases i with
        | nil => simp at this
        | cons => rfl
      rw [Option.getD_some, hs]
      unfold imeiCol
      rw [if_neg (by rw [hne]; simp), luhn14 hi]
      dsimp only
      rw [padR_eq]
      unfold column
      rw [if_neg (by have := hi.1; omega)]
  have hc (v : Bool) (s : String) (hs : (b s).length = 2) : padR 2 (if v then b s else []) = (if v then b s else b "  ") := by
    cases v with
    | false => show padR 2 [] = b "  "; decide +kernel
    | true =>
      show padR 2 (b s) = b s
      rw [padR_eq]
      unfold column
      rw [if_neg (by omega)]
  have hl : lastAge ck (entry q.ls r).lastLu = (if q = .lastSeen then agoText ck r.lastLu else []) := by
    cases q with
    | lastSeen => exact lastAge_eq ck r.lastLu
    | all => rfl
    | filter => rfl
    | nam => rfl
  unfold summary rowText
  rw [h1, h2, hi, hm, hE, hl, padR_eq, padR_eq, padR_eq, hc _ "CS" (by decide +kernel), hc _ "PS" (by decide +kernel)]
  rfl

theorem table_eq (q : Query) (h : Bool) : table h q.ls = if h then titles q ++ rule q else rule q ++ titles q := by
  cases q <;> cases h <;> simp [table, titles, rule, Query.ls]

theorem text_eq (ck : Clock) (q : Query) {d : Db} (hG : Good d) {rows : List SubRow} (hr : ∀ r ∈ rows, r ∈ d.subs)
    (err : Option Bytes) : table true q.ls ++ report ck q.ls rows err
      = listText ck q rows ++ errLine err := by
  unfold report listText
  rw [table_eq, table_eq]
  have : rows.map (fun r => summary ck (entry q.ls r)) = rows.map (rowText ck q) :=
    List.map_congr_left fun r h => summary_eq ck q hG (hr r h)
  rw [this]
  cases rows with
  | nil => simp
  | cons a l => simp

theorem rows_ok {lite : Lite} (hl : lite.Ok) {d : Db} (hG : Good d) {q : Query} (hq : q.Ok) : IsList d q (lite.rows d q) := by
  obtain ⟨hp, ho⟩ := hl d q
  have hmem (r : SubRow) : r ∈ lite.rows d q ↔ r ∈ d.subs ∧ q.cond r = true := by
    rw [hp.mem_iff, List.mem_filter]
  have hcond (r : SubRow) (hr : r ∈ d.subs) : q.cond r = true ↔ Matches q r := by
    obtain ⟨i1, i2, i3⟩ := hG.idents r hr
    cases q with
    | all => exact ⟨fun _ => trivial, fun _ => rfl⟩
    | nam ps on => show ((if ps then r.namPs else r.namCs) == on) = true ↔ _; rw [beq_iff_eq]; rfl
    | lastSeen => show r.lastLu.isSome = true ↔ _; rw [Option.isSome_iff_exists]; rfl
    | filter f s =>
      obtain ⟨h1, h2, h3, h4⟩ := hq
      show (match f.col r with | none => false | some v => like (search s) v) = true ↔ ∃ v a c, f.col r = some v ∧ v = a ++ s ++ c
      have hs : search s = [37] ++ s ++ [37] := by unfold search; rw [if_neg h2, if_neg h3]
      cases hv : f.col r with
      | none =>
        constructor
        · intro h; cases h
        · rintro ⟨v, a, c, h, -⟩; cases h
      | some v =>
        have hd : ∀ c ∈ v, 48 ≤ c ∧ c ≤ 57 := by
          cases f with
          | imei => exact (i3 v hv).2.2
          | imsi => cases hv; exact i1.2.2
          | msisdn => exact (i2 v hv).2.2
        dsimp only
        rw [hs, like_contains h1 hd]
        constructor
        · rintro ⟨a, c, h⟩; exact ⟨v, a, c, rfl, h⟩
        · rintro ⟨v', a, c, h, e⟩; cases h; exact ⟨a, c, e⟩
  refine ⟨hp.nodup_iff.mpr ((List.Pairwise.of_map _ (fun _ _ h e => h (by rw [e])) hG.unique.ids : d.subs.Nodup).filter _), fun r => ?_, ?_⟩
  · rw [hmem]
    exact ⟨fun h => ⟨h.1, (hcond r h.1).mp h.2⟩, fun h => ⟨h.1, (hcond r h.1).mpr h.2⟩⟩
  · refine ho.imp fun {a c} h => ?_
    cases q with
    | all => trivial
    | filter f s =>
      intro x y hx hy
      have h : (match f.col a, f.col c with | none, _ => True | some _, none => False | some x, some y => x ≤ y) := h
      rw [hx, hy] at h
      exact h
    | nam ps on =>
      intro x hx
      have h : Query.before.time a.lastLu c.lastLu := h
      rw [hx] at h
      cases hy : c.lastLu with
      | none => rw [hy] at h; exact absurd h (by simp [Query.before.time])
      | some y => rw [hy] at h; exact ⟨y, rfl, h⟩
    | lastSeen =>
      intro x y hx hy
      have h : Query.before.time a.lastLu c.lastLu := h
      rw [hx, hy] at h
      exact h

theorem ok_fits {q : Query} (hq : q.Ok) : q.fits = true := by
  cases q with
  | filter f s =>
    obtain ⟨-, h2, h3, h4⟩ := hq
    show decide ((search s).length < 256) = true
    unfold search
    rw [if_neg h2, if_neg h3, decide_eq_true_eq]
    simp
    omega
  | all => rfl
  | nam => rfl
  | lastSeen => rfl

/-- C57: on a working database the list printed is the list for the query, in the documented
form; if it is empty, the command says so and fails. -/
theorem c57_list (lite : Lite) (hl : lite.Ok) (ck : Clock) (hist : List (Op × Script)) (sc : Script)
    (hsc : ∀ f ∈ sc, f = .ok) (q : Query) (hq : q.Ok) :
    ∃ rows, IsList (runHist {} hist) q rows
      ∧ exec (list lite ck q) (runHist {} hist) sc
        = (some (if rows = [] then .done false (listText ck q [] ++ b "% No matching subscriber(s)\n") []
            else .done true (listText ck q rows) []), runHist {} hist) := by
  have hG := reachable_good hist
  generalize runHist {} hist = d at hG ⊢
  have hr := rows_ok hl hG hq
  refine ⟨lite.rows d q, hr, Prod.ext ?_ (list_run lite ck q d sc (ok_fits hq)).1⟩
  rw [list_ok lite ck q d sc hsc (ok_fits hq)]
  show some _ = some _
  congr 1
  split
  · rw [text_eq ck q hG (fun r h => by cases h)]
    unfold warn
    rw [show b "% No matching subscriber(s)\n" = b "% " ++ b "No matching subscriber(s)" ++ b "\n" from by decide +kernel]
    rfl
  · rw [text_eq ck q hG (fun r h => ((hr.mem r).mp h).1)]
    show success (listText ck q (lite.rows d q) ++ []) = _
    rw [List.append_nil]
    rfl

/-- C57: whatever fails, nothing is changed, no memory is written out of bounds, and what is
printed is true: success means the whole list; a list cut short by an error is the beginning of
the list, and the command fails and prints the error. -/
theorem c57_truth (lite : Lite) (hl : lite.Ok) (ck : Clock) (hist : List (Op × Script)) (sc : Script)
    (q : Query) (hq : q.Ok) :
    (exec (list lite ck q) (runHist {} hist) sc).2 = runHist {} hist
    ∧ ∃ rows, IsList (runHist {} hist) q rows
      ∧ match (exec (list lite ck q) (runHist {} hist) sc).1 with
        | none => True
        | some .ub => False
        | some (.done true t acts) => rows ≠ [] ∧ t = listText ck q rows ∧ acts = []
        | some (.done false t acts) => acts = []
          ∧ ((rows = [] ∧ t = listText ck q [] ++ b "% No matching subscriber(s)\n")
            ∨ ∃ got, got <+: rows ∧ t = listText ck q got ++ b "% " ++ lite.msg ++ b "\n") := by
  have hG := reachable_good hist
  generalize runHist {} hist = d at hG ⊢
  have hr := rows_ok hl hG hq
  obtain ⟨h1, h2⟩ := list_run lite ck q d sc (ok_fits hq)
  refine ⟨h1, lite.rows d q, hr, ?_⟩
  rcases h2 with e | ⟨hne, e⟩ | ⟨hn, e⟩ | ⟨got, hp, e⟩
  · rw [e]; trivial
  · rw [e, text_eq ck q hG (fun r h => ((hr.mem r).mp h).1)]
    exact ⟨hne, List.append_nil _, rfl⟩
  · rw [e, text_eq ck q hG (fun r h => by cases h)]
    refine ⟨rfl, .inl ⟨hn, ?_⟩⟩
    rw [show b "% No matching subscriber(s)\n" = b "% " ++ b "No matching subscriber(s)" ++ b "\n" from by decide +kernel]
    rfl
  · rw [e, text_eq ck q hG (fun r h => ((hr.mem r).mp (hp.subset h)).1)]
    exact ⟨rfl, .inr ⟨got, hp, by simp [errLine]⟩⟩

/-! ## Concrete cases, and what goes wrong -/

/-- A SQLite that sorts with insertion sort. -/
def insert (le : SubRow → SubRow → Bool) (r : SubRow) : List SubRow → List SubRow
  | [] => [r]
  | a :: l => if le r a then r :: a :: l else a :: insert le r l

instance (q : Query) (r p : SubRow) : Decidable (q.before r p) := by
  cases q with
  | all => exact isTrue trivial
  | filter f s =>
    show Decidable (match f.col r, f.col p with | none, _ => True | some _, none => False | some x, some y => x ≤ y)
    cases f.col r with
    | none => exact isTrue trivial
    | some x =>
      cases f.col p with
      | none => exact isFalse id
      | some y => exact inferInstanceAs (Decidable (x ≤ y))
  | nam ps on =>
    show Decidable (Query.before.time r.lastLu p.lastLu)
    cases r.lastLu with
    | none => exact isTrue trivial
    | some x =>
      cases p.lastLu with
      | none => exact isFalse id
      | some y => exact inferInstanceAs (Decidable (x ≤ y))
  | lastSeen =>
    show Decidable (Query.before.time r.lastLu p.lastLu)
    cases r.lastLu with
    | none => exact isTrue trivial
    | some x =>
      cases p.lastLu with
      | none => exact isFalse id
      | some y => exact inferInstanceAs (Decidable (x ≤ y))

theorem time_total (x y : Option Int) : Query.before.time x y ∨ Query.before.time y x := by
  cases x <;> cases y <;> simp only [Query.before.time, true_or, or_true]
  omega

theorem time_trans {x y z : Option Int} (h : Query.before.time x y) (h' : Query.before.time y z) : Query.before.time x z := by
  cases x <;> cases y <;> cases z <;> simp only [Query.before.time] at h h' ⊢
  omega

theorem before_total (q : Query) (r p : SubRow) : q.before r p ∨ q.before p r := by
  cases q with
  | all => exact .inl trivial
  | filter f s =>
    show (match f.col r, f.col p with | none, _ => True | some _, none => False | some x, some y => x ≤ y)
      ∨ (match f.col p, f.col r with | none, _ => True | some _, none => False | some x, some y => x ≤ y)
    cases f.col r <;> cases f.col p <;> simp only [true_or, or_true]
    exact List.le_total _ _
  | nam => exact time_total _ _
  | lastSeen => exact time_total _ _

theorem before_trans (q : Query) {r p o : SubRow} (h : q.before r p) (h' : q.before p o) : q.before r o := by
  cases q with
  | all => trivial
  | filter f s =>
    have h : (match f.col r, f.col p with | none, _ => True | some _, none => False | some x, some y => x ≤ y) := h
    have h' : (match f.col p, f.col o with | none, _ => True | some _, none => False | some x, some y => x ≤ y) := h'
    show (match f.col r, f.col o with | none, _ => True | some _, none => False | some x, some y => x ≤ y)
    cases h1 : f.col r <;> cases h2 : f.col p <;> cases h3 : f.col o <;> rw [h1, h2] at h <;> rw [h2, h3] at h' <;>
      first | trivial | exact h.elim | exact h'.elim | exact List.le_trans h h'
  | nam => exact time_trans h h'
  | lastSeen => exact time_trans h h'

/-- Such a SQLite. -/
def exLite : Lite where
  rows d q := (d.subs.filter q.cond).foldr (insert fun r p => decide (q.before r p)) []
  msg := b "disk I/O error"

/-- The hypothesis of the theorems about SQLite can be met. -/
theorem exLite_ok : exLite.Ok := by
  intro d q
  show Answers d q (List.foldr _ [] (d.subs.filter q.cond))
  unfold Answers
  generalize d.subs.filter q.cond = l
  have hperm (r : SubRow) (l : List SubRow) : (insert (fun r p => decide (q.before r p)) r l).Perm (r :: l) := by
    induction l with
    | nil => exact .refl _
    | cons a l ih =>
      unfold insert
      split
      · exact .refl _
      · exact (ih.cons a).trans (.swap ..)
  induction l with
  | nil => exact ⟨.refl _, .nil⟩
  | cons a l ih =>
    obtain ⟨h1, h2⟩ := ih
    refine ⟨(hperm _ _).trans (h1.cons a), ?_⟩
    rw [List.foldr_cons]
    generalize List.foldr _ _ _ = m at h2
    clear h1
    induction m with
    | nil => exact List.pairwise_singleton ..
    | cons c m ih =>
      unfold insert
      obtain ⟨h3, h4⟩ := List.pairwise_cons.mp h2
      split
      · rename_i h
        have h := of_decide_eq_true h
        refine List.pairwise_cons.mpr ⟨?_, h2⟩
        intro x hx
        rcases List.mem_cons.mp hx with rfl | hx
        · exact h
        · exact before_trans q h (h3 x hx)
      · rename_i h
        have h : ¬ q.before a c := fun e => h (decide_eq_true e)
        refine List.pairwise_cons.mpr ⟨?_, ih h4⟩
        intro x hx
        rcases List.mem_cons.mp ((hperm _ _).mem_iff.mp hx) with rfl | hx
        · exact (before_total q x c).resolve_left h
        · exact h3 x hx

/-- Three subscribers; two were seen, one in each domain. -/
def exSubs : List (Op × Script) :=
  [(.create (b "901990000000003") true true, []), (.create (b "901990000000001") true false, []),
   (.create (b "901990000000002") false true, []),
   (.msisdn (b "901990000000003") (some (b "1")), []), (.msisdn (b "901990000000001") (some (b "4911")), []),
   (.imei (b "901990000000003") (some (b "35761300444848")), []),
   (.lu 1 (b "MSC") false none (some 40), []), (.lu 3 (b "SGSN") true none (some 50), [])]

/-- The lists for some queries. -/
example : (exLite.rows (runHist {} exSubs) (.filter .imsi (b "0000"))).map (·.id) = [2, 3, 1]
    ∧ (exLite.rows (runHist {} exSubs) (.filter .msisdn (b "1"))).map (·.id) = [1, 2]
    ∧ (exLite.rows (runHist {} exSubs) (.nam true true)).map (·.id) = [3, 1]
    ∧ (exLite.rows (runHist {} exSubs) .lastSeen).map (·.id) = [1]
    ∧ exec (list exLite Vty.Props.exClock .lastSeen) (runHist {} exSubs) []
      = (some (.done true (b "ID     MSISDN        IMSI              IMEI              NAM    LAST SEEN\n" ++
          b "-----  ------------  ----------------  ----------------  -----  ------------\n" ++
          b "1      1             901990000000003   357613004448485   CSPS   (1m ago)\n" ++
          b " Subscribers Shown: 1\n") []), runHist {} exSubs) := by decide +kernel

/-- C57 fails: a filter of more than 253 characters is written beyond the end of a buffer. -/
theorem c57_overflow_violated (lite : Lite) (ck : Clock) (d : Db) (sc : Script) (f : Field) (s : Bytes) (h : 253 < s.length) :
    exec (list lite ck (.filter f s)) d sc = (some .ub, d) := by
  have h2 : s ≠ b "on" := by
    rintro rfl
    exact absurd h (by decide +kernel)
  have h3 : s ≠ b "off" := by
    rintro rfl
    exact absurd h (by decide +kernel)
  have : Query.fits (.filter f s) = false := by
    show decide ((search s).length < 256) = false
    unfold search
    rw [if_neg h2, if_neg h3, decide_eq_false_iff_not]
    simp
    omega
  unfold list
  rw [this]
  rfl

/-- C57 fails: the filter `on` lists the subscriber with the MSISDN 1, whose number does not
contain it. -/
theorem c57_on_violated : (exLite.rows (runHist {} exSubs) (.filter .msisdn (b "on"))).map (·.msisdn) = [some (b "1")]
    ∧ ∃ t, (exec (list exLite Vty.Props.exClock (.filter .msisdn (b "on"))) (runHist {} exSubs) []).1 = some (.done true t [])
      ∧ t = listText Vty.Props.exClock (.filter .msisdn (b "on")) (exLite.rows (runHist {} exSubs) (.filter .msisdn (b "on"))) := by
  refine ⟨by decide +kernel, _, ?_, rfl⟩
  decide +kernel

/-- C57 fails: `_` in a filter matches any digit. -/
theorem c57_wildcard_violated :
    (exLite.rows (runHist {} exSubs) (.filter .msisdn (b "4_1"))).map (·.msisdn) = [some (b "4911")] := by decide +kernel

/-- C57 fails: a subscriber seen in the PS domain only is not among those listed by
`last-seen`. -/
theorem c57_last_seen_violated : ∃ r ∈ (runHist {} exSubs).subs, r.lastLuPs = some 50
    ∧ ∀ lite : Lite, lite.Ok → r ∉ lite.rows (runHist {} exSubs) .lastSeen := by
  refine ⟨(runHist {} exSubs).subs[2]'(by decide +kernel), List.getElem_mem _, by decide +kernel, fun lite hl h => ?_⟩
  have := (hl (runHist {} exSubs) .lastSeen).1.mem_iff.mp h
  exact absurd (List.mem_filter.mp this).2 (by decide +kernel)

end Verif.Prov.Listing.Props
