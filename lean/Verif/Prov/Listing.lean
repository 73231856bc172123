import Verif.Prov.VtyLemmas2
/-! # Listing subscribers: `show subscribers …` (`src/hlr_vty_subscr.c`, `src/db_hlr.c`) -/
namespace Verif.Prov.Listing
open Verif Verif.Db Verif.Mslookup Verif.Mslookup.Mdns Verif.Prov Verif.Prov.Vty

/-- `(imei|imsi|msisdn)` (hlr_vty_subscr.c 259). -/
inductive Field where
  | imei | imsi | msisdn
deriving DecidableEq, Repr

/-- `show subscribers all | (imei|imsi|msisdn) FILTER | (cs|ps) (on|off) | last-seen`
(hlr_vty_subscr.c 297-338). -/
inductive Query where
  | all
  | filter (f : Field) (s : Bytes)
  | nam (ps on : Bool)
  | lastSeen
deriving DecidableEq, Repr

/-! ## The statements (db.c 54-61) -/

/-- A text and what remains of it after each byte. -/
def tails : Bytes → List Bytes
  | [] => [[]]
  | c :: s => (c :: s) :: tails s

/-- SQLite's operator `text LIKE pattern`: `%` stands for any text, `_` for any character, and
letters match in either case.  A simplification: bytes above 127 are compared one by one (the
columns only hold digits, which no such byte matches either way). -/
def like : Bytes → Bytes → Bool
  | [], t => t.isEmpty
  | x :: p, t =>
    if x = 37 then (tails t).any fun u => like p u
    else match t with
      | [] => false
      | c :: u => (x == 95 || lower x == lower c) && like p u

/-- The column a filter is about. -/
def Field.col : Field → SubRow → Option Bytes
  | .imei, r => r.imei
  | .imsi, r => some r.imsi
  | .msisdn, r => r.msisdn

/-- The value of `$search` (db_hlr.c 676-682). -/
def search (s : Bytes) : Bytes :=
  if s = b "on" then b "1" else if s = b "off" then b "0" else [37] ++ s ++ [37]

/-- The WHERE part of the statement for a query.  For `cs` and `ps` the column holds 0 or 1 and
`$search` is "1" or "0". -/
def Query.cond : Query → SubRow → Bool
  | .all, _ => true
  | .filter f s, r => match f.col r with
    | none => false
    | some v => like (search s) v
  | .nam ps on, r => (if ps then r.namPs else r.namCs) == on
  | .lastSeen, r => r.lastLu.isSome

/-- The ORDER BY part: whether the first row may come before the second.  Texts are compared
byte by byte; no time comes before any time.  Times are texts `YYYY-MM-DD HH:MM:SS` in the
database, whose order is that of the times in the years 0 to 9999. -/
def Query.before : Query → SubRow → SubRow → Prop
  | .all, _, _ => True
  | .filter f _, r, q => match f.col r, f.col q with
    | none, _ => True
    | some _, none => False
    | some x, some y => x ≤ y
  | .nam .., r, q => time r.lastLu q.lastLu
  | .lastSeen, r, q => time r.lastLu q.lastLu
where
  /-- the order of times -/
  time : Option Int → Option Int → Prop
  | none, _ => True
  | some _, none => False
  | some x, some y => x ≤ y

/-- What SQLite may return for the query: the rows that meet the condition, once each, in the
order asked for.  Rows that compare equal come in any order. -/
def Answers (d : Db) (q : Query) (rows : List SubRow) : Prop :=
  rows.Perm (d.subs.filter q.cond) ∧ rows.Pairwise q.before

/-- What the listing needs of SQLite: the rows it returns for a query, and its message for an
error. -/
structure Lite where
  rows : Db → Query → List SubRow
  msg : Bytes

/-- SQLite answers as it should. -/
def Lite.Ok (l : Lite) : Prop := ∀ d q, Answers d q (l.rows d q)

/-! ## The loop (db_hlr.c 689-721) -/

/-- The callback's argument (db_hlr.c 698-707): the other members are zero. -/
def entry (ls : Bool) (r : SubRow) : HlrSubscr :=
  { id := r.id, imsi := strlcpy 16 r.imsi, msisdn := strlcpy 16 (r.msisdn.getD []), imei := strlcpy 16 (r.imei.getD [])
    vlrNumber := [], sgsnNumber := [], namCs := r.namCs, namPs := r.namPs, purgedCs := false, purgedPs := false
    lastLu := if ls then r.lastLu.getD 0 else 0, lastLuPs := 0, vlrViaProxy := none, sgsnViaProxy := none }

/-- sqlite3_step() until no more rows (`true`) or an error (`false`): the rows it gave.  Each
step may fail. -/
def steps : List SubRow → DbM (List SubRow × Bool)
  | [] => do
    let ok ← stmt (fun d => (true, d)) false
    pure ([], ok)
  | r :: l => do
    let ok ← stmt (fun d => (true, d)) false
    if ok then do
      let (rs, e) ← steps l
      pure (r :: rs, e)
    else pure ([], false)

/-! ## The table -/

/-- `printf("%-Ns")`. -/
def padR (n : Nat) (s : Bytes) : Bytes := s ++ List.replicate (n - s.length) 32

/-- dump_last_lu_seen with `only_age` (hlr_vty_subscr.c 48-76). -/
def lastAge (ck : Clock) (t : Int) : Bytes :=
  if t = 0 then []
  else match Sys.timestampAge ck.now t with
    | (false, _) => b " (invalid timestamp)\n"
    | (true, a) => b " (" ++ lastLu.unit 100 86400 a ++ lastLu.unit 104 3600 (a % 86400)
      ++ lastLu.unit 109 60 (a % 86400 % 3600) ++ lastLu.unit 115 1 (a % 86400 % 3600 % 60) ++ b " ago)"

/-- The IMEI column (hlr_vty_subscr.c 175-183). -/
def imeiCol (i : Bytes) : Bytes :=
  if i.isEmpty then b "   ------------- "
  else match luhn i 14 with
    | none => b "  " ++ padR 14 i ++ b " (INVALID LENGTH!)"
    | some c => b "  " ++ padR 14 i ++ [c]

/-- subscr_dump_summary_vty (hlr_vty_subscr.c 168-190). -/
def summary (ck : Clock) (s : HlrSubscr) : Bytes :=
  padR 5 (u64 s.id) ++ b "  " ++ padR 12 (if s.msisdn.isEmpty then b "none" else s.msisdn) ++ b "  "
    ++ padR 16 (if s.imsi.isEmpty then b "none" else s.imsi)
    ++ imeiCol s.imei
    ++ b "   " ++ padR 2 (if s.namCs then b "CS" else []) ++ padR 2 (if s.namPs then b "PS" else []) ++ b "  "
    ++ lastAge ck s.lastLu ++ b "\n"

/-- dump_summary_table_vty (hlr_vty_subscr.c 217-234). -/
def table (header ls : Bool) : Bytes :=
  let texts := b "ID     MSISDN        IMSI              IMEI              NAM" ++ (if ls then b "    LAST SEEN" else [])
  let lines := b "-----  ------------  ----------------  ----------------  -----" ++ (if ls then b "  ------------" else [])
  if header then texts ++ b "\n" ++ lines ++ b "\n" else lines ++ b "\n" ++ texts ++ b "\n"

/-- Does the query show when subscribers were last seen (hlr_vty_subscr.c 241)? -/
def Query.ls : Query → Bool
  | .lastSeen => true
  | _ => false

/-- Does `$search` fit `char search[256]` (db_hlr.c 649, 682)? -/
def Query.fits : Query → Bool
  | .filter _ s => (search s).length < 256
  | _ => true

/-- The error (hlr_vty_subscr.c 250-251). -/
def errLine : Option Bytes → Bytes
  | none => []
  | some e => b "% " ++ e ++ b "\n"

/-- What get_subscrs() writes after the header: the rows, a second header if there are many,
their number, and the error if any (hlr_vty_subscr.c 243-252). -/
def report (ck : Clock) (ls : Bool) (rows : List SubRow) (err : Option Bytes) : Bytes :=
  (rows.map fun r => summary ck (entry ls r)).flatten
    ++ (if rows.length > 40 then table false ls else [])
    ++ (if rows.length > 0 then b " Subscribers Shown: " ++ dec rows.length ++ b "\n" else [])
    ++ errLine err

/-- get_subscrs (hlr_vty_subscr.c 236-254) with db_subscrs_get (db_hlr.c 644-722).  Writing
`$search` beyond its buffer is undefined.  Binding it does not fail here. -/
def list (lite : Lite) (ck : Clock) (q : Query) : DbM Res :=
  if !q.fits then pure .ub
  else do
    let rows ← (fun w => (some (lite.rows w.db q), w) : DbM (List SubRow))
    let (got, ok) ← steps rows
    pure (if !ok then warn (table true q.ls ++ report ck q.ls got (some lite.msg))
      else if got.isEmpty then warn (table true q.ls ++ report ck q.ls got (some (b "No matching subscriber(s)")))
      else success (table true q.ls ++ report ck q.ls got none))

/-! ## Lemmas -/

theorem steps_run (l : List SubRow) (w : World) : ∃ o t, steps l w = (o, { db := w.db, script := t })
    ∧ (o = none ∨ o = some (l, true) ∨ ∃ got, got <+: l ∧ o = some (got, false)) := by
  induction l generalizing w with
  | nil =>
    unfold steps
    rw [bind_run]
    rcases w with ⟨d, sc⟩
    cases sc with
    | nil => exact ⟨_, _, rfl, .inr (.inl rfl)⟩
    | cons f sc =>
      cases f with
      | ok => exact ⟨_, _, rfl, .inr (.inl rfl)⟩
      | ioerr => exact ⟨_, _, rfl, .inr (.inr ⟨[], List.nil_prefix, rfl⟩)⟩
      | crash => exact ⟨_, _, rfl, .inl rfl⟩
  | cons r l ih =>
    unfold steps
    rw [bind_run]
    rcases w with ⟨d, sc⟩
    have next (t : Script) : ∃ o t', (do
        let (rs, e) ← steps l
        pure (r :: rs, e) : DbM (List SubRow × Bool)) { db := d, script := t } = (o, { db := d, script := t' })
        ∧ (o = none ∨ o = some (r :: l, true) ∨ ∃ got, got <+: r :: l ∧ o = some (got, false)) := by
      obtain ⟨o, t', e, ho⟩ := ih { db := d, script := t }
      rw [bind_run, e]
      rcases ho with rfl | rfl | ⟨got, hp, rfl⟩
      · exact ⟨_, _, rfl, .inl rfl⟩
      · exact ⟨_, _, rfl, .inr (.inl rfl)⟩
      · exact ⟨_, _, rfl, .inr (.inr ⟨r :: got, List.cons_prefix_cons.mpr ⟨rfl, hp⟩, rfl⟩)⟩
    cases sc with
    | nil => exact next []
    | cons f sc =>
      cases f with
      | ok => exact next sc
      | ioerr => exact ⟨_, _, rfl, .inr (.inr ⟨[], List.nil_prefix, rfl⟩)⟩
      | crash => exact ⟨_, _, rfl, .inl rfl⟩

theorem steps_ok (l : List SubRow) (d : Db) (sc : Script) (h : ∀ f ∈ sc, f = .ok) :
    (steps l { db := d, script := sc }).1 = some (l, true) := by
  induction l generalizing sc with
  | nil =>
    unfold steps
    rw [bind_run]
    cases sc with
    | nil => rfl
    | cons f sc =>
      obtain rfl := h f (by simp)
      rfl
  | cons r l ih =>
    unfold steps
    rw [bind_run]
    have next (t : Script) (ht : ∀ f ∈ t, f = .ok) : ((do
        let (rs, e) ← steps l
        pure (r :: rs, e) : DbM (List SubRow × Bool)) { db := d, script := t }).1 = some (r :: l, true) := by
      have := ih t ht
      rw [bind_run]
      rcases hx : steps l { db := d, script := t } with ⟨o, w⟩
      rw [hx] at this
      dsimp only at this
      subst this
      rfl
    cases sc with
    | nil => exact next [] (by simp)
    | cons f sc =>
      obtain rfl := h f (by simp)
      exact next sc (fun f hf => h f (by simp [hf]))

theorem mem_tails {t u : Bytes} : u ∈ tails t ↔ ∃ a, t = a ++ u := by
  induction t with
  | nil =>
    unfold tails
    constructor
    · intro h; simp only [List.mem_singleton] at h; subst h; exact ⟨[], rfl⟩
    · rintro ⟨a, h⟩
      have := (List.append_eq_nil_iff.mp h.symm).2
      simp [this]
  | cons c t ih =>
    unfold tails
    rw [List.mem_cons, ih]
    constructor
    · rintro (rfl | ⟨a, rfl⟩)
      · exact ⟨[], rfl⟩
      · exact ⟨c :: a, rfl⟩
    · rintro ⟨a, h⟩
      cases a with
      | nil => exact .inl h.symm
      | cons x a => cases h; exact .inr ⟨a, rfl⟩

theorem lower_digit {x c : UInt8} (hc : 48 ≤ c ∧ c ≤ 57) : lower x = lower c ↔ x = c := by
  refine ⟨fun h => ?_, fun h => by rw [h]⟩
  simp only [UInt8.le_iff_toNat_le] at hc
  have k1 : (48 : UInt8).toNat = 48 := rfl
  have k2 : (57 : UInt8).toNat = 57 := rfl
  have k3 : (65 : UInt8).toNat = 65 := rfl
  have k4 : (90 : UInt8).toNat = 90 := rfl
  rw [k1, k2] at hc
  unfold lower at h
  rw [if_neg (c := (65 ≤ c && c ≤ 90) = true) (by
    simp only [Bool.and_eq_true, decide_eq_true_eq, UInt8.le_iff_toNat_le, k3, k4]
    omega)] at h
  split at h
  · rename_i hx
    simp only [Bool.and_eq_true, decide_eq_true_eq, UInt8.le_iff_toNat_le, k3, k4] at hx
    have := congrArg UInt8.toNat h
    rw [UInt8.toNat_add] at this
    have k5 : (32 : UInt8).toNat = 32 := rfl
    omega
  · exact h

/-- A text without wildcards. -/
def Plain (s : Bytes) : Prop := ∀ c ∈ s, c ≠ 37 ∧ c ≠ 95

theorem like_prefix {s v : Bytes} (hs : Plain s) (hv : ∀ c ∈ v, 48 ≤ c ∧ c ≤ 57) :
    like (s ++ [37]) v = true ↔ ∃ c, v = s ++ c := by
  induction s generalizing v with
  | nil =>
    have : like ([] ++ [37]) v = true := by
      show like [37] v = true
      unfold like
      rw [if_pos rfl, List.any_eq_true]
      exact ⟨[], mem_tails.mpr ⟨v, by simp⟩, rfl⟩
    exact ⟨fun _ => ⟨v, rfl⟩, fun _ => this⟩
  | cons x s ih =>
    obtain ⟨h1, h2⟩ := hs x (by simp)
    rw [List.cons_append]
    unfold like
    rw [if_neg h1]
    cases v with
    | nil =>
      constructor
      · intro h; cases h
      · rintro ⟨c, h⟩; cases h
    | cons c v =>
      dsimp only
      rw [Bool.and_eq_true, ih (fun c hc => hs c (by simp [hc])) (fun c hc => hv c (by simp [hc])), Bool.or_eq_true,
        beq_iff_eq, beq_iff_eq, lower_digit (hv c (by simp))]
      constructor
      · rintro ⟨h | h, t, rfl⟩
        · exact absurd h h2
        · exact ⟨t, by rw [h]; rfl⟩
      · rintro ⟨t, h⟩
        cases h
        exact ⟨.inr rfl, t, rfl⟩

/-- With a plain filter the condition is that the column contains it. -/
theorem like_contains {s v : Bytes} (hs : Plain s) (hv : ∀ c ∈ v, 48 ≤ c ∧ c ≤ 57) :
    like ([37] ++ s ++ [37]) v = true ↔ ∃ a c, v = a ++ s ++ c := by
  show like (37 :: (s ++ [37])) v = true ↔ _
  unfold like
  rw [if_pos rfl, List.any_eq_true]
  constructor
  · rintro ⟨u, hu, h⟩
    obtain ⟨a, rfl⟩ := mem_tails.mp hu
    obtain ⟨c, rfl⟩ := (like_prefix hs fun c hc => hv c (by simp [hc])).mp h
    exact ⟨a, c, by simp⟩
  · rintro ⟨a, c, rfl⟩
    refine ⟨s ++ c, mem_tails.mpr ⟨a, by simp⟩, ?_⟩
    refine (like_prefix hs fun x hx => hv x ?_).mpr ⟨c, rfl⟩
    simp only [List.mem_append] at hx ⊢
    rcases hx with hx | hx
    · exact .inl (.inr hx)
    · exact .inr hx

theorem list_run (lite : Lite) (ck : Clock) (q : Query) (d : Db) (sc : Script) (hf : q.fits = true) :
    (exec (list lite ck q) d sc).2 = d
    ∧ ((exec (list lite ck q) d sc).1 = none
      ∨ (lite.rows d q ≠ [] ∧ (exec (list lite ck q) d sc).1 = some (success (table true q.ls ++ report ck q.ls (lite.rows d q) none)))
      ∨ (lite.rows d q = [] ∧ (exec (list lite ck q) d sc).1
          = some (warn (table true q.ls ++ report ck q.ls [] (some (b "No matching subscriber(s)")))))
      ∨ ∃ got, got <+: lite.rows d q
        ∧ (exec (list lite ck q) d sc).1 = some (warn (table true q.ls ++ report ck q.ls got (some lite.msg)))) := by
  have e0 : exec (list lite ck q) d sc = exec (do
      let (got, ok) ← steps (lite.rows d q)
      pure (if !ok then warn (table true q.ls ++ report ck q.ls got (some lite.msg))
        else if got.isEmpty then warn (table true q.ls ++ report ck q.ls got (some (b "No matching subscriber(s)")))
        else success (table true q.ls ++ report ck q.ls got none))) d sc := by
    unfold list
    rw [hf]
    rfl
  rw [e0]
  unfold exec
  rw [bind_run]
  obtain ⟨o, t, e, ho⟩ := steps_run (lite.rows d q) { db := d, script := sc }
  rw [e]
  rcases ho with rfl | rfl | ⟨got, hp, rfl⟩
  · exact ⟨rfl, .inl rfl⟩
  · refine ⟨rfl, .inr ?_⟩
    cases hr : lite.rows d q with
    | nil => exact .inr (.inl ⟨rfl, rfl⟩)
    | cons a l => exact .inl ⟨by simp, rfl⟩
  · exact ⟨rfl, .inr (.inr (.inr ⟨got, hp, rfl⟩))⟩

theorem list_ok (lite : Lite) (ck : Clock) (q : Query) (d : Db) (sc : Script) (hsc : ∀ f ∈ sc, f = .ok) (hf : q.fits = true) :
    (exec (list lite ck q) d sc).1
      = some (if lite.rows d q = [] then warn (table true q.ls ++ report ck q.ls [] (some (b "No matching subscriber(s)")))
        else success (table true q.ls ++ report ck q.ls (lite.rows d q) none)) := by
  have e0 : exec (list lite ck q) d sc = exec (do
      let (got, ok) ← steps (lite.rows d q)
      pure (if !ok then warn (table true q.ls ++ report ck q.ls got (some lite.msg))
        else if got.isEmpty then warn (table true q.ls ++ report ck q.ls got (some (b "No matching subscriber(s)")))
        else success (table true q.ls ++ report ck q.ls got none))) d sc := by
    unfold list
    rw [hf]
    rfl
  rw [e0]
  unfold exec
  rw [bind_run]
  have hs := steps_ok (lite.rows d q) d sc hsc
  rcases hx : steps (lite.rows d q) { db := d, script := sc } with ⟨o, w⟩
  rw [hx] at hs
  dsimp only at hs
  subst hs
  cases lite.rows d q <;> rfl

end Verif.Prov.Listing
