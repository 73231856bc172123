import Verif.Prov.Listing
/-! # What listing subscribers is meant to do -/
namespace Verif.Prov.Listing
open Verif Verif.Db Verif.Mslookup Verif.Mslookup.Mdns Verif.Prov Verif.Prov.Vty

/-- The subscriber is one to list.  `last-seen` is about the CS domain only. -/
def Matches : Query → SubRow → Prop
  | .all, _ => True
  | .filter f s, r => ∃ v a c, f.col r = some v ∧ v = a ++ s ++ c
  | .nam ps on, r => (if ps then r.namPs else r.namCs) = on
  | .lastSeen, r => ∃ t, r.lastLu = some t

/-- The order of the list: by the number searched; by the time the subscriber was last seen,
those never seen first. -/
def InOrder : Query → SubRow → SubRow → Prop
  | .all, _, _ => True
  | .filter f _, r, q => ∀ x y, f.col r = some x → f.col q = some y → x ≤ y
  | .nam .., r, q => ∀ x, r.lastLu = some x → ∃ y, q.lastLu = some y ∧ x ≤ y
  | .lastSeen, r, q => ∀ x y, r.lastLu = some x → q.lastLu = some y → x ≤ y

/-- The list for a query: every subscriber to list, once, and no other, in order. -/
structure IsList (d : Db) (q : Query) (rows : List SubRow) : Prop where
  nodup : rows.Nodup
  mem : ∀ r, r ∈ rows ↔ r ∈ d.subs ∧ Matches q r
  order : rows.Pairwise (InOrder q)

/-- A filter that is a part of a number: no SQL wildcard, not `on` or `off`, and not too long. -/
def Query.Ok : Query → Prop
  | .filter _ s => (∀ c ∈ s, c ≠ 37 ∧ c ≠ 95) ∧ s ≠ b "on" ∧ s ≠ b "off" ∧ s.length ≤ 253
  | _ => True

/-- A value in a column of a table. -/
def column (n : Nat) (v : Bytes) : Bytes := if v.length < n then v ++ List.replicate (n - v.length) 32 else v

/-- How long ago the subscriber was seen. -/
def agoText (ck : Clock) : Option Int → Bytes
  | none => []
  | some t =>
    if t = 0 then []
    else if 0 ≤ ck.now - t ∧ ck.now - t < 2 ^ 32 then b " (" ++ ageText (ck.now - t).toNat ++ b " ago)"
    else b " (invalid timestamp)\n"

/-- The line for a subscriber. -/
def rowText (ck : Clock) (q : Query) (r : SubRow) : Bytes :=
  column 5 (u64 r.id) ++ b "  " ++ column 12 (r.msisdn.getD (b "none")) ++ b "  " ++ column 16 r.imsi
  ++ (match r.imei with
      | none => b "   ------------- "
      | some i => b "  " ++ i ++ [checkDigit i])
  ++ b "   " ++ (if r.namCs then b "CS" else b "  ") ++ (if r.namPs then b "PS" else b "  ") ++ b "  "
  ++ (if q = .lastSeen then agoText ck r.lastLu else []) ++ b "\n"

/-- The titles of the columns. -/
def titles (q : Query) : Bytes :=
  b "ID     MSISDN        IMSI              IMEI              NAM" ++ (if q = .lastSeen then b "    LAST SEEN" else []) ++ b "\n"

/-- A line. -/
def rule (q : Query) : Bytes :=
  b "-----  ------------  ----------------  ----------------  -----" ++ (if q = .lastSeen then b "  ------------" else []) ++ b "\n"

/-- The table: titles, a line for each subscriber, the titles again if there are more than 40,
the number of subscribers if there is any. -/
def listText (ck : Clock) (q : Query) (rows : List SubRow) : Bytes :=
  titles q ++ rule q ++ (rows.map (rowText ck q)).flatten
  ++ (if rows.length > 40 then rule q ++ titles q else [])
  ++ (if rows = [] then [] else b " Subscribers Shown: " ++ dec rows.length ++ b "\n")

end Verif.Prov.Listing
