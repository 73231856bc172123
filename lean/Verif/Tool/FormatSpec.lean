import Verif.Tool.Spec
/-!
# What the lines of the lookup program have to look like
-/
namespace Verif.Tool.Spec
open Verif Verif.Mslookup Verif.Sys

/-- The decimal notation of a number, without leading zeros. -/
def Decimal (ds : Bytes) (n : Nat) : Prop := ds ≠ [] ∧ (∀ c ∈ ds, 48 ≤ c ∧ c ≤ 57) ∧ (ds.head? = some 48 → ds = [48]) ∧ value ds = n

/-- The name of a kind of result. -/
def kind : Rc → Bytes
  | .none => b "none"
  | .result => b "result"
  | .notFound => b "not-found"

/-! ## Tab-separated columns -/

def columns (line : Bytes) : List Bytes := pieces (fun c => decide (c = 9)) line

/-- What a line has in the column with this header. -/
def column (name line : Bytes) : Option Bytes := (((columns csvHeaders).zip (columns line)).find? (fun x => decide (x.1 = name))).map (·.2)

/-! ## JSON -/

inductive Json where
  | str (s : Bytes)
  | num (n : Nat)
  | bool (v : Bool)
  | arr (l : List Json)
  | obj (l : List (Bytes × Json))

/-- A string that needs no escapes. -/
def Plain (s : Bytes) : Prop := ∀ c ∈ s, 32 ≤ c ∧ c ≤ 126 ∧ c ≠ 34 ∧ c ≠ 92

def Blank (s : Bytes) : Prop := ∀ c ∈ s, c = 32 ∨ c = 9 ∨ c = 10 ∨ c = 13

mutual
/-- The grammar of RFC 8259, as far as it is needed here: strings of printable ASCII characters
without escapes, natural numbers, arrays and objects that are not empty, white space after commas
and colons. -/
inductive Text : Json → Bytes → Prop
  | str (s : Bytes) : Plain s → Text (.str s) (34 :: (s ++ [34]))
  | num (n : Nat) (ds : Bytes) : Decimal ds n → Text (.num n) ds
  | true : Text (.bool true) (b "true")
  | false : Text (.bool false) (b "false")
  | arr (l : List Json) (s : Bytes) : Items l s → Text (.arr l) (91 :: (s ++ [93]))
  | obj (l : List (Bytes × Json)) (s : Bytes) : Members l s → Text (.obj l) (123 :: (s ++ [125]))
/-- Values, separated by commas. -/
inductive Items : List Json → Bytes → Prop
  | one (j : Json) (s : Bytes) : Text j s → Items [j] s
  | more (j : Json) (l : List Json) (s w t : Bytes) : Text j s → Blank w → Items l t → Items (j :: l) (s ++ 44 :: (w ++ t))
/-- Names and values, separated by commas. -/
inductive Members : List (Bytes × Json) → Bytes → Prop
  | one (k : Bytes) (j : Json) (w s : Bytes) : Plain k → Blank w → Text j s → Members [(k, j)] (34 :: (k ++ 34 :: 58 :: (w ++ s)))
  | more (k : Bytes) (j : Json) (l : List (Bytes × Json)) (w s w' t : Bytes) : Plain k → Blank w → Text j s → Blank w' → Members l t →
      Members ((k, j) :: l) (34 :: (k ++ 34 :: 58 :: (w ++ s)) ++ 44 :: (w' ++ t))
end

/-- The address of a service: IP address and port. -/
def addrJson (cfg : Cfg) (name : Bytes) (a : Addr) : List (Bytes × Json) :=
  if a.nonzero then [(name, .arr [.str (cfg.ip a), .str (Mdns.dec a.port)])] else []

/-- The answer to a query, as an object. -/
def answer (cfg : Cfg) (text : Bytes) : Option Result → Json
  | none => .obj [(b "query", .str text), (b "result", .str (b "ERROR"))]
  | some r => .obj ([(b "query", .str text), (b "result", .str (kind r.rc)), (b "last", .bool r.last), (b "age", .num r.age)]
      ++ if r.rc = .result then addrJson cfg (b "v4") r.v4 ++ addrJson cfg (b "v6") r.v6 else [])

/-- IP addresses are written in at most 45 characters, none of which is special. -/
def IpText (cfg : Cfg) : Prop := ∀ a, (cfg.ip a).length ≤ 45 ∧ Plain (cfg.ip a)

end Verif.Tool.Spec
