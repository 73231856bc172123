import Verif.Base
/-!
# From `sql/hlr.sql` to the statements in the program: `src/db_sql2c.sed`, `src/Makefile.am` 112-119

The sed script turns each line of the SQL file into a piece of C, and the compiler reads the result as the list of strings `stmt_bootstrap_sql`, which
the program runs one by one to make an empty database (`DbOpen`).

Simplified: of C only what may occur between the braces of the list is modelled: strings, with the escapes `\n`, `\"` and `\\`, commas, and blanks;
everything else counts as an error of the compiler.
-/
namespace Verif.Sql2c
open Verif

/-- The replacement of the first command: the line in quotes, with `\n` at its end. -/
def quote (l : Bytes) : Bytes := 34 :: (l ++ [92, 110, 34])

/-- `s/^\(.*[^;]\)\(;\|\)$/"\1\\n"\2/` (db_sql2c.sed 23): a line that is not empty and does not end in `;`, or has exactly one `;` at its end and
something before it. -/
def subst1 (l : Bytes) : Bytes :=
  match l.getLast? with
  | none => l
  | some c =>
    if c = 59 then
      match l.dropLast.getLast? with
      | none => l
      | some c' => if c' = 59 then l else quote l.dropLast ++ [59]
    else quote l

/-- `s/;$/,/` (db_sql2c.sed 25). -/
def subst2 (l : Bytes) : Bytes := if l.getLast? = some 59 then l.dropLast ++ [44] else l

/-- db_sql2c.sed on a line. -/
def sedLine (l : Bytes) : Bytes := subst2 (subst1 l)

/-- `cat … | sed -f db_sql2c.sed` (Makefile.am 116-118) on the lines of the file. -/
def sql2c (lines : List Bytes) : Bytes := lines.flatMap fun l => sedLine l ++ [10]

/-- Where the compiler is: between strings, in a string, after a backslash in a string. -/
inductive Mode where
  | code | str | esc
deriving DecidableEq, Repr

/-- The compiler reading the elements of a list of strings: `cur` is the element being read, of which adjacent strings are put together; `none`
is an error. -/
def compile : Mode → Option Bytes → List Bytes → Bytes → Option (List Bytes)
  | .code, cur, acc, [] => some (acc ++ cur.toList)
  | .str, _, _, [] => none
  | .esc, _, _, [] => none
  | .code, cur, acc, c :: r =>
    if c = 34 then compile .str (some (cur.getD [])) acc r
    else if c = 44 then
      match cur with
      | none => none
      | some s => compile .code none (acc ++ [s]) r
    else if c = 32 ∨ c = 9 ∨ c = 10 then compile .code cur acc r
    else none
  | .str, cur, acc, c :: r =>
    if c = 34 then compile .code cur acc r
    else if c = 92 then compile .esc cur acc r
    else if c = 10 then none
    else compile .str (some (cur.getD [] ++ [c])) acc r
  | .esc, cur, acc, c :: r =>
    if c = 110 then compile .str (some (cur.getD [] ++ [10])) acc r
    else if c = 34 ∨ c = 92 then compile .str (some (cur.getD [] ++ [c])) acc r
    else none

/-- stmt_bootstrap_sql, made from the lines of the SQL file (Makefile.am 112-119). -/
def stmts (lines : List Bytes) : Option (List Bytes) := compile .code none [] (sql2c lines)

end Verif.Sql2c
