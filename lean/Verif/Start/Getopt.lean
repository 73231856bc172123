import Verif.Base
/-!
# Command line options: glibc's `getopt_long`

All programs of the project read their options with `getopt_long(argc, argv, …)` and stop at the
first error.  This is the function of glibc (posix/getopt.c), as documented in getopt(3): option
string without leading `+`, `-` or `:` and without `::` and `W;`, long options without optional
arguments.  It goes through the words in order; words that are no options are moved behind all
others, unless POSIXLY_CORRECT is set in the environment, when the first of them ends the options.
-/
namespace Verif.Start
open Verif

/-- A member of `struct option []`: name, `has_arg`, whether `flag` is set, `val`. -/
structure Long where
  name : Bytes
  arg : Bool := false
  flag : Bool := false
  val : Nat
deriving DecidableEq, Repr

/-- The option string and the long options. -/
structure Opts where
  short : List (UInt8 × Bool)
  long : List Long

/-- What one call of getopt_long() returns: an option's character and `optarg`; 0, after `val` was
stored where `flag` points; or '?'. -/
inductive Tok where
  | opt (c : Nat) (arg : Option Bytes)
  | flagged (v : Nat) (arg : Option Bytes)
  | bad
deriving DecidableEq, Repr

/-- The result for a long option. -/
def Long.tok (l : Long) (arg : Option Bytes) : Tok := if l.flag then .flagged l.val arg else .opt l.val arg

/-- The part of a word before '=', and the part behind it. -/
def cutEq : Bytes → Bytes × Option Bytes
  | [] => ([], none)
  | c :: w => if c = 61 then ([], some w) else (c :: (cutEq w).1, (cutEq w).2)

/-- The long option a name stands for: the one with this name, or else the one it is the beginning
of, if all such ones are alike. -/
def findLong (ls : List Long) (w : Bytes) : Option Long :=
  match ls.find? (fun l => l.name == w) with
  | some l => some l
  | none => match ls.filter (fun l => w.isPrefixOf l.name) with
    | [] => none
    | l :: m => if m.all (fun x => x.arg == l.arg && x.flag == l.flag && x.val == l.val) then some l else none

/-- The options in a word that begins with a single '-': the results, and the character of the last
one if its argument is the next word. -/
def cluster (ss : List (UInt8 × Bool)) : Bytes → List Tok × Option Nat
  | [] => ([], none)
  | c :: w =>
    match ss.find? (fun s => s.1 == c) with
    | none => (.bad :: (cluster ss w).1, (cluster ss w).2)
    | some s =>
      if s.2 then (if w.isEmpty then ([], some c.toNat) else ([.opt c.toNat (some w)], none))
      else (.opt c.toNat none :: (cluster ss w).1, (cluster ss w).2)

/-- The option in a word that begins with "--", without these: its results, or what the next word,
its argument, gives. -/
def longWord (ls : List Long) (w : Bytes) : Tok ⊕ (Bytes → Tok) :=
  match findLong ls (cutEq w).1 with
  | none => .inl .bad
  | some l => match (cutEq w).2 with
    | some a => .inl (if l.arg then l.tok (some a) else .bad)
    | none => if l.arg then .inr (fun a => l.tok (some a)) else .inl (l.tok none)

/-- All calls of getopt_long(): the results until it returns -1, and the words from `optind` on. -/
def scan (o : Opts) (posix : Bool) : List Bytes → List Tok × List Bytes
  | [] => ([], [])
  | w :: ws =>
    if w = [45, 45] then ([], ws)
    else match w with
      | 45 :: 45 :: w' =>
        match longWord o.long w' with
        | .inl t => (t :: (scan o posix ws).1, (scan o posix ws).2)
        | .inr f => match ws with
          | [] => ([.bad], [])
          | a :: ws' => (f a :: (scan o posix ws').1, (scan o posix ws').2)
      | 45 :: c :: w' =>
        match (cluster o.short (c :: w')).2 with
        | none => ((cluster o.short (c :: w')).1 ++ (scan o posix ws).1, (scan o posix ws).2)
        | some v => match ws with
          | [] => ((cluster o.short (c :: w')).1 ++ [.bad], [])
          | a :: ws' => ((cluster o.short (c :: w')).1 ++ .opt v (some a) :: (scan o posix ws').1, (scan o posix ws').2)
      | _ => if posix then ([], w :: ws) else ((scan o posix ws).1, w :: (scan o posix ws).2)

end Verif.Start
