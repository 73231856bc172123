import Verif.Base
/-!
# Specification for C74: command lines as documented

An option has a one-letter name, a full name, and may take an argument (the help texts).  What a
command line says is defined by the ways to write it, as in the GNU conventions; nothing here refers
to how it is read.
-/
namespace Verif.Start
open Verif

/-- One line of a help text. -/
structure Doc where
  short : Option UInt8 := none
  long : Bytes
  arg : Bool := false
deriving DecidableEq, Repr

/-- An option as given: its full name, and its argument if it takes one. -/
structure Item where
  name : Bytes
  arg : Option Bytes := none
deriving DecidableEq, Repr

/-- The full name of an option, or a beginning of it that is not one of another option's, stands
for it. -/
inductive Names (ds : List Doc) : Bytes → Doc → Prop
  | full {d : Doc} : d ∈ ds → Names ds d.long d
  | part {w : Bytes} {d : Doc} : d ∈ ds → w ≠ [] → w <+: d.long → (∀ d' ∈ ds, w <+: d'.long → d' = d) → Names ds w d

/-- The one-letter names of options without argument, written together. -/
def letters (fs : List Doc) : Bytes := fs.filterMap (·.short)

/-- `fs` are options without arguments that have one-letter names. -/
def Flags (ds fs : List Doc) : Prop := ∀ d ∈ fs, d ∈ ds ∧ d.arg = false ∧ d.short.isSome = true

/-- A word that is no option. -/
def IsWord (w : Bytes) : Prop := w = [45] ∨ ∀ u, w ≠ 45 :: u

/-- `Cmdline ds posix ws is ps`: the words `ws` of a command line (without the name of the program)
say the options `is`, in this order, and the words `ps` that are not options. -/
inductive Cmdline (ds : List Doc) (posix : Bool) : List Bytes → List Item → List Bytes → Prop
  | nil : Cmdline ds posix [] [] []
  /-- `-- …` -/
  | stop (ws : List Bytes) : Cmdline ds posix ([45, 45] :: ws) [] ws
  | word {w : Bytes} {ws is ps} : posix = false → IsWord w → Cmdline ds posix ws is ps → Cmdline ds posix (w :: ws) is (w :: ps)
  | words {w : Bytes} {ws} : posix = true → IsWord w → Cmdline ds posix (w :: ws) [] (w :: ws)
  /-- `--name` -/
  | long {w : Bytes} {d : Doc} {ws is ps} : Names ds w d → d.arg = false → Cmdline ds posix ws is ps →
      Cmdline ds posix ((45 :: 45 :: w) :: ws) (⟨d.long, none⟩ :: is) ps
  /-- `--name argument` -/
  | longNext {w a : Bytes} {d : Doc} {ws is ps} : Names ds w d → d.arg = true → Cmdline ds posix ws is ps →
      Cmdline ds posix ((45 :: 45 :: w) :: a :: ws) (⟨d.long, some a⟩ :: is) ps
  /-- `--name=argument` -/
  | longEq {w a : Bytes} {d : Doc} {ws is ps} : Names ds w d → d.arg = true → Cmdline ds posix ws is ps →
      Cmdline ds posix ((45 :: 45 :: (w ++ 61 :: a)) :: ws) (⟨d.long, some a⟩ :: is) ps
  /-- `-xyz` -/
  | flags {fs : List Doc} {ws is ps} : fs ≠ [] → Flags ds fs → Cmdline ds posix ws is ps →
      Cmdline ds posix ((45 :: letters fs) :: ws) (fs.map (fun d => ⟨d.long, none⟩) ++ is) ps
  /-- `-xyzARGUMENT`, where `z` takes an argument -/
  | glued {fs : List Doc} {d : Doc} {c : UInt8} {a : Bytes} {ws is ps} : Flags ds fs → d ∈ ds → d.short = some c → d.arg = true →
      a ≠ [] → Cmdline ds posix ws is ps →
      Cmdline ds posix ((45 :: (letters fs ++ c :: a)) :: ws) (fs.map (fun d => ⟨d.long, none⟩) ++ ⟨d.long, some a⟩ :: is) ps
  /-- `-xyz ARGUMENT`, where `z` takes an argument -/
  | next {fs : List Doc} {d : Doc} {c : UInt8} {a : Bytes} {ws is ps} : Flags ds fs → d ∈ ds → d.short = some c → d.arg = true →
      Cmdline ds posix ws is ps →
      Cmdline ds posix ((45 :: (letters fs ++ [c])) :: a :: ws) (fs.map (fun d => ⟨d.long, none⟩) ++ ⟨d.long, some a⟩ :: is) ps

/-- An option is given. -/
def Given (name : Bytes) (is : List Item) : Prop := ∃ i ∈ is, i.name = name

/-- The argument of an option, given last; if not given, the default. -/
def lastArg (name : Bytes) (dflt : Bytes) (is : List Item) : Bytes :=
  ((is.filter (fun i => i.name == name)).getLast?.bind (·.arg)).getD dflt

end Verif.Start
