import Verif.Start.Props2
import Verif.Start.Props3
import Verif.Start.Props5

/-!
# Asking a program for its help, its version or its VTY reference

Such an option is answered when it is reached: the first one decides, and whatever follows it is not
looked at.
-/

namespace Verif.Start
open Verif

theorem options_stop {α : Type} (f : α → Tok → Parsed α) {a a' : α} {ts : List Tok} {t : Tok} {x : List Act} {y : Bool}
    (h1 : options f a ts = .go a') (h2 : f a' t = .exit x y) (r : List Tok) : options f a (ts ++ t :: r) = .exit x y := by
  induction ts generalizing a with
  | nil =>
    cases h1
    rw [List.nil_append, options, h2]
  | cons s ts ih =>
    rw [options] at h1
    rw [List.cons_append, options]
    cases hs : f a s with
    | go a1 => rw [hs] at h1; exact ih h1
    | exit _ _ => rw [hs] at h1; cases h1

theorem lookupOptions_stop (isIp : Bytes → Bool) {a a' : LookupArgs} {ts : List Tok} {t : Tok} {x : List Act} {y m : Bool}
    (h1 : lookupOptions isIp a ts = .go a') (h2 : lookupOption isIp a' t = .exit x y m) (r : List Tok) :
    lookupOptions isIp a (ts ++ t :: r) = .exit x y m := by
  induction ts generalizing a with
  | nil =>
    cases h1
    rw [List.nil_append, lookupOptions, h2]
  | cons s ts ih =>
    rw [lookupOptions] at h1
    rw [List.cons_append, lookupOptions]
    cases hs : lookupOption isIp a s with
    | go a1 => rw [hs] at h1; exact ih h1
    | exit _ _ _ => rw [hs] at h1; cases h1

/-- What is printed for an option that asks for something. -/
inductive Asks : Bytes → Act → Prop
  | help : Asks (b "help") .help
  | version : Asks (b "version") .version

/-- osmo-hlr can also print the reference of its VTY commands. -/
inductive AsksHlr : Bytes → Act → Prop
  | plain {n x} (h : Asks n x) : AsksHlr n x
  | vty : AsksHlr (b "vty-ref-xml") .vtyRef

theorem hlrOption_asks (w : World) (a : HlrArgs) {i : Item} {x : Act} (hx : AsksHlr i.name x) :
    hlrOption w a (hlrOpts.tok i) = .exit [x] true := by
  obtain ⟨name, arg⟩ := i
  dsimp only at hx
  cases hx with
  | plain h => cases h <;> simp [Opts.tok, hlrOpts, Long.tok, hlrOption, n_help, n_version]
  | vty => simp [Opts.tok, hlrOpts, Long.tok, hlrOption, n_vty_ref_xml]

theorem dbToolOption_asks (a : DbToolArgs) {i : Item} {x : Act} (hx : Asks i.name x) :
    dbToolOption a (dbToolOpts.tok i) = .exit [x] true := by
  obtain ⟨name, arg⟩ := i
  dsimp only at hx
  cases hx <;> simp [Opts.tok, dbToolOpts, Long.tok, dbToolOption, n_help, n_version]

theorem lookupOption_asks (isIp : Bytes → Bool) (a : LookupArgs) {i : Item} {x : Act} (hx : Asks i.name x) :
    lookupOption isIp a (lookupOpts.tok i) = .exit [x] true false := by
  obtain ⟨name, arg⟩ := i
  dsimp only at hx
  cases hx <;> simp [Opts.tok, lookupOpts, Long.tok, lookupOption, n_help, n_version]

/-- **C74.** `osmo-hlr --help`, `--version` and `--vty-ref-xml`, written in any documented way and with
whatever before (that does not ask too) and after: exactly that is printed, the program ends with
status 0, and neither the configuration nor any database is touched. -/
theorem c74_hlr_asked (w : World) (ws : List Bytes) (pre post : List Item) (i : Item) (ps : List Bytes) (x : Act)
    (hc : Cmdline hlrDocNoC w.posix ws (pre ++ i :: post) ps) (hi : ¬ Info pre) (hx : AsksHlr i.name x) :
    (hlrMain w ws).acts = [x] ∧ (hlrMain w ws).status = .ok ∧ (hlrMain w ws).disk = w.disk := by
  have e : hlrHandle w ws = .exit [x] true := by
    unfold hlrHandle
    rw [hlr_agree.reads hc, List.map_append, List.map_cons]
    have hp := hlr_options w pre (fun j hj => hc.items j (by simp [hj]))
    cases ho : options (hlrOption w) {} (pre.map hlrOpts.tok) with
    | exit y z =>
      rw [ho] at hp
      exact absurd ((hlrInfo_iff pre).1 hp.1) hi
    | go a =>
      dsimp only
      rw [options_stop _ ho (hlrOption_asks w a hx)]
  unfold hlrMain
  rw [e]
  exact ⟨rfl, rfl, rfl⟩

/-- **C74.** The same for osmo-hlr-db-tool, whatever command is given. -/
theorem c74_dbtool_asked (w : World) (imp : Bytes → DFile → Bool × DFile) (ws : List Bytes) (pre post : List Item) (i : Item)
    (ps : List Bytes) (x : Act) (hc : Cmdline dbToolDoc w.posix ws (pre ++ i :: post) ps)
    (hi : ¬ (Given (b "help") pre ∨ Given (b "version") pre)) (hx : Asks i.name x) :
    (dbToolMain w imp ws).acts = [x] ∧ (dbToolMain w imp ws).status = .ok ∧ (dbToolMain w imp ws).disk = w.disk := by
  have e : dbToolHandle w ws = .exit [x] true := by
    unfold dbToolHandle
    rw [dbTool_agree.reads hc, List.map_append, List.map_cons]
    have hp := dbTool_options pre (fun j hj => hc.items j (by simp [hj]))
    cases ho : options dbToolOption {} (pre.map dbToolOpts.tok) with
    | exit y z =>
      rw [ho] at hp
      obtain ⟨⟨j, hj, h⟩, _⟩ := hp
      simp only [dbToolInfo, Bool.or_eq_true, beq_iff_eq] at h
      exact absurd (h.elim (fun h => .inl ⟨j, hj, h⟩) (fun h => .inr ⟨j, hj, h⟩)) hi
    | go a =>
      dsimp only
      rw [options_stop _ ho (dbToolOption_asks a hx)]
  unfold dbToolMain
  rw [e]
  exact ⟨rfl, rfl, rfl⟩

/-- **C74.** The same for osmo-mslookup-client, if the options before have arguments that can be read. -/
theorem c74_lookup_asked (posix : Bool) (isIp : Bytes → Bool) (ipText : Sys.Addr → Bytes) (ws : List Bytes) (pre post : List Item)
    (i : Item) (ps : List Bytes) (x : Act) (hc : Cmdline lookupDoc posix ws (pre ++ i :: post) ps)
    (hok : ∀ j ∈ pre, ArgOk isIp j) (hi : ¬ (Given (b "help") pre ∨ Given (b "version") pre)) (hx : Asks i.name x) :
    lookupMain posix isIp ipText ws = .exit [x] true false := by
  unfold lookupMain
  rw [lookup_agree.reads hc, List.map_append, List.map_cons]
  have ho := lookup_options isIp pre (fun j hj => hc.items j (by simp [hj])) hok hi
  dsimp only
  rw [lookupOptions_stop isIp ho (lookupOption_asks isIp _ hx)]

/-! ## Examples -/

-- osmo-hlr -U --vty-ref-x -h start: the reference is printed
example : Cmdline hlrDocNoC false (["-U", "--vty-ref-x", "-h", "start"].map b)
      ([⟨b "db-upgrade", none⟩] ++ ⟨b "vty-ref-xml", none⟩ :: [⟨b "help", none⟩]) [b "start"] ∧
    ¬ Info [⟨b "db-upgrade", none⟩] ∧ AsksHlr (b "vty-ref-xml") .vtyRef := by
  refine ⟨?_, by unfold Info; decide +kernel, .vty⟩
  have h1 : Cmdline hlrDocNoC false [b "-h", b "start"] [⟨b "help", none⟩] [b "start"] :=
    .flags (fs := [{ short := some 104, long := b "help" }]) (by simp) (by unfold Flags; decide +kernel)
      (.word rfl (.inr (fun u hu => by
        have : (b "start").head? = some 115 := by decide +kernel
        rw [hu] at this
        cases this)) .nil)
  have h2 := Cmdline.long (w := b "vty-ref-x") (d := { long := b "vty-ref-xml" })
    (.part (by decide +kernel) (by decide +kernel) (by decide +kernel) (by decide +kernel)) rfl h1
  exact .flags (fs := [dUpgrade]) (by simp) (by unfold Flags; decide +kernel) h2

-- osmo-hlr-db-tool -hV, osmo-mslookup-client -Vh
example : Cmdline dbToolDoc true [b "-hV"] ([] ++ ⟨b "help", none⟩ :: [⟨b "version", none⟩]) [] ∧
    Cmdline lookupDoc true [b "-Vh"] ([] ++ ⟨b "version", none⟩ :: [⟨b "help", none⟩]) [] :=
  ⟨.flags (fs := [{ short := some 104, long := b "help" }, { short := some 86, long := b "version" }]) (by simp)
      (by unfold Flags; decide +kernel) .nil,
    .flags (fs := [{ short := some 86, long := b "version" }, { short := some 104, long := b "help" }]) (by simp)
      (by unfold Flags; decide +kernel) .nil⟩

end Verif.Start
