import Verif.Start.Spec
import Verif.Start.Getopt2
import Verif.Start.Model
/-!
# Reading the options: lemmas for C74
-/
namespace Verif.Start
open Verif

theorem n_config_file : b "config-file" = [99, 111, 110, 102, 105, 103, 45, 102, 105, 108, 101] := by decide +kernel
theorem n_daemon : b "daemon" = [100, 97, 101, 109, 111, 110] := by decide +kernel
theorem n_daemonize : b "daemonize" = [100, 97, 101, 109, 111, 110, 105, 122, 101] := by decide +kernel
theorem n_database : b "database" = [100, 97, 116, 97, 98, 97, 115, 101] := by decide +kernel
theorem n_db_check : b "db-check" = [100, 98, 45, 99, 104, 101, 99, 107] := by decide +kernel
theorem n_db_upgrade : b "db-upgrade" = [100, 98, 45, 117, 112, 103, 114, 97, 100, 101] := by decide +kernel
theorem n_debug : b "debug" = [100, 101, 98, 117, 103] := by decide +kernel
theorem n_disable_color : b "disable-color" = [100, 105, 115, 97, 98, 108, 101, 45, 99, 111, 108, 111, 114] := by decide +kernel
theorem n_format : b "format" = [102, 111, 114, 109, 97, 116] := by decide +kernel
theorem n_help : b "help" = [104, 101, 108, 112] := by decide +kernel
theorem n_log_level : b "log-level" = [108, 111, 103, 45, 108, 101, 118, 101, 108] := by decide +kernel
theorem n_mdns_domain_suffix : b "mdns-domain-suffix" = [109, 100, 110, 115, 45, 100, 111, 109, 97, 105, 110, 45, 115, 117, 102, 102, 105, 120] := by decide +kernel
theorem n_mdns_ip : b "mdns-ip" = [109, 100, 110, 115, 45, 105, 112] := by decide +kernel
theorem n_mdns_port : b "mdns-port" = [109, 100, 110, 115, 45, 112, 111, 114, 116] := by decide +kernel
theorem n_min_delay : b "min-delay" = [109, 105, 110, 45, 100, 101, 108, 97, 121] := by decide +kernel
theorem n_no_csv_headers : b "no-csv-headers" = [110, 111, 45, 99, 115, 118, 45, 104, 101, 97, 100, 101, 114, 115] := by decide +kernel
theorem n_quiet : b "quiet" = [113, 117, 105, 101, 116] := by decide +kernel
theorem n_send : b "send" = [115, 101, 110, 100] := by decide +kernel
theorem n_socket : b "socket" = [115, 111, 99, 107, 101, 116] := by decide +kernel
theorem n_timeout : b "timeout" = [116, 105, 109, 101, 111, 117, 116] := by decide +kernel
theorem n_timestamp : b "timestamp" = [116, 105, 109, 101, 115, 116, 97, 109, 112] := by decide +kernel
theorem n_version : b "version" = [118, 101, 114, 115, 105, 111, 110] := by decide +kernel
theorem n_vty_ref_mode : b "vty-ref-mode" = [118, 116, 121, 45, 114, 101, 102, 45, 109, 111, 100, 101] := by decide +kernel
theorem n_vty_ref_xml : b "vty-ref-xml" = [118, 116, 121, 45, 114, 101, 102, 45, 120, 109, 108] := by decide +kernel

/-- The tables of osmo-hlr are as documented, apart from `-C`. -/
theorem hlr_agree : Agree hlrOpts hlrDocNoC where
  long := by decide +kernel
  docs := by decide +kernel
  uniq := by decide +kernel
  duniq := by decide +kernel
  short := by decide +kernel
  shorts := by decide +kernel
  suniq := by decide +kernel
  names := by decide +kernel
  dash := by decide +kernel
  several := by decide +kernel

/-- The tables of osmo-hlr-db-tool are as documented. -/
theorem dbTool_agree : Agree dbToolOpts dbToolDoc where
  long := by decide +kernel
  docs := by decide +kernel
  uniq := by decide +kernel
  duniq := by decide +kernel
  short := by decide +kernel
  shorts := by decide +kernel
  suniq := by decide +kernel
  names := by decide +kernel
  dash := by decide +kernel
  several := by decide +kernel

/-- The tables of osmo-mslookup-client are as documented. -/
theorem lookup_agree : Agree lookupOpts lookupDoc where
  long := by decide +kernel
  docs := by decide +kernel
  uniq := by decide +kernel
  duniq := by decide +kernel
  short := by decide +kernel
  shorts := by decide +kernel
  suniq := by decide +kernel
  names := by decide +kernel
  dash := by decide +kernel
  several := by decide +kernel

/-! ## The loop over the options -/

theorem options_snoc {α : Type} (f : α → Tok → Parsed α) (a : α) (ts : List Tok) (t : Tok) :
    options f a (ts ++ [t]) = match options f a ts with
      | .go a' => f a' t
      | .exit acts ok => .exit acts ok := by
  induction ts generalizing a with
  | nil => simp only [List.nil_append, options]; cases f a t <;> rfl
  | cons x ts ih =>
    simp only [List.cons_append, options]
    cases f a x with
    | go a' => exact ih a'
    | exit acts ok => rfl

theorem lastArg_snoc (name d : Bytes) (is : List Item) (i : Item) :
    lastArg name d (is ++ [i]) = if i.name = name then i.arg.getD d else lastArg name d is := by
  unfold lastArg
  by_cases h : i.name = name
  · simp [h, List.filter_append]
  · simp [h, List.filter_append]

theorem given_snoc (name : Bytes) (is : List Item) (i : Item) : Given name (is ++ [i]) ↔ Given name is ∨ i.name = name := by
  unfold Given
  simp [or_and_right, exists_or]

instance (name : Bytes) (is : List Item) : Decidable (Given name is) := by unfold Given; infer_instance

theorem item_induction {P : List Item → Prop} (h0 : P []) (h1 : ∀ is i, P is → P (is ++ [i])) : ∀ is, P is := by
  intro is
  rw [← List.reverse_reverse is]
  generalize is.reverse = r
  induction r with
  | nil => exact h0
  | cons i r ih => rw [List.reverse_cons]; exact h1 _ _ ih

/-- The items are among the options of the documentation. -/
def Proper (ds : List Doc) (is : List Item) : Prop := ∀ i ∈ is, ∃ d ∈ ds, d.long = i.name ∧ i.arg.isSome = d.arg

/-- What `osmo-hlr` takes from the options. -/
def hlrArgsOf (is : List Item) : HlrArgs where
  config := lastArg (b "config-file") (b "osmo-hlr.cfg") is
  db := if Given (b "database") is then some (lastArg (b "database") [] is) else none
  daemonize := decide (Given (b "daemonize") is)
  upgrade := decide (Given (b "db-upgrade") is)
  check := decide (Given (b "db-check") is)

/-- An option prints something and ends the program. -/
def hlrInfo (i : Item) : Bool := i.name == b "help" || i.name == b "version" || i.name == b "vty-ref-mode" || i.name == b "vty-ref-xml"

theorem hlrDocNoC_eq : hlrDocNoC = [
  { short := some 104, long := [104, 101, 108, 112] },
  { short := some 99, long := [99, 111, 110, 102, 105, 103, 45, 102, 105, 108, 101], arg := true },
  { short := some 108, long := [100, 97, 116, 97, 98, 97, 115, 101], arg := true },
  { short := some 100, long := [100, 101, 98, 117, 103], arg := true },
  { short := some 68, long := [100, 97, 101, 109, 111, 110, 105, 122, 101] },
  { short := some 115, long := [100, 105, 115, 97, 98, 108, 101, 45, 99, 111, 108, 111, 114] },
  { short := some 84, long := [116, 105, 109, 101, 115, 116, 97, 109, 112] },
  { short := some 101, long := [108, 111, 103, 45, 108, 101, 118, 101, 108], arg := true },
  { short := some 85, long := [100, 98, 45, 117, 112, 103, 114, 97, 100, 101] },
  { long := [100, 98, 45, 99, 104, 101, 99, 107] },
  { short := some 86, long := [118, 101, 114, 115, 105, 111, 110] },
  { long := [118, 116, 121, 45, 114, 101, 102, 45, 109, 111, 100, 101], arg := true },
  { long := [118, 116, 121, 45, 114, 101, 102, 45, 120, 109, 108] }] := by decide +kernel

theorem hlr_option (w : World) (is : List Item) (i : Item) (hi : ∃ d ∈ hlrDocNoC, d.long = i.name ∧ i.arg.isSome = d.arg) :
    match hlrOption w (hlrArgsOf is) (hlrOpts.tok i) with
    | .go a => a = hlrArgsOf (is ++ [i])
    | .exit acts _ => hlrInfo i = true ∧ ∀ x ∈ acts, x = .help ∨ x = .version ∨ x = .vtyRef := by
  obtain ⟨d, hd, h1, h2⟩ := hi
  obtain ⟨name, arg⟩ := i
  dsimp only at h1 h2
  subst h1
  rw [hlrDocNoC_eq] at hd
  simp only [List.mem_cons, List.not_mem_nil, or_false] at hd
  rcases hd with rfl | rfl | rfl | rfl | rfl | rfl | rfl | rfl | rfl | rfl | rfl | rfl | rfl <;>
    cases arg with
    | none => first
      | (simp at h2; done)
      | (simp [Opts.tok, hlrOpts, Long.tok, hlrOption, hlrArgsOf, lastArg_snoc, given_snoc, hlrInfo, n_help, n_version, n_vty_ref_mode, n_vty_ref_xml, n_config_file, n_database,
          n_daemonize, n_db_upgrade, n_db_check]; done)
    | some a => first
      | (simp at h2; done)
      | (simp [Opts.tok, hlrOpts, Long.tok, hlrOption, hlrArgsOf, lastArg_snoc, given_snoc, hlrInfo, n_help, n_version, n_vty_ref_mode, n_vty_ref_xml, n_config_file, n_database,
          n_daemonize, n_db_upgrade, n_db_check]; done)
      | (by_cases hr : w.refMode a = true <;> simp [hr, Opts.tok, hlrOpts, Long.tok, hlrOption, hlrArgsOf, lastArg_snoc, given_snoc, hlrInfo, n_help, n_version, n_vty_ref_mode, n_vty_ref_xml, n_config_file, n_database,
          n_daemonize, n_db_upgrade, n_db_check]; done)

theorem hlr_options (w : World) (is : List Item) (hp : Proper hlrDocNoC is) :
    match options (hlrOption w) {} (is.map hlrOpts.tok) with
    | .go a => a = hlrArgsOf is
    | .exit acts _ => (∃ i ∈ is, hlrInfo i = true) ∧ ∀ x ∈ acts, x = .help ∨ x = .version ∨ x = .vtyRef := by
  induction is using item_induction with
  | h0 =>
    show ({} : HlrArgs) = hlrArgsOf []
    decide +kernel
  | h1 is i ih =>
    have ih := ih (fun x hx => hp x (by simp [hx]))
    have hi := hlr_option w is i (hp i (by simp))
    rw [List.map_append, List.map_cons, List.map_nil, options_snoc]
    cases ho : options (hlrOption w) {} (is.map hlrOpts.tok) with
    | go a =>
      rw [ho] at ih
      dsimp only at ih ⊢
      rw [ih]
      cases ho2 : hlrOption w (hlrArgsOf is) (hlrOpts.tok i) with
      | go a' => rw [ho2] at hi; exact hi
      | exit x y => rw [ho2] at hi; exact ⟨⟨i, by simp, hi.1⟩, hi.2⟩
    | exit acts ok =>
      rw [ho] at ih
      obtain ⟨⟨j, hj, h1⟩, h2⟩ := ih
      exact ⟨⟨j, by simp [hj], h1⟩, h2⟩

/-- The options are read, or their reading ends with an error or an answer. -/
theorem bad_exits {α : Type} (f : α → Tok → Parsed α) (hf : ∀ a, ∃ x y, f a .bad = .exit x y) (ts : List Tok) (hb : .bad ∈ ts) (a : α) :
    ∃ x y, options f a ts = .exit x y := by
  induction ts generalizing a with
  | nil => cases hb
  | cons t ts ih =>
    rw [options]
    rcases List.mem_cons.1 hb with rfl | hb
    · obtain ⟨x, y, e⟩ := hf a
      rw [e]; exact ⟨x, y, rfl⟩
    · cases f a t with
      | go a' => exact ih hb a'
      | exit x y => exact ⟨x, y, rfl⟩

end Verif.Start
