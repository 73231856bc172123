import Verif.Start.CmdSpec
/-!
# Specification for C74: the documented options of the programs
-/
namespace Verif.Start
open Verif

/-- The options of osmo-hlr (print_help, hlr.c 594-612). -/
def hlrDoc : List Doc := [
  { short := some 104, long := [104, 101, 108, 112] },
  { short := some 99, long := [99, 111, 110, 102, 105, 103, 45, 102, 105, 108, 101], arg := true },
  { short := some 108, long := [100, 97, 116, 97, 98, 97, 115, 101], arg := true },
  { short := some 100, long := [100, 101, 98, 117, 103], arg := true },
  { short := some 68, long := [100, 97, 101, 109, 111, 110, 105, 122, 101] },
  { short := some 115, long := [100, 105, 115, 97, 98, 108, 101, 45, 99, 111, 108, 111, 114] },
  { short := some 84, long := [116, 105, 109, 101, 115, 116, 97, 109, 112] },
  { short := some 101, long := [108, 111, 103, 45, 108, 101, 118, 101, 108], arg := true },
  { short := some 85, long := [100, 98, 45, 117, 112, 103, 114, 97, 100, 101] },
  { short := some 67, long := [100, 98, 45, 99, 104, 101, 99, 107] },
  { short := some 86, long := [118, 101, 114, 115, 105, 111, 110] },
  { long := [118, 116, 121, 45, 114, 101, 102, 45, 109, 111, 100, 101], arg := true },
  { long := [118, 116, 121, 45, 114, 101, 102, 45, 120, 109, 108] }]

example : hlrDoc.map (fun d => (d.short, d.long, d.arg)) = [
  (some 104, b "help", false),
  (some 99, b "config-file", true),
  (some 108, b "database", true),
  (some 100, b "debug", true),
  (some 68, b "daemonize", false),
  (some 115, b "disable-color", false),
  (some 84, b "timestamp", false),
  (some 101, b "log-level", true),
  (some 85, b "db-upgrade", false),
  (some 67, b "db-check", false),
  (some 86, b "version", false),
  (none, b "vty-ref-mode", true),
  (none, b "vty-ref-xml", false)] := by decide +kernel

/-- The same without the one-letter option `-C`. -/
def hlrDocNoC : List Doc := hlrDoc.map fun d => if d.short = some 67 then { d with short := none } else d

/-- The options of osmo-hlr-db-tool (print_help, hlr_db_tool.c 54-77). -/
def dbToolDoc : List Doc := [
  { short := some 108, long := [100, 97, 116, 97, 98, 97, 115, 101], arg := true },
  { short := some 104, long := [104, 101, 108, 112] },
  { short := some 100, long := [100, 101, 98, 117, 103], arg := true },
  { short := some 115, long := [100, 105, 115, 97, 98, 108, 101, 45, 99, 111, 108, 111, 114] },
  { short := some 84, long := [116, 105, 109, 101, 115, 116, 97, 109, 112] },
  { short := some 101, long := [108, 111, 103, 45, 108, 101, 118, 101, 108], arg := true },
  { short := some 85, long := [100, 98, 45, 117, 112, 103, 114, 97, 100, 101] },
  { short := some 86, long := [118, 101, 114, 115, 105, 111, 110] }]

example : dbToolDoc.map (fun d => (d.short, d.long, d.arg)) = [
  (some 108, b "database", true),
  (some 104, b "help", false),
  (some 100, b "debug", true),
  (some 115, b "disable-color", false),
  (some 84, b "timestamp", false),
  (some 101, b "log-level", true),
  (some 85, b "db-upgrade", false),
  (some 86, b "version", false)] := by decide +kernel

/-- The options of osmo-mslookup-client (print_help, osmo-mslookup-client.c 56-192; `--version -V` is
not in its help text). -/
def lookupDoc : List Doc := [
  { short := some 102, long := [102, 111, 114, 109, 97, 116], arg := true },
  { short := some 72, long := [110, 111, 45, 99, 115, 118, 45, 104, 101, 97, 100, 101, 114, 115] },
  { short := some 100, long := [100, 97, 101, 109, 111, 110] },
  { short := some 109, long := [109, 100, 110, 115, 45, 105, 112], arg := true },
  { short := some 77, long := [109, 100, 110, 115, 45, 112, 111, 114, 116], arg := true },
  { short := some 68, long := [109, 100, 110, 115, 45, 100, 111, 109, 97, 105, 110, 45, 115, 117, 102, 102, 105, 120], arg := true },
  { short := some 116, long := [109, 105, 110, 45, 100, 101, 108, 97, 121], arg := true },
  { short := some 84, long := [116, 105, 109, 101, 111, 117, 116], arg := true },
  { short := some 115, long := [115, 111, 99, 107, 101, 116], arg := true },
  { short := some 83, long := [115, 101, 110, 100] },
  { short := some 113, long := [113, 117, 105, 101, 116] },
  { short := some 104, long := [104, 101, 108, 112] },
  { short := some 86, long := [118, 101, 114, 115, 105, 111, 110] }]

example : lookupDoc.map (fun d => (d.short, d.long, d.arg)) = [
  (some 102, b "format", true),
  (some 72, b "no-csv-headers", false),
  (some 100, b "daemon", false),
  (some 109, b "mdns-ip", true),
  (some 77, b "mdns-port", true),
  (some 68, b "mdns-domain-suffix", true),
  (some 116, b "min-delay", true),
  (some 84, b "timeout", true),
  (some 115, b "socket", true),
  (some 83, b "send", false),
  (some 113, b "quiet", false),
  (some 104, b "help", false),
  (some 86, b "version", false)] := by decide +kernel

/-- The options that make a program print something and exit. -/
def Info (is : List Item) : Prop :=
  Given (b "help") is ∨ Given (b "version") is ∨ Given (b "vty-ref-mode") is ∨ Given (b "vty-ref-xml") is

end Verif.Start
