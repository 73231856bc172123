import Verif.Tool.Model
import Verif.Mslookup.DomainProps
import Verif.Mslookup.ClientSpec
/-!
# What the users of the lookup program see

The record of what happened is a list, the latest first.
-/
namespace Verif.Tool.Spec
open Verif Verif.Mslookup Verif.Tool

/-! ## Query lines -/

/-- The pieces between the bytes that satisfy `p`. -/
def pieces (p : UInt8 → Bool) : Bytes → List Bytes
  | [] => [[]]
  | c :: s => if p c then [] :: pieces p s else match pieces p s with
    | [] => [[c]]
    | x :: l => (c :: x) :: l

/-- A packet carries the first of its lines that is not empty.  A NUL byte ends it. -/
def line (d : Bytes) : Option Bytes :=
  (pieces (fun c => decide (c = 13 ∨ c = 10)) (d.takeWhile (fun c => decide (c ≠ 0)))).find? (fun l => decide (l ≠ []))

/-- The query without the part up to the first '@'. -/
def domain (line : Bytes) : Bytes := if (64 : UInt8) ∈ line then (line.dropWhile (fun c => decide (c ≠ 64))).drop 1 else line

/-- The value of decimal digits. -/
def value (ds : Bytes) : Nat := ds.foldl (fun n c => n * 10 + (c.toNat - 48)) 0

/-- A number of milliseconds as it can be written: nothing for 0, or digits, after white space
and a sign if one likes, of a value below 2^32. -/
def Number (s : Bytes) (x : Nat) : Prop :=
  s = [] ∧ x = 0
  ∨ ∃ sp sg ds, s = sp ++ sg ++ ds ∧ (∀ c ∈ sp, c = 32 ∨ 9 ≤ c ∧ c ≤ 13) ∧ (sg = [] ∨ sg = [43] ∨ sg = [45] ∧ x = 0)
      ∧ ds ≠ [] ∧ (∀ c ∈ ds, 48 ≤ c ∧ c ≤ 57) ∧ x = value ds ∧ x < 2 ^ 32

/-- `[[delay-][timeout]@]domain`: the minimum delay and the timeout that are asked for. -/
inductive Times (cfg : Cfg) : Bytes → Bytes → Nat → Nat → Prop
  | plain (d : Bytes) : (64 : UInt8) ∉ d → Times cfg d d cfg.minDelay cfg.timeout
  | timeout (a d : Bytes) (to : Nat) : (64 : UInt8) ∉ a → (45 : UInt8) ∉ a → a.length ≤ 15 → Number a to →
      Times cfg (a ++ 64 :: d) d 0 to
  | both (a c d : Bytes) (mn to : Nat) : (64 : UInt8) ∉ a → (45 : UInt8) ∉ a → (64 : UInt8) ∉ c → (a ++ 45 :: c).length ≤ 15 →
      Number a mn → Number c to → Times cfg (a ++ 45 :: c ++ 64 :: d) d mn to

/-- The line asks for this query, with this minimum delay and timeout: `service.number.id` of less
than 128 bytes, where the type of the id may be written in capitals too. -/
def Asks (cfg : Cfg) (line : Bytes) (q : Query) (mn to : Nat) : Prop :=
  ∃ d typ, Times cfg line d mn to ∧ d.length < 128 ∧ Mslookup.Spec.Valid q
    ∧ d = q.service ++ 46 :: (idText q.id ++ 46 :: typ) ∧ Mslookup.Spec.SameUpToCase typ (typeName q.id)

/-! ## Connections -/

/-- What a connection is doing. -/
inductive Conn where
  | none
  /-- it is open, and has not sent anything -/
  | fresh
  /-- it has sent this query line -/
  | asking (line : Bytes)
  /-- it waits for the results of lookup `u`, with the domain string it had asked for -/
  | waiting (u : Nat) (domain : Bytes)
  | over
deriving DecidableEq, Repr

/-- What a connection gets. -/
inductive Out where
  | line (s : Bytes)
  | close
deriving DecidableEq, Repr

def Conn.isOpen : Conn → Bool
  | .none => false
  | .over => false
  | _ => true

/-- The line in a packet, if it is not too long. -/
def lineIn (d : Bytes) : Option Bytes := if d.length < 1024 then line d else Option.none

/-- What connection `n` has to get when something happens. -/
def next (cfg : Cfg) (n : Nat) : Conn → Obs → Conn × List Out
  /- the headers, when it is accepted -/
  | .none, .accepted m => if m = n then (.fresh, if !cfg.json && cfg.headers then [.line csvHeaders] else []) else (.none, [])
  /- it sends a query -/
  | .fresh, .asked m d => if m = n then match lineIn d with
      | Option.none => (.over, [.close])
      | some l => (.asking l, [])
    else (.fresh, [])
  /- which starts a lookup -/
  | .asking l, .started (some m) l' u _ _ _ => if m = n ∧ l' = l then (.waiting u (domain l), []) else (.asking l, [])
  /- or is refused -/
  | .asking l, .refused (some m) l' => if m = n ∧ l' = l then (.over, [.line (fmt cfg (domain l) Option.none), .close])
    else (.asking l, [])
  /- the results of its lookup, the last of which ends the connection -/
  | .waiting u dom, .result v r =>
    if v = u then (if r.last then .over else .waiting u dom, .line (fmt cfg dom (some r)) :: if r.last then [.close] else [])
    else (.waiting u dom, [])
  /- a second query is refused -/
  | .waiting u dom, .asked m d => if m = n then match lineIn d with
      | Option.none => (.over, [.close])
      | some l => (.waiting u dom, [.line (fmt cfg (domain l) Option.none)])
    else (.waiting u dom, [])
  /- it hangs up, or the program ends -/
  | s, .ended m => if m = n ∧ s.isOpen then (.over, [.close]) else (s, [])
  | s, .exit => if s.isOpen then (.over, [.close]) else (s, [])
  | s, _ => (s, [])

/-- What connection `n` is doing, and all that it has to get. -/
def conn (cfg : Cfg) (n : Nat) : List Obs → Conn × List Out
  | [] => (.none, [])
  | o :: log => ((next cfg n (conn cfg n log).1 o).1, (conn cfg n log).2 ++ (next cfg n (conn cfg n log).1 o).2)

/-- What connection `n` gets by this. -/
def gets (n : Nat) : Obs → List Out
  | .line m s => if m = n then [.line s] else []
  | .closed m => if m = n then [.close] else []
  | _ => []

/-- What connection `n` got. -/
def got (n : Nat) : List Obs → List Out
  | [] => []
  | o :: log => got n log ++ gets n o

/-! ## Lookups -/

/-- The lookups that are running, with the domain strings that were asked for. -/
def running : List Obs → List (Nat × Bytes)
  | [] => []
  | .started _ l u _ _ _ :: log => (u, domain l) :: running log
  | .result u r :: log => if r.last then (running log).filter (fun x => decide (x.1 ≠ u)) else running log
  | _ :: log => running log

/-- The results of lookup `u`. -/
def results (u : Nat) : List Obs → List Result
  | [] => []
  | .result v r :: log => if v = u then results u log ++ [r] else results u log
  | _ :: log => results u log

/-- The callbacks in the history of a request of the lookup client. -/
def callbacksOf : List Client.Obs → List Result
  | [] => []
  | .cb r :: t => callbacksOf t ++ [r]
  | _ :: t => callbacksOf t

/-- Nobody asks for a domain string while a lookup of the same domain string is running, nor for
an empty one. -/
def Distinct : List Obs → Prop
  | [] => True
  | .started _ l _ _ _ _ :: log => Distinct log ∧ domain l ≠ [] ∧ ∀ u, (u, domain l) ∉ running log
  | .refused _ l :: log => Distinct log ∧ domain l ≠ [] ∧ ∀ u, (u, domain l) ∉ running log
  | _ :: log => Distinct log

instance decDistinct : (log : List Obs) → Decidable (Distinct log)
  | [] => .isTrue trivial
  | .started _ l _ _ _ _ :: log => by
    have := decDistinct log
    have : Decidable (∀ u, (u, domain l) ∉ running log) := decidable_of_iff (domain l ∉ (running log).map (·.2))
      ⟨fun h u hu => h (List.mem_map_of_mem (f := (·.2)) hu), fun h hm => by obtain ⟨x, hx, e⟩ := List.mem_map.1 hm; exact h x.1 (e ▸ hx)⟩
    exact inferInstanceAs (Decidable (_ ∧ _ ∧ _))
  | .refused _ l :: log => by
    have := decDistinct log
    have : Decidable (∀ u, (u, domain l) ∉ running log) := decidable_of_iff (domain l ∉ (running log).map (·.2))
      ⟨fun h u hu => h (List.mem_map_of_mem (f := (·.2)) hu), fun h hm => by obtain ⟨x, hx, e⟩ := List.mem_map.1 hm; exact h x.1 (e ▸ hx)⟩
    exact inferInstanceAs (Decidable (_ ∧ _ ∧ _))
  | .accepted _ :: log => decDistinct log
  | .asked _ _ :: log => decDistinct log
  | .ended _ :: log => decDistinct log
  | .result _ _ :: log => decDistinct log
  | .exit :: log => decDistinct log
  | .line _ _ :: log => decDistinct log
  | .closed _ :: log => decDistinct log
  | .stdout _ :: log => decDistinct log

/-- How many queries have been answered: refused, or looked up to the end. -/
def answered : List Obs → Nat
  | [] => 0
  | .refused _ _ :: log => answered log + 1
  | .result _ r :: log => if r.last then answered log + 1 else answered log
  | _ :: log => answered log

/-- The query that begins with this, and where it comes from. -/
def query : Obs → List (Option Nat × Bytes)
  | .started o l _ _ _ _ => [(o, l)]
  | .refused o l => [(o, l)]
  | _ => []

/-- All queries. -/
def queries : List Obs → List (Option Nat × Bytes)
  | [] => []
  | o :: log => queries log ++ query o

/-- The queries of the command line. -/
def ofCommandLine (log : List Obs) : List Bytes := ((queries log).filter (fun x => x.1.isNone)).map (·.2)

/-! ## stdout -/

/-- The lines that are printed when something happens: the answers to all queries, and the
queries received from connections. -/
def prints (cfg : Cfg) (log : List Obs) : Obs → List Bytes
  | .refused o l => fmt cfg (domain l) none :: if o.isSome then [b "query: " ++ l] else []
  | .started o l _ _ _ _ => if o.isSome then [b "query: " ++ l] else []
  | .result u r => match (running log).find? (fun x => decide (x.1 = u)) with
    | some x => [fmt cfg x.2 (some r)]
    | none => []
  | _ => []

/-- The lines that have to be printed after the headers. -/
def toPrint (cfg : Cfg) : List Obs → List Bytes
  | [] => []
  | o :: log => toPrint cfg log ++ prints cfg log o

/-- What was printed. -/
def printed : List Obs → Bytes
  | [] => []
  | .stdout s :: log => printed log ++ s
  | _ :: log => printed log

/-- Lines of text. -/
def lines (l : List Bytes) : Bytes := l.flatMap (fun s => s ++ [10])

end Verif.Tool.Spec
