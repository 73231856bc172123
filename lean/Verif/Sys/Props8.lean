import Verif.Sys.VlrHist
/-!
# C50: the stored location is that of the last Location Update
-/
namespace Verif.Sys.Props
open Verif Verif.Db Verif.Sys Verif.Gsup

/-- C50: in every history, what the database shows as location of a subscriber in a domain is
nothing, or the node and proxy of a Location Update Request that this HLR received for that
subscriber and domain, after which no other Location Update was begun for them; the time
shown is that of this request.  (The part missing: if the update could not be stored
completely the time may be missing or that of an earlier request, `c50_time_violated`.) -/
theorem c50_location_partial (d : Db) (hU : Unique d) (hd : ∀ r ∈ d.subs, Unlocated r) (evs : List (Cfg × Ev))
    (hev : ∀ x ∈ evs, x.2.NoPlace) (r : SubRow) (hr : r ∈ (run (init d) evs).db.subs) (ps : Bool) :
    (nodeOf r ps = none ∧ viaOf r ps = none ∧ timeOf r ps = none)
    ∨ ∃ n now acc, nodeOf r ps = some n ∧ LuLast d evs r.imsi ps n (viaOf r ps) now acc
      ∧ (timeOf r ps = now ∨ ¬ acc ∧ (timeOf r ps = none
        ∨ ∃ n' via' now' acc', timeOf r ps = now' ∧ LuReceived d evs r.imsi ps n' via' now' acc')) := by
  rcases place_run d hU hd evs hev r hr ps with h | ⟨n, via, now, acc, h1, h2, h3, h4⟩
  · exact .inl h
  · subst h2; exact .inr ⟨n, now, acc, h1, h3, h4⟩

/-- C50: a subscriber for whom no Location Update Request of the domain was ever received has
no location in it. -/
theorem c50_none (d : Db) (hU : Unique d) (hd : ∀ r ∈ d.subs, Unlocated r) (evs : List (Cfg × Ev))
    (hev : ∀ x ∈ evs, x.2.NoPlace) (r : SubRow) (hr : r ∈ (run (init d) evs).db.subs) (ps : Bool)
    (hno : ∀ n via now acc, ¬ LuReceived d evs r.imsi ps n via now acc) :
    nodeOf r ps = none ∧ viaOf r ps = none ∧ timeOf r ps = none := by
  rcases place_run d hU hd evs hev r hr ps with h | ⟨n, via, now, acc, -, -, h3, -⟩
  · exact h
  · exact absurd h3.received (hno n via now acc)

/-- The histories of the examples: a completed Location Update of MSC-1, then one of MSC-2 at
time 60, whose statements may fail. -/
def exMove (sc : Script) : List Ev :=
  exTwo ++ [.rx 1 (some ulMsg) {}, .rx 1 (some ackMsg) {}, .rx 2 (some ulMsg) { now := some 60, sc := sc }]

example : (∀ ev ∈ exMove [], ev.NoPlace) ∧ Unique {} ∧ (∀ r ∈ ({} : Db).subs, Unlocated r)
    ∧ (runWith exCfg (init {}) (exMove [])).db.subs.map (fun r => (nodeOf r false, viaOf r false, timeOf r false, nodeOf r true))
      = [(some (b "MSC-2"), none, some 60, none)] := by
  refine ⟨?_, Verif.Db.Props.unique_empty, (fun r h => by cases h), by decide +kernel⟩
  intro ev h
  simp only [exMove, exTwo, List.cons_append, List.nil_append, List.mem_cons, List.not_mem_nil, or_false] at h
  rcases h with rfl | rfl | rfl | rfl | rfl | rfl | rfl | rfl | rfl <;> simp [Ev.NoPlace, NotLu]

/-- C50 does not hold in full: MSC-2's Location Update of time 60 is refused because its second
statement fails, but the database then shows MSC-2, with the time of MSC-1's. -/
theorem c50_time_violated :
    (runWith exCfg (init {}) (exMove [.ok, .ok, .ok, .ioerr])).db.subs.map (fun r => (nodeOf r false, timeOf r false))
      = [(some (b "MSC-2"), some 0)]
    ∧ (responses (runWith exCfg (init {}) (exMove [.ok, .ok, .ok, .ioerr]))).head? = some (2, UPDATE_LOCATION + 1, 3) := by
  decide +kernel

end Verif.Sys.Props
