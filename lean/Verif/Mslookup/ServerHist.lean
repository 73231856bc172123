import Verif.Mslookup.ServerProps
import Verif.Sys.VlrHist
import Verif.Sys.Props5
/-!
# C41 for the running HLR: where the answers of the mslookup server come from
-/
namespace Verif.Mslookup.Props
open Verif Verif.Db Verif.Sys Verif.Sys.Props Verif.Gsup Verif.Mslookup

/-- A Location Update for the circuit switched domain was the last procedure begun for the
subscriber; the node sent it to this HLR itself, and was stored.  `a` seconds have passed since
then; if the update could not be stored completely (`acc` is false) the time may be that of
an earlier Location Update, or 0 if none is stored. -/
def Attached (z : Zone) (now : Int) (d : Db) (evs : List (Cfg × Ev)) (imsi vlr : Bytes) (a : Nat) : Prop :=
  ∃ t acc, LuLast d evs imsi false vlr none t acc
    ∧ (z now = parseLastLu z t + a
      ∨ ¬ acc ∧ (z now = a ∨ ∃ n' via' t' acc', LuReceived d evs imsi false n' via' t' acc' ∧ z now = parseLastLu z t' + a))

/-- The HLR passed a Location Update of the node for the circuit switched domain of the
subscriber on to another HLR, which granted it `a` seconds ago. -/
def AttachedByProxy (z : Zone) (now : Int) (d : Db) (evs : List (Cfg × Ev)) (imsi vlr : Bytes) (a : Nat) : Prop :=
  ∃ evs1 cfg addr m e evs2, evs = evs1 ++ (cfg, .remoteRx addr m e) :: evs2 ∧ m.typ = UPDATE_LOCATION + 2 ∧ m.imsi = imsi
    ∧ m.dst = vlr ∧ Requested d evs1 imsi true vlr ∧ z now = e.clock + a

/-- C41 for whole runs: whenever the mslookup server answers a query for a service with an
address, the last thing begun for the subscriber's circuit switched domain was a Location
Update of a node connected to this HLR, stored by it, or a Location Update that it passed on
to another HLR was granted by that HLR; the answer shows the time since then, at most the
configured maximum.  (The part missing: the update need not be completed, see
`c41_incomplete_violated`, `c41_refused_violated`.) -/
theorem c41_running_partial {d : Db} (hU : Unique d) (hd : ∀ r ∈ d.subs, Unlocated r) {evs : List (Cfg × Ev)}
    (hev : ∀ x ∈ evs, x.2.NoPlace) {z : Zone} {now : Int} {c : Srv} {q : Query} {sc : Script} {r : Result}
    (hq : q.service ≠ HLR_GSUP)
    (h : (exec (serverRx z now c (run (init d) evs).proxy q) (run (init d) evs).db sc).1 = some (some r))
    (hr : r.rc = .result) :
    r.age ≤ c.maxAge
    ∧ ((∃ x ∈ (run (init d) evs).db.subs, Spec.Names q.id x ∧ ∃ vlr n, Attached z now d evs x.imsi vlr r.age
        ∧ Spec.Stored vlr n ∧ Spec.Configured c.services n q.service r)
      ∨ (∃ x ∈ (run (init d) evs).proxy, Spec.PNames q.id x.data
        ∧ ∃ n : IpaName, AttachedByProxy z now d evs x.data.imsi n.name r.age ∧ Spec.Configured c.services n q.service r)) := by
  obtain ⟨n, hc, -, ⟨vlr, ⟨x, hx, hn, h1, h2, h3, h4⟩, hst⟩ | ⟨x, hx, hn, h1, h2, h3, h4⟩⟩ := c41_service hq h hr
  · refine ⟨h4.2.1, .inl ⟨x, hx, hn, vlr, n, ?_, hst, hc⟩⟩
    have h4 := h4.1
    rcases place_run d hU hd evs hev x hx false with ⟨e, -⟩ | ⟨n', via, t, acc, e1, e2, e3, e4⟩
    · have : x.vlr = none := e
      rw [this] at h1; cases h1
    · have e1 : x.vlr = some n' := e1
      rw [e1] at h1; cases h1
      have e2 : x.vlrViaProxy = via := e2
      rw [h3] at e2; subst e2
      refine ⟨t, acc, e3, ?_⟩
      rcases e4 with e4 | ⟨hacc, e4 | ⟨n', via', t', acc', e4, e5⟩⟩
      · have e4 : x.lastLu = t := e4
        rw [e4] at h4; exact .inl h4
      · have e4 : x.lastLu = none := e4
        rw [e4] at h4
        refine .inr ⟨hacc, .inl ?_⟩
        have : parseLastLu z none = 0 := rfl
        omega
      · have e4 : x.lastLu = t' := e4
        rw [e4] at h4
        exact .inr ⟨hacc, .inr ⟨n', via', t', acc', e5, h4⟩⟩
  · refine ⟨h4.2.1, .inr ⟨x, hx, hn, n, ?_, hc⟩⟩
    rcases serving_run d evs x hx true with e | ⟨evs1, cfg, a, m, e, evs2, e1, e2, e3, e4, e5, e6⟩
    · have e : x.data.cs.vlr.len = 0 := e
      rw [h1] at e
      exact absurd e h2
    · have e4 : m.dst = x.data.cs.vlr.name := e4
      have e5 : x.data.cs.lastLu = e.clock := e5
      rw [h1] at e4
      exact ⟨evs1, cfg, a, m, e, evs2, e1, e2, e3, e4, by rw [← e4]; exact e6, by rw [← e5]; exact h4.1⟩

/-! ## Examples and counterexamples: two MSCs, a subscriber with number 1001 -/

/-- A query for the voice service of the subscriber. -/
def voice : Query := { service := b "sip.voice", id := .msisdn (b "1001") }

/-- The voice service is configured for all MSCs and for MSC-1. -/
def exSrv : Srv :=
  { services := (execAll [] [.service .server (b "sip.voice") a4, .enter (.msc (b "MSC-1")),
      .service (.msc (b "MSC-1")) (b "sip.voice") b4]).2, bind := a4 }

/-- What the server answers after a history, 90 seconds after the epoch. -/
def ask (evs : List Ev) (q : Query) : Option (Option Result) :=
  (exec (serverRx id 90 exSrv (runWith exCfg (init {}) evs).proxy q) (runWith exCfg (init {}) evs).db []).1

/-- The Location Update of MSC-1 has been completed at time 0: the server answers with the
address of MSC-1's voice service and age 90; after a Location Update of MSC-2, at time 60,
with the address for all MSCs; nobody is found before, nor in a fresh HLR. -/
example : ask (exTwo ++ [.rx 1 (some ulMsg) {}, .rx 1 (some ackMsg) {}]) voice
      = some (some { rc := .result, v4 := b4, age := 90 })
    ∧ ask (exTwo ++ [.rx 1 (some ulMsg) {}, .rx 1 (some ackMsg) {}, .rx 2 (some ulMsg) { now := some 60 }]) voice
      = some (some { rc := .result, v4 := a4, age := 30 })
    ∧ ask exTwo voice = some (some notFound) ∧ ask [] voice = some (some notFound)
    ∧ ask exTwo { voice with service := HLR_GSUP } = some (some { rc := .result, v4 := a4 })
    ∧ ask [] { voice with service := HLR_GSUP } = some (some notFound) := by decide +kernel

/-- The hypotheses of `c41_found` can be met. -/
example : ∃ r, (exec (serverRx id 90 exSrv [] voice)
      { subs := [{ id := 1, imsi := imsi1, msisdn := some (b "1001"), vlr := some (b "MSC-1"), lastLu := some 50 }] } []).1
        = some (some r) ∧ r.rc = .result ∧ r.age ≤ 40 := by
  refine c41_found (by decide) (fun _ h => by cases h) ?_ (fun _ h => by cases h) ?_ (fun _ h => by cases h)
    ⟨{ service := b "sip.voice", v4 := a4 }, by decide +kernel⟩ ?_
    (.inl ⟨b "MSC-1", _, List.mem_singleton.2 rfl, rfl, rfl, by decide, rfl, by decide, by decide, by decide⟩)
  · intro r hr r' hr' _ _
    rw [List.mem_singleton.1 hr, List.mem_singleton.1 hr']
  · intro r hr _
    rw [List.mem_singleton.1 hr]
    exact ⟨by decide +kernel, by decide +kernel, by decide +kernel⟩
  · intro n h hg
    obtain ⟨-, v6, hv⟩ := c42_offers _ hg
    cases v6
    · left
      unfold offer at hv
      simpa [Addr.nonzero] using hv
    · right
      unfold offer at hv
      simpa [Addr.nonzero] using hv

/-- C41 does not hold as stated: the server answers for a subscriber whose first Location
Update has not been completed; no Update Location Result was ever sent. -/
theorem c41_incomplete_violated : ∃ (evs : List Ev) (r : Result), ask evs voice = some (some r) ∧ r.rc = .result
    ∧ ∀ c nr m, .tx c m nr ∈ (runWith exCfg (init {}) evs).log → m.typ ≠ UPDATE_LOCATION + 2 := by
  refine ⟨exTwo ++ [.rx 1 (some ulMsg) {}], { rc := .result, v4 := b4, age := 90 }, by decide +kernel, rfl, ?_⟩
  have : (runWith exCfg (init {}) (exTwo ++ [.rx 1 (some ulMsg) {}])).log.all
      (fun | .tx _ m _ => m.typ != UPDATE_LOCATION + 2 | _ => true) = true := by decide +kernel
  intro c nr m h
  simpa using List.all_eq_true.1 this _ h

/-- C41 does not hold as stated: the Location Update of MSC-2 is refused because its time
cannot be stored; the server still answers that the subscriber is at MSC-2 (whose service is
the one for all MSCs), with the age of the Location Update of MSC-1. -/
theorem c41_refused_violated :
    ask (exTwo ++ [.rx 1 (some ulMsg) {}, .rx 1 (some ackMsg) {},
        .rx 2 (some ulMsg) { now := some 60, sc := [.ok, .ok, .ok, .ioerr] }]) voice
      = some (some { rc := .result, v4 := a4, age := 90 })
    ∧ (responses (runWith exCfg (init {}) (exTwo ++ [.rx 1 (some ulMsg) {}, .rx 1 (some ackMsg) {},
        .rx 2 (some ulMsg) { now := some 60, sc := [.ok, .ok, .ok, .ioerr] }]))).head?
      = some (2, UPDATE_LOCATION + 1, 3) := by decide +kernel

/-- The server goes on answering after the subscriber was purged. -/
theorem c41_purged_violated : ask (exTwo ++ [.rx 1 (some ulMsg) {}, .rx 1 (some ackMsg) {}, .rx 1 (some purgeMsg) {}]) voice
      = some (some { rc := .result, v4 := b4, age := 90 })
    ∧ (responses (runWith exCfg (init {}) (exTwo ++ [.rx 1 (some ulMsg) {}, .rx 1 (some ackMsg) {},
        .rx 1 (some purgeMsg) {}]))).head? = some (1, PURGE_MS + 2, 3) := by decide +kernel

/-- The service of an MSC with a name of 32 characters. -/
def longMsc : Bytes := b "MSC-0123456789-0123456789-012345"

/-- The service configured for an MSC is not offered if its name has more than 31 characters:
the address for all MSCs is given instead. -/
theorem c41_long_name_violated :
    let srv : Srv := { services := (execAll [] [.service .server (b "sip.voice") a4, .enter (.msc longMsc),
      .service (.msc longMsc) (b "sip.voice") b4]).2 }
    let s := runWith exCfg (init {}) [.db (.create imsi1 true true) [], .db (.msisdn imsi1 (some (b "1001"))) [],
      .connect, .ccm 1 (some (longMsc ++ [0])), .rx 1 (some ulMsg) {}, .rx 1 (some ackMsg) {}]
    (responses s).head? = some (1, UPDATE_LOCATION + 2, 1)
    ∧ (exec (serverRx id 90 srv s.proxy voice) s.db []).1 = some (some { rc := .result, v4 := a4, age := 90 }) := by
  decide +kernel

/-- An MSC with a percent sign in its name makes the server use a format string without its
argument: the behaviour is undefined. -/
theorem c41_percent_violated :
    let s := runWith exCfg (init {}) [.db (.create imsi1 true true) [], .db (.msisdn imsi1 (some (b "1001"))) [],
      .connect, .ccm 1 (some (b "MSC-%s" ++ [0])), .rx 1 (some ulMsg) {}, .rx 1 (some ackMsg) {}]
    s.ub = false ∧ (exec (serverRx id 90 exSrv s.proxy voice) s.db []).1 = some none := by
  decide +kernel

end Verif.Mslookup.Props
