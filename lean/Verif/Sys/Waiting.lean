import Verif.Sys.EntryHist
import Verif.Sys.Props9
/-! # The proxy's entry while a location update of a subscriber of another HLR is under way -/
namespace Verif.Sys.Props
open Verif Verif.Db Verif.Gsup Verif.Hlr

/-- The proxy has an entry of the subscriber, last changed between `lo` and `now`, with the home HLR's
address and, for the domain, the node that asks. -/
def Awaits (s : Sys) (imsi : Bytes) (cs : Bool) (a : Addr) (n : Bytes) (lo now : Int) : Prop :=
  ∃ x, entryOf s.proxy imsi = some x ∧ lo ≤ x.lastUpdate ∧ x.lastUpdate ≤ now ∧ x.data.addr = a ∧ (x.data.dom cs).prelim.name = n

/-- The time at which an event happens, if it matters. -/
def Ev.time : Ev → Option Int
  | .rx _ _ e => some e.clock
  | .remoteRx _ _ e => some e.clock
  | .lookup _ _ e => some e.clock
  | .proxyGc c => some c
  | _ => none

/-- The event does not disturb the location update: if the subscriber is looked up again the result is the same, no
node asks for the subscriber in the same domain, and no result of it arrives. -/
structure Harmless (imsi : Bytes) (cs : Bool) (a : Addr) (n : Bytes) (ev : Ev) : Prop where
  lookup : ∀ res e, ev = .lookup imsi res e → ∃ v, res = some v ∧ (foundAddr v).nonzero = true ∧ foundAddr v = a
  lu : ∀ c m e, ev = .rx c (some m) e → m.typ = UPDATE_LOCATION → m.imsi = imsi → m.cnDomain ≠ if cs then 2 else 1
  res : ∀ a' M e, ev = .remoteRx a' M e → M.typ = UPDATE_LOCATION + 2 → M.imsi = imsi → M.dst ≠ n

/-- A history of such events, from `now` to no later than `hi`, with a clock that does not run backwards. -/
def Quiet (imsi : Bytes) (cs : Bool) (a : Addr) (n : Bytes) (hi : Int) : Int → List (Cfg × Ev) → Prop
  | _, [] => True
  | now, x :: l => Harmless imsi cs a n x.2 ∧ (∀ t, Ev.time x.2 = some t → now ≤ t ∧ t ≤ hi)
      ∧ Quiet imsi cs a n hi ((Ev.time x.2).getD now) l

/-- The HLR was not restarted between the two states. -/
def NoRestart (s t : Sys) : Prop := ∀ l, t.log = l ++ s.log → .restart ∉ l

theorem quiet_prefix {imsi : Bytes} {cs : Bool} {a : Addr} {n : Bytes} {hi now : Int} {l l' : List (Cfg × Ev)}
    (h : Quiet imsi cs a n hi now (l ++ l')) : Quiet imsi cs a n hi now l := by
  induction l generalizing now with
  | nil => trivial
  | cons x l ih => exact ⟨h.1, h.2.1, ih h.2.2⟩

theorem noRestart_step {s : Sys} {cfg : Cfg} {ev : Ev} {t : Sys} {l : List (Cfg × Ev)} (ht : t = run (step cfg s ev) l) (h : NoRestart s t) :
    NoRestart s (step cfg s ev) ∧ NoRestart (step cfg s ev) t := by
  subst ht
  obtain ⟨l1, h1⟩ := run_log (step cfg s ev) l
  obtain ⟨l2, h2, -⟩ := step_kfr cfg s ev
  refine ⟨fun x hx hr => ?_, fun x hx hr => ?_⟩
  · exact h (l1 ++ x) (by rw [h1, hx, List.append_assoc]) (List.mem_append_right _ hr)
  · exact h (x ++ l2) (by rw [hx, h2, List.append_assoc]) (List.mem_append_left _ hr)

theorem noRestart_prefix {s : Sys} {l l' : List (Cfg × Ev)} (h : NoRestart s (run s (l ++ l'))) : NoRestart s (run s l) := by
  intro x hx hr
  obtain ⟨l1, h1⟩ := run_log (run s l) l'
  rw [← run_append] at h1
  exact h (l1 ++ x) (by rw [h1, hx, List.append_assoc]) (List.mem_append_right _ hr)

theorem reach_run {s : Sys} (h : Reach s) (l : List (Cfg × Ev)) : Reach (run s l) := by
  obtain ⟨d, evs, rfl⟩ := h
  exact ⟨d, evs ++ l, by rw [run_append]⟩

theorem reach_prelim {s : Sys} (h : Reach s) : PrelimWf s := by
  obtain ⟨d, evs, rfl⟩ := h
  exact (asked_run d evs).2

theorem keeps_fresh {c lo : Int} {x : ProxyEntry} (h1 : lo ≤ x.lastUpdate) (h2 : x.lastUpdate ≤ c) (h3 : c ≤ lo + 3600) : proxyKeeps c x = true := by
  unfold proxyKeeps timestampAge FRESH_TIME
  dsimp only
  rw [if_neg (by omega)]
  simp
  omega

theorem awaits_step {s : Sys} (hr : Reach s) {imsi : Bytes} {cs : Bool} {a : Addr} {n : Bytes} {lo now : Int}
    (hA : Awaits s imsi cs a n lo now) (hlo : lo ≤ now) {cfg : Cfg} {ev : Ev} (hh : Harmless imsi cs a n ev)
    (ht : ∀ t, Ev.time ev = some t → now ≤ t ∧ t ≤ lo + 3600) (hnr : NoRestart s (step cfg s ev)) :
    Awaits (step cfg s ev) imsi cs a n lo ((Ev.time ev).getD now) := by
  obtain ⟨x, hx, h1, h2, h3, h4⟩ := hA
  have hxi := (entryOf_some hx).2
  have hnow : now ≤ (Ev.time ev).getD now := by
    cases h : Ev.time ev with
    | none => exact Int.le_refl _
    | some t => exact (ht t h).1
  rcases step_entry cfg s ev hx with h | ⟨d', h, hc⟩ | ⟨res, e, rfl, hf⟩ | ⟨c, rfl, hg⟩ | ⟨l, hl, hr'⟩
  · exact ⟨x, h, h1, Int.le_trans h2 hnow, h3, h4⟩
  · have fin : ∀ t, Ev.time ev = some t → ev.clock = t → d'.addr = a → (d'.dom cs).prelim.name = n →
        Awaits (step cfg s ev) imsi cs a n lo ((Ev.time ev).getD now) := by
      intro t htm hck ha hn
      refine ⟨_, h, ?_, ?_, ha, hn⟩
      · rw [hck]; exact Int.le_trans hlo (ht t htm).1
      · rw [hck, htm]; exact Int.le_refl _
    rcases hc with ⟨v, e, rfl, -, rfl⟩ | ⟨c, m, e, k, rfl, -, -, htyp, hmi, rfl⟩ | ⟨a', M, e, num, rfl, -, -, rfl⟩ | ⟨a', M, e, via, rfl, htyp, hmi, hset, hack⟩
    · obtain ⟨v', hv', -, ha⟩ := hh.lookup (some v) e (by rw [hxi])
      cases hv'
      exact fin e.clock rfl rfl ha (by cases cs <;> exact h4)
    · have hne := hh.lu c m e rfl htyp (by rw [hmi, hxi])
      refine fin e.clock rfl rfl (by rw [ackToSub_addr]; exact h3) ?_
      have : ((ackToSub x.data (mkReq k s.nextReq m)).dom cs) = x.data.dom cs := by
        unfold ackToSub
        rw [mkReq_gsup]
        cases cs with
        | true =>
          rw [if_neg (by simpa using hne)]
          split <;> rfl
        | false =>
          split
          · rfl
          · rw [if_neg (by simpa using hne)]
      rw [this]; exact h4
    · exact fin e.clock rfl rfl h3 (by cases cs <;> exact h4)
    · have hne := hh.res a' M e rfl htyp (by rw [hmi, hxi])
      obtain ⟨-, hy2, -, -, hy4⟩ := ackLuResult_some hack
      refine fin e.clock rfl rfl (by rw [hy2]; exact h3) ?_
      rw [(hy4 cs).2 ?_]
      · exact h4
      · intro h0
        have wf : ({} : IpaName).WF := ⟨List.length_replicate, Nat.zero_le _⟩
        have := (Gsup.Props.c25_cmp_eq (ipaSet_wf wf M.dst) (reach_prelim hr x (entryOf_some hx).1 cs)).1 h0
        rw [h4, name_set hset] at this
        exact hne this
  · obtain ⟨v, rfl, hz, -⟩ := hh.lookup res e rfl
    have := hf v rfl
    unfold foundAddr at hz
    revert hz this
    cases h4 : v.1.nonzero <;> cases h6 : v.2.nonzero <;> simp [h4, h6]
  · obtain ⟨t1, t2⟩ := ht c rfl
    rw [keeps_fresh h1 (Int.le_trans h2 t1) t2] at hg
    cases hg
  · exact absurd hr' (hnr l hl)

theorem awaits_run {s : Sys} (hr : Reach s) {imsi : Bytes} {cs : Bool} {a : Addr} {n : Bytes} {lo now : Int}
    (hA : Awaits s imsi cs a n lo now) (hlo : lo ≤ now) {l : List (Cfg × Ev)} (hq : Quiet imsi cs a n (lo + 3600) now l)
    (hnr : NoRestart s (run s l)) : ∃ now', Awaits (run s l) imsi cs a n lo now' := by
  induction l generalizing s now with
  | nil => exact ⟨now, hA⟩
  | cons x l ih =>
    obtain ⟨n1, n2⟩ := noRestart_step (s := s) (cfg := x.1) (ev := x.2) (l := l) rfl hnr
    have hnow : lo ≤ (Ev.time x.2).getD now := by
      cases h : Ev.time x.2 with
      | none => exact hlo
      | some t => exact Int.le_trans hlo (hq.2.1 t h).1
    exact ih (hr.step x.1 x.2) (awaits_step hr hA hlo hq.1 hq.2.1 n1) hnow hq.2.2 n2

theorem ack_entry {e : Env} {d : ProxySub} {q : Req} {t : Sys} {z : ProxyEntry} (hz : entryOf t.proxy d.imsi = some z) (hd : z.data = d)
    (hwf : ∀ cs, (d.dom cs).prelim.WF) (hq : q.source.WF) (ht : q.gsup.typ = UPDATE_LOCATION) {cs : Bool}
    (hcs : q.gsup.cnDomain = if cs then 2 else 1) :
    ∃ y, entryOf (ackToRemote e d q t).proxy d.imsi = some y ∧ (y = z ∨ y.lastUpdate = e.clock) ∧ y.data.addr = d.addr
      ∧ (y.data.dom cs).prelim.name = q.source.name := by
  obtain ⟨d', h1, h2⟩ := ack_asks (e := e) (q := q) (t := t) (d := d) (by rw [byImsi_entry, hz, ← hd]; rfl) hwf hq ht hcs
  rw [byImsi_entry] at h1
  rcases entry_ack e hz (q := q) (d := d) (.inl (by rw [byImsi_entry, hz, ← hd]; rfl)) with h | ⟨-, -, h⟩
  · rw [h] at h1
    refine ⟨z, h, .inl rfl, by rw [hd], ?_⟩
    have h1' : z.data = d' := Option.some.inj h1
    rw [h1']; exact h2
  · rw [h] at h1
    refine ⟨_, h, .inr rfl, ?_, ?_⟩
    · show (ackToSub z.data q).addr = _
      rw [ackToSub_addr, hd]
    · have h1' : ackToSub z.data q = d' := Option.some.inj h1
      show ((ackToSub z.data q).dom cs).prelim.name = _
      rw [h1']; exact h2

/-- The entry after a location update for a subscriber who is not in the database. -/
theorem lu_entry {cfg : Cfg} {s : Sys} (hr : Reach s) (hu : s.ub = false) {c : ConnId} {k : Conn} {m : Msg}
    (h : Accepted cfg s c k m) {e : Env} (hon : e.dgsm = true) {rc : Int} (hk : known e m s = some rc) (hrc : rc ≠ 0)
    (ht : m.typ = UPDATE_LOCATION) {cs : Bool} (hcs : m.cnDomain = if cs then 2 else 1) :
    ∃ y, entryOf (step cfg s (.rx c (some m) e)).proxy m.imsi = some y
      ∧ (entryOf s.proxy m.imsi = some y ∨ y.lastUpdate = e.clock)
      ∧ y.data.addr = homeOf e s m.imsi ∧ (y.data.dom cs).prelim.name = senderName k m := by
  rw [step_proxied hr hu h hon hk hrc]
  have hwf := reach_prelim hr
  have hq : (mkReq k s.nextReq m).source.WF := by
    obtain ⟨P, hi, -⟩ := reach_done hr
    exact (mkReq_ok (hi.connWf k (conn?_some h.conn).1) s.nextReq m).1.src
  have fresh : ∀ a : Addr, ∀ cs, (({ imsi := m.imsi, addr := a } : ProxySub).dom cs).prelim.WF := by
    intro a cs
    cases cs <;> exact ⟨List.length_replicate, Nat.zero_le _⟩
  have hsrc := mkReq_source (k := k) (nr := s.nextReq) (m := m) (fun _ => ipaSet_ok h.src)
  have fin : ∀ (z : ProxyEntry) (t : Sys), z.data.imsi = m.imsi → entryOf t.proxy m.imsi = some z → (∀ cs, (z.data.dom cs).prelim.WF) →
      ∃ y, entryOf (forwardToRemoteHlr cfg e z.data (mkReq k s.nextReq m) t).proxy m.imsi = some y
        ∧ (y = z ∨ y.lastUpdate = e.clock) ∧ y.data.addr = z.data.addr ∧ (y.data.dom cs).prelim.name = senderName k m := by
    intro z t hdi hd hw
    obtain ⟨y, h1, h2, h3, h4⟩ := ack_entry (e := e) (q := mkReq k s.nextReq m) (t := t) (d := z.data) (by rw [hdi]; exact hd) rfl hw hq
      (by rw [mkReq_gsup]; exact ht) (cs := cs) (by rw [mkReq_gsup]; exact hcs)
    rw [forward_proxy]
    exact ⟨y, by rw [← hdi]; exact h1, h2, h3, h4.trans hsrc⟩
  unfold proxied homeOf
  rw [mkReq_gsup]
  cases hz : entryOf s.proxy m.imsi with
  | some z =>
    have hd : proxyByImsi (received s c k m).proxy m.imsi = some z.data := by
      show proxyByImsi s.proxy m.imsi = _
      rw [byImsi_entry, hz]; rfl
    rw [hd]
    dsimp only
    obtain ⟨y, h1, h2, h3, h4⟩ := fin z (received s c k m) (entryOf_some hz).2 hz (hwf z (entryOf_some hz).1)
    refine ⟨y, h1, ?_, h3, h4⟩
    rcases h2 with rfl | h2
    · exact .inl rfl
    · exact .inr h2
  | none =>
    have hd : proxyByImsi (received s c k m).proxy m.imsi = none := by
      show proxyByImsi s.proxy m.imsi = _
      rw [byImsi_entry, hz]; rfl
    rw [hd]
    dsimp only
    split
    · have hb : entryOf (remoteResolved cfg e { imsi := m.imsi } e.gateway
          (proxyPut e.clock { imsi := m.imsi } (received s c k m))).proxy m.imsi
          = some { lastUpdate := e.clock, data := { imsi := m.imsi, addr := e.gateway } } := by
        unfold remoteResolved
        rw [if_neg (fun hc => absurd (show ({} : Addr).nonzero = true from hc.1) (by decide))]
        dsimp only
        split
        · rw [connectRemote_proxy, entryOf_put, if_pos rfl]
        · rw [entryOf_put, if_pos rfl]
      rw [byImsi_entry, hb]
      dsimp only [Option.map]
      obtain ⟨y, h1, h2, h3, h4⟩ := fin _ _ rfl hb (fresh _)
      refine ⟨y, h1, .inr ?_, h3, h4⟩
      rcases h2 with rfl | h2
      · rfl
      · exact h2
    · obtain ⟨y, h1, h2, h3, h4⟩ := fin { lastUpdate := e.clock, data := { imsi := m.imsi } } (proxyPut e.clock { imsi := m.imsi } (received s c k m)) rfl
        (by rw [entryOf_put, if_pos rfl]) (fresh {})
      refine ⟨y, h1, .inr ?_, h3, h4⟩
      rcases h2 with rfl | h2
      · rfl
      · exact h2

end Verif.Sys.Props
