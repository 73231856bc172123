import Verif.Sys.Props11
/-! # Examples and counterexamples for C76 -/
namespace Verif.Sys.Props
open Verif Verif.Db Verif.Gsup Verif.Hlr

/-- `Harmless`, as a test. -/
def harmlessB (imsi : Bytes) (cs : Bool) (a : Addr) (n : Bytes) : Ev → Bool
  | .lookup i res _ => !(i == imsi) || (match res with | none => false | some v => (foundAddr v).nonzero && foundAddr v == a)
  | .rx _ (some m) _ => !(m.typ == UPDATE_LOCATION) || !(m.imsi == imsi) || !(m.cnDomain == if cs then 2 else 1)
  | .remoteRx _ M _ => !(M.typ == UPDATE_LOCATION + 2) || !(M.imsi == imsi) || !(M.dst == n)
  | _ => true

theorem harmlessB_spec {imsi : Bytes} {cs : Bool} {a : Addr} {n : Bytes} {ev : Ev} (h : harmlessB imsi cs a n ev = true) : Harmless imsi cs a n ev where
  lookup := by
    rintro res e rfl
    cases res with
    | none => simp [harmlessB] at h
    | some v => exact ⟨v, rfl, by simpa [harmlessB] using h⟩
  lu := by
    rintro c m e rfl h1 h2
    simpa [harmlessB, h1, h2] using h
  res := by
    rintro a' M e rfl h1 h2
    simpa [harmlessB, h1, h2] using h

def quietB (imsi : Bytes) (cs : Bool) (a : Addr) (n : Bytes) (hi : Int) : Int → List (Cfg × Ev) → Bool
  | _, [] => true
  | now, x :: l => harmlessB imsi cs a n x.2 && (match Ev.time x.2 with | none => true | some t => decide (now ≤ t) && decide (t ≤ hi))
      && quietB imsi cs a n hi ((Ev.time x.2).getD now) l

theorem quietB_spec {imsi : Bytes} {cs : Bool} {a : Addr} {n : Bytes} {hi now : Int} {l : List (Cfg × Ev)} (h : quietB imsi cs a n hi now l = true) :
    Quiet imsi cs a n hi now l := by
  induction l generalizing now with
  | nil => trivial
  | cons x l ih =>
    unfold quietB at h
    rw [Bool.and_eq_true, Bool.and_eq_true] at h
    refine ⟨harmlessB_spec h.1.1, ?_, ih h.2⟩
    intro t ht
    have h2 := h.1.2
    rw [ht] at h2
    simpa using h2

def idleB (imsi : Bytes) (a : Addr) : Ev → Bool
  | .lookup i _ _ => !(i == imsi)
  | .remoteUp b => !(b == a)
  | .remoteDown b => !(b == a)
  | _ => true

theorem idleB_spec {imsi : Bytes} {a : Addr} {ev : Ev} (h : idleB imsi a ev = true) : Idle imsi a ev where
  lookup := by rintro res e rfl; simp [idleB] at h
  up := by rintro rfl; simp [idleB] at h
  down := by rintro rfl; simp [idleB] at h

/-- The clock shows `t`. -/
def at_ (t : Int) : Env := { dgsmEnv with clock := t }

/-- While MSC-1's request waits for the lookup, MSC-2 asks for another subscriber and garbage is collected; while the link is set up, the
other subscriber is looked up in vain. -/
def exL1 : List (Cfg × Ev) := [(exCfg, .rx 2 (some { ul9 with imsi := imsi8 }) (at_ 1100)), (exCfg, .proxyGc 4000)]
def exL2 : List (Cfg × Ev) := [(exCfg, .lookup imsi8 none (at_ 4300)), (exCfg, .remoteLost hlr9)]

/-- The hypotheses of `c76_reaches_home`, and its conclusion, for MSC-1's request. -/
example (s s1 s2 : Sys) (hs : s = runWith exCfg (init {}) exTwo) (h1 : s1 = run (step exCfg s (.rx 1 (some ul9) (at_ 1000))) exL1)
    (h2 : s2 = run (step exCfg s1 (.lookup imsi9 (some (hlr9, {})) (at_ 4200))) exL2) :
    .remote hlr9 (named ul9 msc1) (some s.nextReq) ∈ (step exCfg s2 (.remoteUp hlr9)).log
    ∧ ∃ now, 1000 ≤ now ∧ Awaits (step exCfg s2 (.remoteUp hlr9)) imsi9 true hlr9 msc1 1000 now := by
  obtain ⟨k, hk⟩ : ∃ k, s.conn? 1 = some k := by
    have : (s.conn? 1).isSome = true := by rw [hs]; decide +kernel
    exact Option.isSome_iff_exists.1 this
  have hsn : senderName k ul9 = msc1 := by
    have : (s.conn? 1).map (fun k => senderName k ul9) = some msc1 := by rw [hs]; decide +kernel
    rw [hk] at this
    exact Option.some.inj this
  have hh : homeOf (at_ 1000) s imsi9 = {} := by rw [hs]; decide +kernel
  have hR : Roams exCfg s 1 k ul9 (at_ 1000) :=
    { conn := hk, src := by decide +kernel, imsi := Db.isNDigits_spec.1 (by decide +kernel), free := .inl rfl, mine := .inl rfl
      on := by decide +kernel, sc0 := by decide +kernel, away := by rw [hs]; decide +kernel }
  have hr : Reach s := ⟨{}, exTwo.map (fun x => (exCfg, x)), by rw [hs]; rfl⟩
  have := c76_reaches_home (cs := true) (lo := 1000) hr (by rw [hs]; decide +kernel) hR rfl rfl ⟨by decide +kernel, by rw [hs]; decide +kernel⟩
    (by rw [hs]; decide +kernel) (by rw [show (ul9.imsi) = imsi9 from rfl, hh]; decide +kernel) h1 (cfg1 := exCfg) (v := (hlr9, {})) (e1 := at_ 4200) (by decide +kernel)
    (quietB_spec (by rw [show (ul9.imsi) = imsi9 from rfl, hh, hsn]; decide +kernel))
    (fun x hx => idleB_spec (by rw [show (ul9.imsi) = imsi9 from rfl, hh]; revert x; decide +kernel)) (by decide +kernel) (by decide +kernel)
    (by
      have : (s1.remote? (foundAddr (hlr9, {}))) = none := by rw [h1, hs]; decide +kernel
      rw [this]; intro r h; cases h)
    (fun _ => rfl) h2 (cfg2 := exCfg)
    (quietB_spec (by rw [hsn]; decide +kernel)) (fun x hx => idleB_spec (by revert x; decide +kernel))
    (by
      intro l hl hr
      have h3 : Out.restart ∉ s2.log := by rw [h2, h1, hs]; decide +kernel
      exact h3 (by rw [hl]; exact List.mem_append_left _ hr))
    (by rw [h2, h1, hs]; decide +kernel) (by intro m; rfl)
  rw [hsn] at this
  exact this

/-- The home HLR: it has the subscriber, and the visited HLR is connected to it. -/
def exHome : List Ev := [.db (.create imsi9 true true) [], .db (.msisdn imsi9 (some (b "1009"))) [], .connect, .ccm 1 (some (b "HLR-1" ++ [0]))]

/-- The whole of it, at both HLRs (`c76_served_partial`): what MSC-1 is sent. -/
def exBegun : List Ev := exTwo ++ [.rx 1 (some ul9) (at_ 1000), .lookup imsi9 (some (hlr9, {})) (at_ 1001), .remoteUp hlr9]
def ack9 : Msg := { ackMsg with imsi := imsi9 }
def exHome2 : List Ev := exHome ++ [.rx 1 (some (named ul9 msc1)) { now := some 5 }]
def exHome3 : List Ev := exHome2 ++ [.rx 1 (some (named ack9 msc1)) { now := some 6 }]

/-- What the HLR has sent by its server. -/
def txs (s : Sys) : List (ConnId × Msg) := s.log.filterMap fun | .tx c m _ => some (c, m) | _ => none

example : ((runWith exCfg (init {}) exBegun).log.filterMap fun | .remote a m _ => some (a, m) | _ => none) = [(hlr9, named ul9 msc1)]
    ∧ (txs (runWith exCfg (init {}) exHome3)).map (fun x => (x.1, x.2.typ, x.2.imsi, x.2.dst)) = [(1, UPDATE_LOCATION + 2, imsi9, msc1), (1, INSERT_DATA, imsi9, msc1)]
    ∧ (∀ M1, (txs (runWith exCfg (init {}) exHome2)).head? = some (1, M1) → ∀ M2, (txs (runWith exCfg (init {}) exHome3)).head? = some (1, M2) →
      (txs (runWith exCfg (init {}) (exBegun ++ [.remoteRx hlr9 M1 (at_ 1002), .rx 1 (some ack9) (at_ 1003), .remoteRx hlr9 M2 (at_ 1004)])))
        = [(1, M2), (1, M1)]) := by
  refine ⟨by decide +kernel, by decide +kernel, ?_⟩
  intro M1 h1 M2 h2
  have e1 : (txs (runWith exCfg (init {}) exHome2)).head?.map (·.2) = some M1 := by rw [h1]; rfl
  have e2 : (txs (runWith exCfg (init {}) exHome3)).head?.map (·.2) = some M2 := by rw [h2]; rfl
  have key : ((txs (runWith exCfg (init {}) exHome2)).head?.map (·.2)).bind (fun M1 => ((txs (runWith exCfg (init {}) exHome3)).head?.map (·.2)).bind (fun M2 =>
      if (txs (runWith exCfg (init {}) (exBegun ++ [.remoteRx hlr9 M1 (at_ 1002), .rx 1 (some ack9) (at_ 1003), .remoteRx hlr9 M2 (at_ 1004)]))) = [(1, M2), (1, M1)]
      then some () else none)) = some () := by decide +kernel
  rw [e1, e2] at key
  dsimp only [Option.bind] at key
  split at key
  · assumption
  · cases key

/-- The hypotheses of `c76_served_partial`; the visited HLR may be in the same state still (`Meanwhile`), or in one an hour later. -/
example (v s w : Sys) (hv : v = runWith exCfg (init {}) exBegun) (hs : s = runWith exCfg (init {}) exHome)
    (hw : w = run v [(exCfg, .rx 2 (some { ul9 with imsi := imsi8 }) (at_ 3100)), (exCfg, .proxyGc 4600)]) :
    (∃ k, Accepted exCfg s 1 k (named ul9 msc1) ∧ Ready s 1 k) ∧ Works { now := some 5 } ∧ May s.db imsi9 true ∧ s.ub = false
    ∧ (∀ row ∈ s.db.subs, row.imsi = imsi9 → ∃ b, exCfg.bcdEnc (HlrSubscr.ofRow row).msisdn = some b)
    ∧ routeFind v.routes msc1 = some 1 ∧ Awaits v imsi9 true hlr9 msc1 1001 1001
    ∧ Meanwhile v imsi9 true hlr9 msc1 1001 1001 1 v ∧ Meanwhile v imsi9 true hlr9 msc1 1001 1001 1 w := by
  refine ⟨?_, ⟨by simp [AllOk], by simp [AllOk], ⟨_, rfl⟩⟩, ?_, by rw [hs]; decide +kernel, ?_, by rw [hv]; decide +kernel, ?_, ?_, ?_⟩
  · obtain ⟨k, hk⟩ : ∃ k, s.conn? 1 = some k := by
      have : (s.conn? 1).isSome = true := by rw [hs]; decide +kernel
      exact Option.isSome_iff_exists.1 this
    have hn : k.name.name = b "HLR-1" ++ [0] := by
      have : (s.conn? 1).map (·.name.name) = some (b "HLR-1" ++ [0]) := by rw [hs]; decide +kernel
      rw [hk] at this
      exact Option.some.inj this
    refine ⟨k, { conn := hk, src := by decide +kernel, imsi := Db.isNDigits_spec.1 (by decide +kernel), free := .inr (.inr ?_), mine := .inl rfl }, ?_, ?_, ?_⟩
    · have : routeFind s.routes (named ul9 msc1).src = none := by rw [hs]; decide +kernel
      rw [this]; intro c h; cases h
    · rw [hn]; decide +kernel
    · rw [hn]; decide +kernel
    · rw [hn, hs]; decide +kernel
  · rw [hs]; unfold May; decide +kernel
  · intro row hr hi
    have : ∀ row ∈ s.db.subs, (exCfg.bcdEnc (HlrSubscr.ofRow row).msisdn).isSome = true := by rw [hs]; decide +kernel
    exact Option.isSome_iff_exists.1 (this row hr)
  · have : (entryOf v.proxy imsi9).map (fun x => (x.lastUpdate, x.data.addr, (x.data.dom true).prelim.name)) = some (1001, hlr9, msc1) := by rw [hv]; decide +kernel
    cases hx : entryOf v.proxy imsi9 with
    | none => rw [hx] at this; cases this
    | some x =>
      rw [hx] at this
      have this : (x.lastUpdate, x.data.addr, (x.data.dom true).prelim.name) = (1001, hlr9, msc1) := Option.some.inj this
      simp only [Prod.mk.injEq] at this
      exact ⟨x, hx, by omega, by omega, this.2.1, this.2.2⟩
  · refine ⟨⟨[], rfl, trivial⟩, ?_, by rw [hv]; decide +kernel, by rw [hv]; decide +kernel, ?_⟩
    · intro l hl hr
      have : l.length = 0 := by have := congrArg List.length hl; simp at this; exact congrArg _ this
      rw [List.length_eq_zero_iff.1 this] at hr
      cases hr
    · have : (v.remote? hlr9).map (·.up) = some true := by rw [hv]; decide +kernel
      cases hr : v.remote? hlr9 with
      | none => rw [hr] at this; cases this
      | some r => rw [hr] at this; exact ⟨r, rfl, Option.some.inj this⟩
  · refine ⟨⟨_, hw, quietB_spec (by decide +kernel)⟩, ?_, by rw [hw, hv]; decide +kernel, by rw [hw, hv]; decide +kernel, ?_⟩
    · intro l hl hr
      have : Out.restart ∉ w.log := by rw [hw, hv]; decide +kernel
      exact this (by rw [hl]; exact List.mem_append_left _ hr)
    · have : (w.remote? hlr9).map (·.up) = some true := by rw [hw, hv]; decide +kernel
      cases hr : w.remote? hlr9 with
      | none => rw [hr] at this; cases this
      | some r => rw [hr] at this; exact ⟨r, rfl, Option.some.inj this⟩

/-- C76, witness: a location update without a CN domain is passed on to the home HLR and granted there, but the visited HLR has not noted who
asked, and refuses the result. -/
theorem c76_no_domain_violated : ∃ (evs evsh : List Ev) (m M : Msg) (a : Addr) (c : ConnId) (n : Bytes) (e : Env),
    let v := runWith exCfg (init {}) evs
    let h := runWith exCfg (init {}) evsh
    m.typ = UPDATE_LOCATION ∧ .rx 1 c (some m) ∈ v.log ∧ .remote a (named m n) (some 1) ∈ v.log ∧ v.ub = false
    ∧ (v.remote? a).map (·.up) = some true ∧ routeFind v.routes n = some c
    ∧ .rx 1 1 (some (named m n)) ∈ h.log ∧ .tx 1 M (some 1) ∈ h.log ∧ M.typ = UPDATE_LOCATION + 2 ∧ M.imsi = m.imsi ∧ M.dst = n
    ∧ (step exCfg v (.remoteRx a M e)).log = .remoteRx a M :: v.log := by
  refine ⟨exTwo ++ [.rx 1 (some { ul9 with cnDomain := 0 }) (at_ 1000), .lookup imsi9 (some (hlr9, {})) (at_ 1001), .remoteUp hlr9],
    exHome ++ [.rx 1 (some (named { ul9 with cnDomain := 0 } msc1)) { now := some 5 }, .rx 1 (some (named ack9 msc1)) { now := some 6 }],
    { ul9 with cnDomain := 0 }, { typ := UPDATE_LOCATION + 2, imsi := imsi9, dst := msc1 }, hlr9, 1, msc1, at_ 1004, ?_⟩
  dsimp only
  refine ⟨rfl, by decide +kernel, by decide +kernel, by decide +kernel, by decide +kernel, by decide +kernel, by decide +kernel, by decide +kernel,
    rfl, rfl, rfl, by decide +kernel⟩

/-- C76, witness: a location update that a node repeats does not renew the entry of the subscriber.  If the entry is an hour old by then, garbage collection
removes it seconds after the request was passed on, and the result is refused. -/
theorem c76_stale_violated : ∃ (evs : List Ev) (m : Msg) (a : Addr) (c : ConnId) (n : Bytes) (e e' : Env),
    let v := runWith exCfg (init {}) (evs ++ [.rx c (some m) e, .proxyGc (e.clock + 2)])
    m.typ = UPDATE_LOCATION ∧ m.cnDomain = 2 ∧ .remote a (named m n) (some 2) ∈ v.log ∧ v.ub = false ∧ Out.restart ∉ v.log
    ∧ (v.remote? a).map (·.up) = some true ∧ routeFind v.routes n = some c
    ∧ e'.clock = e.clock + 3 ∧ (step exCfg v (.remoteRx a { typ := UPDATE_LOCATION + 2, imsi := m.imsi, dst := n } e')).log
      = .remoteRx a { typ := UPDATE_LOCATION + 2, imsi := m.imsi, dst := n } :: v.log :=
  ⟨exBegun, ul9, hlr9, 1, msc1, at_ 4600, at_ 4603, by decide +kernel⟩

end Verif.Sys.Props
