import Verif.Roam.Props
/-!
# C72: a subscriber who roams, and what goes wrong if somebody is not honest
-/
namespace Verif.Roam
open Verif Verif.Db Verif.Sys Verif.Mslookup Verif.Mslookup.Props Verif.Net Verif.Net.Spec Verif.Net.Props Verif.Sys.Props

/-- A check of `Possible` in the state reached, for events that are not results of lookups. -/
def possB (w : Wires) (n : Net) : Net.Ev → Bool
  | .hlr j (.rx c mo _) =>
    match w.peer j c with
    | none => true
    | some i =>
      match mo with
      | none => false
      | some m => (n.site i).sys.log.any fun o =>
        match o with
        | .remote a m' _ => decide (m' = m) && decide (w.site a = some j)
        | _ => false
  | .hlr i (.remoteRx a m _) =>
    match w.site a with
    | none => true
    | some j => (n.site j).sys.log.any fun o =>
      match o with
      | .tx c m' _ => decide (m' = m) && decide (w.peer j c = some i)
      | _ => false
  | .hlr _ (.lookup _ (some _) _) => false
  | _ => true

theorem possB_spec {z : Zone} {sfx : Bytes} {s : Start} {w : Wires} {pre : List Net.Ev} {e : Net.Ev}
    (h : possB w (Net.run z sfx s pre) e = true) : Possible z sfx s w pre e := by
  unfold possB at h
  split at h
  · rename_i j c mo env
    intro i hi
    rw [hi] at h
    dsimp only at h
    split at h
    · cases h
    · rename_i m
      obtain ⟨o, ho, h⟩ := List.any_eq_true.1 h
      split at h
      · rename_i a m' nr
        rw [Bool.and_eq_true, decide_eq_true_eq, decide_eq_true_eq] at h
        obtain ⟨rfl, h'⟩ := h
        exact ⟨a, m', nr, rfl, h', ho⟩
      · cases h
  · rename_i i a m env
    intro j hj
    rw [hj] at h
    dsimp only at h
    obtain ⟨o, ho, h⟩ := List.any_eq_true.1 h
    split at h
    · rename_i c m' nr
      rw [Bool.and_eq_true, decide_eq_true_eq, decide_eq_true_eq] at h
      obtain ⟨rfl, h'⟩ := h
      exact ⟨c, nr, h', ho⟩
    · cases h
  · cases h
  · rename_i h1 h2 h3
    unfold Possible
    split
    · exact absurd rfl (h1 _ _ _ _)
    · exact absurd rfl (h2 _ _ _ _)
    · exact absurd rfl (h3 _ _ _ _)
    · trivial

/-- The check of a list of events, from a state on. -/
def soundB (z : Zone) (sfx : Bytes) (w : Wires) : Net → List Net.Ev → Bool
  | _, [] => true
  | n, e :: l => possB w n e && soundB z sfx w (Net.step z sfx n e) l

theorem sound_snoc {z : Zone} {sfx : Bytes} {s : Start} {w : Wires} {evs : List Net.Ev} {e : Net.Ev} (h : Sound z sfx s w evs)
    (he : Possible z sfx s w evs e) : Sound z sfx s w (evs ++ [e]) := by
  intro pre x post hx
  rcases List.eq_nil_or_concat post with hp | ⟨l, y, hp⟩
  · subst hp
    obtain ⟨h1, h2⟩ := List.append_inj' hx rfl
    cases h2
    rw [← h1]; exact he
  · rw [hp, List.concat_eq_append, ← List.cons_append, ← List.append_assoc] at hx
    exact h pre x l (List.append_inj_left' hx rfl)

theorem soundB_spec {z : Zone} {sfx : Bytes} {s : Start} {w : Wires} (evs : List Net.Ev) : ∀ {pre : List Net.Ev}, Sound z sfx s w pre →
    soundB z sfx w (Net.run z sfx s pre) evs = true → Sound z sfx s w (pre ++ evs) := by
  induction evs with
  | nil => intro pre h _; rw [List.append_nil]; exact h
  | cons e l ih =>
    intro pre h hb
    unfold soundB at hb
    rw [Bool.and_eq_true] at hb
    rw [← run_cons_snoc] at hb
    have := ih (sound_snoc h (possB_spec hb.1)) hb.2
    rw [List.append_assoc] at this
    exact this

theorem sound_nil {z : Zone} {sfx : Bytes} {s : Start} {w : Wires} : Sound z sfx s w [] := by
  intro pre e post h
  simp at h

end Verif.Roam

namespace Verif.Roam.Props
open Verif Verif.Db Verif.Sys Verif.Mslookup Verif.Mslookup.Props Verif.Mslookup.Mdns Verif.Mslookup.Mdns.Spec Verif.Net Verif.Net.Spec Verif.Net.Props Verif.Sys.Props

/-! ## Site 1 is the home of the subscriber, MSC-1 is at site 0 -/

/-- The lookup of the home HLR. -/
def hq (imsi : Bytes) : Query := { service := HLR_GSUP, id := .imsi imsi }

/-- The answer of a site. -/
def hres (a : Addr) : Result := { rc := .result, v4 := a }

def hlr0 : Bytes := b "HLR-0" ++ [0]

/-- The HLRs of sites 0, 1 and 2 are bound to the addresses `a4`, `c4` and `hlr9`. -/
def rStart : Start where
  cfg _ := exCfg
  srv j := if j = 0 then exSrv else if j = 1 then exSrv1 else if j = 2 then { bind := hlr9 } else {}
  db _ := {}

def rnet (evs : List Net.Ev) : Net := Net.run id defaultSuffix rStart evs

/-- They listen there; the first connection to that of site 1 comes from that of site 0. -/
def wires : Wires where
  site a := if a = a4 then some 0 else if a = c4 then some 1 else if a = hlr9 then some 2 else none
  peer j c := if j = 1 ∧ c = 1 then some 0 else none

/-- The subscriber is at site 1, MSC-1 at site 0; the MSC asks, the home is looked up. -/
def exAsks : List Net.Ev :=
  [.hlr 1 (.db (.create imsi1 true true) []), .hlr 1 (.db (.msisdn imsi1 (some (b "1001"))) []), .hlr 0 .connect, .hlr 0 (.ccm 1 (some msc1)),
   .hlr 0 (.rx 1 (some ulMsg) dgsmEnv), .request 0 (hq imsi1) 0 1000, .serve 1 (ask0 0 (hq imsi1)) 90 [], .hear 0 (tell0 0 (hq imsi1) (hres c4))]

/-- The HLR of site 0 is told the result. -/
def exTold : List Net.Ev := exAsks ++ [.hlr 0 (.lookup imsi1 (some (c4, {})) dgsmEnv)]

/-- It connects and sends the request on. -/
def exLinked : List Net.Ev := exTold ++
  [.hlr 1 .connect, .hlr 1 (.ccm 1 (some hlr0)), .hlr 0 (.remoteUp c4)]

def isd : Gsup.Msg := { typ := Gsup.INSERT_DATA, imsi := imsi1, dst := msc1, cnDomain := 2, msisdn := b "1001" }
def ulRes : Gsup.Msg := { typ := Gsup.UPDATE_LOCATION + 2, imsi := imsi1, dst := msc1 }

/-- The home HLR records MSC-1 and sends the subscriber's data, the MSC acknowledges, the home HLR sends the result. -/
def exRoam : List Net.Ev := exLinked ++
  [.hlr 1 (.rx 1 (some { ulMsg with src := msc1 }) { now := some 5 }), .hlr 0 (.remoteRx c4 isd { clock := 1001 }),
   .hlr 0 (.rx 1 (some ackMsg) dgsmEnv), .hlr 1 (.rx 1 (some { ackMsg with src := msc1 }) {})]

/-- MSC-1 is sent the data and the result; the home HLR has recorded it, behind HLR-0; and the HLR of site 0 has the
subscriber attached to it. -/
example : (logOf id defaultSuffix rStart (exRoam ++ [.hlr 0 (.remoteRx c4 ulRes { clock := 1002 })]) 0).filterMap
      (fun o => match o with | .tx c m _ => some (c, m) | _ => none) = [(1, ulRes), (1, isd)]
    ∧ ((rnet exRoam).site 1).sys.db.subs.map (fun r => (r.imsi, r.vlr, r.vlrViaProxy, r.lastLu)) = [(imsi1, some (b "MSC-1"), some (b "HLR-0"), some 5)]
    ∧ ((rnet (exRoam ++ [.hlr 0 (.remoteRx c4 ulRes { clock := 1002 })])).site 0).sys.proxy.map (fun x => (x.data.imsi, x.data.cs.vlr.name)) = [(imsi1, msc1)] := by
  decide +kernel

theorem told_sound {w : Wires} (h : soundB id defaultSuffix w (rStart.net defaultSuffix) exAsks = true) : Sound id defaultSuffix rStart w exTold := by
  refine sound_snoc (evs := exAsks) (soundB_spec exAsks sound_nil h) ?_
  refine ⟨0, 0, { hres c4 with last := true }, ⟨exAsks.take 5, 0, 1000, exAsks.drop 6, rfl, by decide +kernel, by decide +kernel, by decide +kernel⟩, ?_, rfl, rfl⟩
  show _ ∈ story (rnet exAsks) 0 0
  decide +kernel

theorem roam_sound : Sound id defaultSuffix rStart wires (exRoam ++ [.hlr 0 (.remoteRx c4 ulRes { clock := 1002 })]) := by
  have := soundB_spec (s := rStart) (z := id) (sfx := defaultSuffix) (w := wires) (exLinked.drop 9 ++ exRoam.drop 12
    ++ [.hlr 0 (.remoteRx c4 ulRes { clock := 1002 })]) (told_sound (by decide +kernel)) (by decide +kernel)
  exact this

/-- A check of `Honest`. -/
def honestB (w : Wires) : Net.Ev → Bool
  | .hlr j (.rx c (some m) _) => decide (w.peer j c ≠ none ∨ ¬ IsGrant m.typ)
  | .hlr _ (.remoteRx a m _) => decide (w.site a ≠ none ∨ ¬ IsGrant m.typ)
  | _ => true

theorem honestB_spec {w : Wires} {evs : List Net.Ev} (h : evs.all (honestB w) = true) : Honest w evs where
  node j c m e he hp := by
    have := List.all_eq_true.1 h _ he
    exact (of_decide_eq_true this).resolve_left (fun h => h hp)
  hlr i a m e he hp := by
    have := List.all_eq_true.1 h _ he
    exact (of_decide_eq_true this).resolve_left (fun h => h hp)

theorem roam_honest : Honest wires (exRoam ++ [.hlr 0 (.remoteRx c4 ulRes { clock := 1002 })]) := honestB_spec (by decide +kernel)

/-- Only lookups of the two subscribers' home HLRs, the configuration stays, no foreign packets. -/
def calm : Net.Ev → Bool
  | .request _ q _ _ => decide (q = hq imsi1 ∨ q = hq imsi9)
  | .conf .. => false
  | .inject _ => false
  | _ => true

theorem hq_sendable : Sendable (hq imsi1) defaultSuffix ∧ Sendable (hq imsi9) defaultSuffix := by
  have h : ∀ i, Spec.Valid (hq i) → Sendable (hq i) defaultSuffix := by
    intro i hi
    refine ⟨hi, ⟨[b "gsup", b "hlr"], by simp, ?_, (by decide +kernel : HLR_GSUP = dotted [b "gsup", b "hlr"])⟩,
      ⟨[b "mdns", b "osmocom", b "org"], by simp, ?_, by decide +kernel⟩⟩
    · intro l hl
      simp only [List.mem_cons, List.not_mem_nil, or_false] at hl
      rcases hl with rfl | rfl <;> exact ⟨by decide +kernel, by decide +kernel, by decide +kernel⟩
    · intro l hl
      simp only [List.mem_cons, List.not_mem_nil, or_false] at hl
      rcases hl with rfl | rfl | rfl <;> exact ⟨by decide +kernel, by decide +kernel, by decide +kernel⟩
  refine ⟨h _ ⟨by decide +kernel, by decide +kernel, ?_⟩, h _ ⟨by decide +kernel, by decide +kernel, ?_⟩⟩
  · show 6 ≤ imsi1.length ∧ imsi1.length ≤ 15; decide +kernel
  · show 6 ≤ imsi9.length ∧ imsi9.length ≤ 15; decide +kernel

theorem calm_usable {evs : List Net.Ev} (h : evs.all calm = true) : Usable defaultSuffix rStart evs ∧ Own evs := by
  have hm : ∀ e ∈ evs, calm e = true := List.all_eq_true.1 h
  refine ⟨⟨?_, by decide +kernel, ?_, ?_, fun _ => (by show 0 < 65536; decide)⟩, fun p hp => ?_⟩
  · intro i q mn to hm' _ _
    rcases of_decide_eq_true (hm _ hm') with e | e
    · rw [e]; exact hq_sendable.1
    · rw [e]; exact hq_sendable.2
  · intro j
    show InRange (if j = 0 then exSrv else if j = 1 then exSrv1 else if j = 2 then { bind := hlr9 } else {}).services
      ∧ AddrOk (if j = 0 then exSrv else if j = 1 then exSrv1 else if j = 2 then { bind := hlr9 } else {}).bind
    split
    · decide +kernel
    · split
      · decide +kernel
      · split
        · decide +kernel
        · decide +kernel
  · intro j cfg srv hm'
    cases hm _ hm'
  · cases hm _ hp

theorem calm_srv {evs : List Net.Ev} (h : evs.all calm = true) (j : Nat) : ((rnet evs).site j).srv = rStart.srv j := by
  induction evs using snoc_induction with
  | nil => rfl
  | snoc evs e ih =>
    rw [List.all_append, Bool.and_eq_true] at h
    have ih := ih h.1
    have he : calm e = true := by simpa using h.2
    unfold rnet at ih ⊢
    rw [run_cons_snoc]
    generalize Net.run id defaultSuffix rStart evs = n at ih ⊢
    rw [← ih]
    have hset : ∀ k (t : Site), t.srv = (n.site k).srv → ((n.setSite k t).site j).srv = (n.site j).srv := by
      intro k t ht
      show (if j = k then t else n.site j).srv = _
      split
      · rename_i hk; subst hk; exact ht
      · rfl
    have hsend : ∀ (n' : Net) o, ((n'.send o).site j) = n'.site j := by
      intro n' o
      unfold Net.send
      split <;> rfl
    cases e with
    | hlr k ev => exact hset k _ rfl
    | conf => cases he
    | request k q mn to => show (((n.setLook k _).send _).site j).srv = _; rw [hsend]; rfl
    | cancel k h => rfl
    | timeout k u => rfl
    | serve k p now sc =>
      unfold Net.step
      dsimp only
      split
      · split
        · exact hset k _ rfl
        · rw [hsend]
      · rfl
    | hear k p =>
      unfold Net.step
      dsimp only
      split
      · split <;> rfl
      · rfl
    | inject p => rfl

theorem calm_listens {evs : List Net.Ev} (h : evs.all calm = true) : Listens id defaultSuffix rStart wires evs := by
  intro pre post j r he ha hz
  subst he
  rw [List.all_append, Bool.and_eq_true] at h
  have := calm_srv h.1 j
  unfold rnet at this
  rw [this] at ha
  have hb : serviceGet (rStart.srv j).services {} HLR_GSUP = none ∧ (rStart.srv j).bind.v6 = false
      ∧ ((rStart.srv j).bind.nonzero = true → wires.site (rStart.srv j).bind = some j) := by
    have e : rStart.srv j = if j = 0 then exSrv else if j = 1 then exSrv1 else if j = 2 then { bind := hlr9 } else {} := rfl
    rw [e]
    split
    · rename_i h; subst h; decide +kernel
    · split
      · rename_i h; subst h; decide +kernel
      · split
        · rename_i h; subst h; decide +kernel
        · exact ⟨by decide +kernel, rfl, fun h => (by cases h)⟩
  obtain ⟨h1, h2, h3⟩ := hb
  rcases ha with ⟨x, hx, -⟩ | ⟨-, ha⟩
  · rw [h1] at hx; cases hx
  · rw [h2, if_neg (by simp)] at ha
    unfold foundAddr at hz ⊢
    dsimp only at hz ⊢
    rw [ha.1, ha.2] at hz ⊢
    split at hz
    · rename_i h; rw [if_pos h]; exact h3 h
    · cases hz

/-- What is not touched stays. -/
theorem untouched {evs : List Net.Ev} {j : Nat} (h : ∀ ev, .hlr j ev ∉ evs) : ((rnet evs).site j).sys.db = {} := by
  obtain ⟨h1, h2⟩ := hist_run id defaultSuffix rStart evs j
  unfold rnet
  rw [h1]
  have gen : ∀ (l : List (Cfg × Sys.Ev)) (t : Sys), (∀ x ∈ l, x.2 = .kill) → (Sys.run t l).db = t.db := by
    intro l
    induction l with
    | nil => intro t _; rfl
    | cons x l ih =>
      intro t hl
      show (Sys.run (Sys.step x.1 t x.2) l).db = _
      rw [ih _ (fun y hy => hl y (List.mem_cons_of_mem _ hy)), hl x List.mem_cons_self]
      unfold Sys.step
      split <;> rfl
  rw [gen _ _ (fun x hx => (h2 x hx).resolve_right (h _))]
  rfl

/-- A check of `OnlyHome`, for histories of three sites. -/
def onlyB (evs : List Net.Ev) (imsi : Bytes) : Bool :=
  (List.range (evs.length + 1)).all (fun n => [0, 2].all fun j => ((rnet (evs.take n)).site j).sys.db.subs.all fun r => r.imsi != imsi)
  && evs.all fun e => match e with | .hlr j _ => decide (j < 3) | _ => true

theorem onlyB_spec {evs : List Net.Ev} {imsi : Bytes} (h : onlyB evs imsi = true) : OnlyHome id defaultSuffix rStart evs imsi 1 := by
  unfold onlyB at h
  rw [Bool.and_eq_true] at h
  intro pre post j he ⟨r, hr, hi⟩
  have h1 : evs.take pre.length = pre := by rw [he]; simp
  have h2 := List.all_eq_true.1 h.1 pre.length (by rw [he]; simp; omega)
  rw [h1] at h2
  have key : ∀ k ∈ [0, 2], j ≠ k := by
    intro k hk e
    subst e
    have := List.all_eq_true.1 (List.all_eq_true.1 h2 j hk) r hr
    rw [hi] at this
    simp at this
  by_cases hj : j < 3
  · have := key 0 (by simp)
    have := key 2 (by simp)
    omega
  · have := untouched (evs := pre) (j := j) (fun ev hev => by
      have := List.all_eq_true.1 h.2 (.hlr j ev) (by rw [he]; exact List.mem_append_left _ hev)
      exact hj (of_decide_eq_true this))
    unfold rnet at this
    rw [this] at hr
    cases hr

/-- A check of `NoGateway`. -/
def gateB : Net.Ev → Bool
  | .hlr _ (.rx _ (some _) e) => !e.gateway.nonzero
  | _ => true

theorem gateB_spec {evs : List Net.Ev} (h : evs.all gateB = true) : NoGateway evs := by
  intro j c m e he
  have := List.all_eq_true.1 h _ he
  simpa [gateB] using this

/-- The hypotheses of the theorems hold for this history: the request was sent on, and the result passed on. -/
example : let evs := exRoam ++ [.hlr 0 (.remoteRx c4 ulRes { clock := 1002 })]
    Usable defaultSuffix rStart evs ∧ Own evs ∧ Few (rnet evs) ∧ Sound id defaultSuffix rStart wires evs ∧ Honest wires evs ∧ NoGateway evs
    ∧ Listens id defaultSuffix rStart wires evs ∧ OnlyHome id defaultSuffix rStart evs imsi1 1
    ∧ .remote c4 { ulMsg with src := msc1 } (some 1) ∈ logOf id defaultSuffix rStart evs 0 ∧ c4.nonzero = true
    ∧ .tx 1 ulRes none ∈ logOf id defaultSuffix rStart evs 0
    ∧ PassedOn ((rnet exRoam).site 0).cfg ((rnet exRoam).site 0).sys c4 ulRes { clock := 1002 } ∧ (0 : UInt8) ∈ ulRes.dst ∧ ulRes.dst.length ≤ 128 := by
  refine ⟨(calm_usable (by decide +kernel)).1, (calm_usable (by decide +kernel)).2, few_of_length _ _ _ _ (by decide +kernel), roam_sound,
    roam_honest, gateB_spec (by decide +kernel), calm_listens (by decide +kernel), onlyB_spec (by decide +kernel), by decide +kernel, by decide +kernel, by decide +kernel,
    ⟨1, by decide +kernel⟩, by decide +kernel, by decide +kernel⟩

/-- What the HLR of site 1 received from that of site 0 (`c72_faithful`). -/
example : ∃ pre post, exRoam = pre ++ .hlr 1 (.rx 1 (some { ulMsg with src := msc1 }) { now := some 5 }) :: post ∧ wires.peer 1 1 = some 0 :=
  ⟨exLinked, exRoam.drop 13, rfl, by decide⟩

/-- The subscriber has keys at site 1, and MSC-1 at site 0 asks for vectors. -/
def exSai : List Net.Ev := exLinked ++ ((exKeys.drop 6).map (Net.Ev.hlr 1)) ++
  [.hlr 0 (.rx 1 (some saiMsg) dgsmEnv), .hlr 1 (.rx 1 (some { saiMsg with src := msc1 }) exEnv)]

/-- The latest message that site 1 sent. -/
def lastSent (evs : List Net.Ev) : Gsup.Msg :=
  ((logOf id defaultSuffix rStart evs 1).findSome? fun o => match o with | .tx _ m _ => some m | _ => none).getD {}

/-- The hypotheses of `c72_vectors_partial`: the vectors reach MSC-1. -/
example : let evs := exSai ++ [.hlr 0 (.remoteRx c4 (lastSent exSai) { clock := 1002 })]
    (∀ j, rStart.db j = {}) ∧ Sound id defaultSuffix rStart wires evs ∧ Honest wires evs
    ∧ .tx 1 (lastSent exSai) none ∈ logOf id defaultSuffix rStart evs 0 ∧ (lastSent exSai).typ = Gsup.SEND_AUTH_INFO + 2 ∧ (lastSent exSai).vecs.length = 2 := by
  refine ⟨fun _ => rfl, ?_, honestB_spec (by decide +kernel), by decide +kernel, by decide +kernel, by decide +kernel⟩
  have := soundB_spec (s := rStart) (z := id) (sfx := defaultSuffix) (w := wires) (exLinked.drop 9 ++ exSai.drop 12
    ++ [.hlr 0 (.remoteRx c4 (lastSent exSai) { clock := 1002 })]) (told_sound (by decide +kernel)) (by decide +kernel)
  exact this

/-! ## Counterexamples -/

/-- A check that nobody acknowledges subscriber data. -/
def unacked : Net.Ev → Bool
  | .hlr _ (.rx _ (some m) _) => m.typ != Gsup.INSERT_DATA + 2
  | _ => true

/-- Without acknowledgement no HLR has granted anything. -/
theorem not_granted {evs : List Net.Ev} (h : evs.all unacked = true) (j : Nat) (imsi name : Bytes) : ¬ Granted id defaultSuffix rStart evs j imsi name := by
  rintro ⟨e1, cfg, c, m, e, e2, cfga, ca, ack, ea, e3, via, t, he, -, -, -, ht, -⟩
  have : .hlr j (.rx ca (some ack) ea) ∈ evs :=
    hist_ev (j := j) (x := (cfga, .rx ca (some ack) ea)) (z := id) (sfx := defaultSuffix) (s := rStart)
      (by rw [he]; exact List.mem_append_right _ List.mem_cons_self) (by intro h; cases h)
  have := List.all_eq_true.1 h _ this
  simp [unacked, ht] at this

/-- A result, sent by MSC-2. -/
def forged : Gsup.Msg := { ulRes with src := msc2 }

/-- The home HLR has the subscriber barred and refuses; then MSC-2, a node at the home site, sends the result. -/
def exForged : List Net.Ev := exLinked ++
  [.hlr 1 (.db (.nam imsi1 false false) []), .hlr 1 (.rx 1 (some { ulMsg with src := msc1 }) { now := some 5 }),
   .hlr 1 .connect, .hlr 1 (.ccm 2 (some msc2)), .hlr 1 (.rx 2 (some forged) {})]

/-- C72, witness: a node at the home site can let a subscriber whom the home HLR refuses in at another site: messages with a
destination name are passed on without regard to what they are or who sent them. -/
theorem c72_forged_violated : ∃ evs e, Sound id defaultSuffix rStart wires (evs ++ [.hlr 0 (.remoteRx c4 forged e)])
    ∧ Usable defaultSuffix rStart evs ∧ Own evs ∧ Few (rnet evs) ∧ Listens id defaultSuffix rStart wires evs
    ∧ OnlyHome id defaultSuffix rStart evs imsi1 1
    ∧ PassedOn ((rnet evs).site 0).cfg ((rnet evs).site 0).sys c4 forged e
    ∧ ∀ j, ¬ Granted id defaultSuffix rStart evs j imsi1 msc1 := by
  refine ⟨exForged, { clock := 1002 }, ?_, (calm_usable (by decide +kernel)).1, (calm_usable (by decide +kernel)).2,
    few_of_length _ _ _ _ (by decide +kernel), calm_listens (by decide +kernel), onlyB_spec (by decide +kernel), ⟨1, by decide +kernel⟩,
    fun j => not_granted (by decide +kernel) j _ _⟩
  have := soundB_spec (s := rStart) (z := id) (sfx := defaultSuffix) (w := wires) (exLinked.drop 9 ++ exForged.drop 12
    ++ [.hlr 0 (.remoteRx c4 forged { clock := 1002 })]) (told_sound (by decide +kernel)) (by decide +kernel)
  exact this

/-- The HLR at `hlr9` is not one of ours. -/
def wires9 : Wires := { wires with site := fun a => if a = hlr9 then none else wires.site a }

/-- Then another subscriber, at home at site 2, comes to MSC-1. -/
def exAsks9 : List Net.Ev := exLinked ++
  [.hlr 2 (.db (.create imsi9 true true) []), .hlr 0 (.rx 1 (some ul9) dgsmEnv), .request 0 (hq imsi9) 0 1000, .serve 2 (ask0 1 (hq imsi9)) 90 [],
   .hear 0 (tell0 1 (hq imsi9) (hres hlr9))]

def exTold9 : List Net.Ev := exAsks9 ++ [.hlr 0 (.lookup imsi9 (some (hlr9, {})) dgsmEnv)]

def exStranger : List Net.Ev := exTold9 ++ [.hlr 0 (.remoteUp hlr9)]

/-- C72, witness: the HLR of another site, which the visited HLR is connected to for another subscriber's sake, can let the
subscriber in: results are taken from every remote HLR, not only from that of the subscriber's home. -/
theorem c72_stranger_violated : ∃ evs e, Sound id defaultSuffix rStart wires9 (evs ++ [.hlr 0 (.remoteRx hlr9 ulRes e)])
    ∧ Usable defaultSuffix rStart evs ∧ Own evs ∧ Few (rnet evs) ∧ Honest wires9 evs
    ∧ OnlyHome id defaultSuffix rStart evs imsi1 1
    ∧ PassedOn ((rnet evs).site 0).cfg ((rnet evs).site 0).sys hlr9 ulRes e
    ∧ ∀ j, ¬ Granted id defaultSuffix rStart evs j imsi1 msc1 := by
  refine ⟨exStranger, { clock := 1002 }, ?_, (calm_usable (by decide +kernel)).1, (calm_usable (by decide +kernel)).2,
    few_of_length _ _ _ _ (by decide +kernel), honestB_spec (by decide +kernel), onlyB_spec (by decide +kernel), ⟨1, by decide +kernel⟩,
    fun j => not_granted (by decide +kernel) j _ _⟩
  have h1 : Sound id defaultSuffix rStart wires9 exAsks9 :=
    soundB_spec (s := rStart) (z := id) (sfx := defaultSuffix) (w := wires9) (exLinked.drop 9 ++ exAsks9.drop 12) (told_sound (by decide +kernel)) (by decide +kernel)
  have h2 : Sound id defaultSuffix rStart wires9 exTold9 := by
    refine sound_snoc (evs := exAsks9) h1 ?_
    refine ⟨0, 1, { hres hlr9 with last := true }, ⟨exAsks9.take 14, 0, 1000, exAsks9.drop 15, rfl, by decide +kernel, by decide +kernel, by decide +kernel⟩, ?_, rfl, rfl⟩
    show _ ∈ story (rnet exAsks9) 0 1
    decide +kernel
  exact soundB_spec (s := rStart) (z := id) (sfx := defaultSuffix) (w := wires9) [.hlr 0 (.remoteUp hlr9), .hlr 0 (.remoteRx hlr9 ulRes { clock := 1002 })] h2
    (by decide +kernel)

end Verif.Roam.Props
