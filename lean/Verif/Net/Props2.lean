import Verif.Net.Props
/-!
# C71: what a user learns in the end, examples and counterexamples
-/
namespace Verif.Net
open Verif Verif.Db Verif.Sys Verif.Mslookup Verif.Mslookup.Mdns Verif.Mslookup.Mdns.Spec Verif.Net.Spec
open Verif.Mslookup.Client (Client Obs rxResult timeoutCb sendResult setTimer)
open Verif.Mslookup.Client.Spec (Ended Open arrived reported Same Best hist)

/-- What happened to a lookup is not forgotten. -/
theorem step_story (z : Zone) (sfx : Bytes) (n : Net) (e : Ev) (i : Nat) :
    (n.look i).client.log <:+ ((step z sfx n e).look i).client.log := by
  have hset : ∀ k (l : Look), (n.look k).client.log <:+ l.client.log → (n.look i).client.log <:+ ((n.setLook k l).look i).client.log := by
    intro k l h
    show _ <:+ (if i = k then l else n.look i).client.log
    split
    · rename_i e; rw [e]; exact h
    · exact List.suffix_refl _
  have hsend : ∀ (n' : Net) o, ((n'.send o).look i) = n'.look i := by
    intro n' o
    unfold Net.send
    split <;> rfl
  have hst := fun k ev => Client.step_log {} 0 (n.look k).client ev
  cases e with
  | hlr j ev => exact List.suffix_refl _
  | conf j cfg srv => exact List.suffix_refl _
  | request k q mn to =>
    show _ <:+ (((n.setLook k _).send _).look i).client.log
    rw [hsend]
    refine hset k _ ?_
    have := hst k (.act (.request q mn to))
    unfold Look.request
    dsimp only
    split
    · exact this
    · exact this
  | cancel k h => exact hset k _ (hst k (.act (.cancel h)))
  | timeout k u => exact hset k _ (hst k (.timeout u))
  | serve j p now sc =>
    unfold step
    dsimp only
    split
    · split
      · exact List.suffix_refl _
      · rw [hsend]; exact List.suffix_refl _
    · exact List.suffix_refl _
  | hear k p =>
    unfold step
    dsimp only
    split
    · have := hset k ((n.look k).hear p).2 (by
        unfold Look.hear
        split
        · exact List.suffix_refl _
        · exact List.suffix_refl _
        · exact List.suffix_refl _
        · rename_i h r _
          exact hst k (.rx h r))
      split
      · exact this
      · exact this
    · exact List.suffix_refl _
  | inject p => exact List.suffix_refl _

theorem story_mono {z : Zone} {sfx : Bytes} {s : Start} {evs : List Ev} {i u : Nat} {o : Obs} (h : o ∈ story (run z sfx s evs) i u) (l : List Ev) :
    o ∈ story (run z sfx s (evs ++ l)) i u := by
  induction l generalizing evs with
  | nil => rw [List.append_nil]; exact h
  | cons e l ih =>
    have : o ∈ story (run z sfx s (evs ++ [e])) i u := by
      unfold story at h ⊢
      rw [mem_hist] at h ⊢
      rw [run_cons_snoc]
      exact (step_story z sfx _ e i).subset h
    have := ih this
    simpa using this

theorem request_one (c : Client) (q : Query) (mn to : Nat) : (Client.request note (fun _ => []) c q mn to).2.uids ≤ c.uids + 1 := by
  unfold Client.request
  split
  · exact Nat.le_succ _
  · dsimp only [List.foldl]
    split
    · exact Nat.le_refl _
    · rename_i other h
      have hm := List.mem_of_find?_eq_some h
      have := (send_step { c with next := ((if c.next = 0 then 1 else c.next) + 1) % 4294967296, uids := c.uids + 1, clash := true } other true
        ⟨other, hm, rfl, rfl, rfl⟩).2.2
      exact Nat.le_of_eq this

/-- Handles repeat only after 2^32 - 1 lookups. -/
theorem few_of_length (z : Zone) (sfx : Bytes) (s : Start) (evs : List Ev) (h : evs.length ≤ 4294967294) : Few (run z sfx s evs) := by
  have key : ∀ (evs : List Ev) i, ((run z sfx s evs).look i).client.uids ≤ evs.length := by
    intro evs i
    induction evs using snoc_induction with
    | nil => exact Nat.le_refl _
    | snoc evs e ih =>
      rw [run_cons_snoc, List.length_append]
      generalize run z sfx s evs = n at ih ⊢
      refine Nat.le_trans ?_ (Nat.add_le_add_right ih 1)
      have hset : ∀ k (l : Look), l.client.uids ≤ (n.look k).client.uids + 1 → ((n.setLook k l).look i).client.uids ≤ (n.look i).client.uids + 1 := by
        intro k l h
        show (if i = k then l else n.look i).client.uids ≤ _
        split
        · rename_i e; rw [e]; exact h
        · exact Nat.le_succ _
      have hsend : ∀ (n' : Net) o, ((n'.send o).look i) = n'.look i := by
        intro n' o
        unfold Net.send
        split <;> rfl
      cases e with
      | hlr j ev => exact Nat.le_succ _
      | conf j cfg srv => exact Nat.le_succ _
      | request k q mn to =>
        show (((n.setLook k _).send _).look i).client.uids ≤ _
        rw [hsend]
        refine hset k _ ?_
        have := request_one (n.look k).client q mn to
        unfold Look.request
        dsimp only
        split
        · exact this
        · exact this
      | cancel k h => exact hset k _ (Nat.le_succ_of_le (Nat.le_of_eq (cancel_moves _ _).uids))
      | timeout k u => exact hset k _ (Nat.le_succ_of_le (Nat.le_of_eq (timeout_moves _ _).uids))
      | serve j p now sc =>
        unfold step
        dsimp only
        split
        · split
          · exact Nat.le_succ _
          · rw [hsend]; exact Nat.le_succ _
        · exact Nat.le_succ _
      | hear k p =>
        unfold step
        dsimp only
        split
        · have := hset k ((n.look k).hear p).2 (Nat.le_succ_of_le (Nat.le_of_eq (hear_uids _ _)))
          split
          · exact this
          · exact this
        · exact Nat.le_succ _
      | inject p => exact Nat.le_succ _
  exact fun i => Nat.le_trans (key evs i) h

end Verif.Net

namespace Verif.Net.Props
open Verif Verif.Db Verif.Sys Verif.Sys.Props Verif.Mslookup Verif.Mslookup.Props Verif.Mslookup.Mdns Verif.Mslookup.Mdns.Spec Verif.Net.Spec
open Verif.Mslookup.Client (Client Obs rxResult timeoutCb sendResult setTimer)
open Verif.Mslookup.Client.Spec (Ended Open arrived reported Same Best hist)

/-- C71: if an answer was heard for a lookup, then once the lookup is over (and not cancelled before
that) its user has been given a result that is at least as young. -/
theorem c71_found_partial {z : Zone} {sfx : Bytes} {s : Start} {evs evs2 : List Ev} {i u : Nat} {r : Result}
    (hr : .rx r ∈ story (run z sfx s evs) i u) (hrc : r.rc = .result)
    (hu : Usable sfx s (evs ++ evs2)) (ho : Own (evs ++ evs2)) (hf : Few (run z sfx s (evs ++ evs2)))
    (he : Ended (story (run z sfx s (evs ++ evs2)) i u)) :
    ∃ y, .cb y ∈ story (run z sfx s (evs ++ evs2)) i u ∧ y.rc = .result ∧ y.age ≤ r.age := by
  have hr := story_mono hr evs2
  obtain ⟨y, hy, hl⟩ := he
  obtain ⟨l1, l2, e⟩ := List.append_of_mem hy
  have hfin := (c71_final_partial hu ho hf e hl).1 r ?_ hrc
  · obtain ⟨w, hw, h⟩ := hfin
    exact ⟨w, by rw [e]; exact List.mem_append_right _ hw, h⟩
  · obtain ⟨cevs, ec⟩ := ((run_inv hu ho hf).look i).client
    have hm := hf i
    unfold story at e hr
    rw [ec] at e hr hm
    have honce := (c43_once_partial {} 0 cevs (Client.recent_of_few (Nat.le_succ_of_le hm)) u).1 l1 y l2 e hl
    rw [e] at hr
    rcases List.mem_append.1 hr with hr | hr
    · cases honce.1 _ hr
    · rcases List.mem_cons.1 hr with hr | hr
      · cases hr
      · exact hr

/-! ## Examples: two sites, and two programs that look subscribers up -/

def c4 : Addr := { ip := 3, port := 5060 }

/-- The voice service at site 1. -/
def exSrv1 : Srv := { services := (execAll [] [.service .server (b "sip.voice") c4]).2, bind := c4 }

def exStart : Start where
  cfg _ := exCfg
  srv j := if j = 0 then exSrv else exSrv1
  db _ := {}

/-- The packet for a lookup, and the packet for an answer. -/
def ask0 (id : Nat) (q : Query) : Bytes := match queryEncode id q defaultSuffix with | .ok p => p | _ => []
def tell0 (id : Nat) (q : Query) (r : Result) : Bytes := match resultEncode id q r defaultSuffix with | .ok p => p | _ => []

/-- The subscriber 1001 is created at a site and attaches to its MSC-1 at time `t`. -/
def attach (j : Nat) (t : Int) : List Ev :=
  (exTwo ++ [Sys.Ev.rx 1 (some ulMsg) { now := some t }, Sys.Ev.rx 1 (some ackMsg) {}]).map (Ev.hlr j)

def net (evs : List Ev) : Net := run id defaultSuffix exStart evs

/-- What the servers of the two sites answer with. -/
def res0 (age : Nat) : Result := { rc := .result, v4 := b4, age := age }
def res1 (age : Nat) : Result := { rc := .result, v4 := c4, age := age }

def noResult : Result := { rc := .notFound }

instance (a : Addr) : Decidable (AddrOk a) := by unfold AddrOk; infer_instance

instance (h : Host) : Decidable (HostOk h) :=
  decidable_of_iff ((h.v4.v6 = false ∧ AddrOk h.v4) ∧ ((h.v6 = {} ∨ h.v6.v6 = true) ∧ AddrOk h.v6))
    ⟨fun h => ⟨h.1, h.2⟩, fun h => ⟨h.v4, h.v6⟩⟩

instance (l : Services) : Decidable (InRange l) := by unfold InRange; infer_instance

/-- Only lookups of `exQuery`, and the configuration stays. -/
def tame : Ev → Bool
  | .request _ q _ _ => decide (q = exQuery)
  | .conf .. => false
  | _ => true

theorem exUsable {evs : List Ev} (h : evs.all tame = true) : Usable defaultSuffix exStart evs where
  query i q mn to hm _ _ := by
    have := List.all_eq_true.1 h _ hm
    have : q = exQuery := by simpa [tame] using this
    rw [this]; exact exSendable
  suffix := by decide +kernel
  srv j := by
    show InRange (if j = 0 then exSrv else exSrv1).services ∧ AddrOk (if j = 0 then exSrv else exSrv1).bind
    split
    · decide +kernel
    · decide +kernel
  conf j cfg srv hm := by
    have := List.all_eq_true.1 h _ hm
    cases this
  packet i := by show 0 < 65536; decide

/-- No event is a foreign packet. -/
def own : Ev → Bool
  | .inject _ => false
  | _ => true

theorem exOwn {evs : List Ev} (h : evs.all own = true) : Own evs := by
  intro p hp
  have := List.all_eq_true.1 h _ hp
  cases this

/-- The lookup of program 0 is answered by site 0, where the subscriber has been for 90 seconds;
site 1 does not know the subscriber. -/
def exLookup : List Ev := attach 0 0 ++ [.request 0 exQuery 0 1000, .serve 0 (ask0 0 exQuery) 90 [], .serve 1 (ask0 0 exQuery) 90 [],
  .hear 0 (tell0 0 exQuery (res0 90)), .timeout 0 0]

example : story (net exLookup) 0 0 = [.cb { res0 90 with rc := .none, last := true }, .tick, .cb (res0 90), .rx (res0 90), .issued 1 0 1000]
    ∧ (net exLookup).air = [tell0 0 exQuery (res0 90), ask0 0 exQuery] ∧ (net exLookup).ub = false := by decide +kernel

/-- The hypotheses of the theorems hold for it. -/
example : Usable defaultSuffix exStart exLookup ∧ Own exLookup ∧ Few (net exLookup) ∧ Asked id defaultSuffix exStart exLookup 0 0 exQuery
    ∧ Ended (story (net exLookup) 0 0) := by
  refine ⟨exUsable (by decide +kernel), exOwn (by decide +kernel), few_of_length _ _ _ _ (by decide +kernel), ?_,
    ⟨{ res0 90 with rc := .none, last := true }, by decide +kernel, rfl⟩⟩
  exact ⟨attach 0 0, 0, 1000, _, rfl, by decide +kernel, by decide +kernel, by decide +kernel⟩

/-- Site 0 said so when it was asked, and the answer of `c71_heard_partial` is `tell0`. -/
example : Said id defaultSuffix exStart exLookup 0 exQuery (res0 90) := by
  refine ⟨attach 0 0 ++ [.request 0 exQuery 0 1000], .serve 0 (ask0 0 exQuery) 90 [], _, 90, rfl, ask0 0 exQuery, [], rfl, by decide +kernel,
    ⟨0, by decide +kernel⟩, ?_⟩
  unfold Says
  decide +kernel

/-- Two lookups in two programs: both hear both sites, in another order and one of them twice;
the subscriber has moved from site 1 to site 0. -/
def exBusy : List Ev := attach 1 0 ++ attach 0 50 ++ [.request 0 exQuery 100 1000, .request 1 exQuery 0 0,
  .serve 1 (ask0 0 exQuery) 90 [], .serve 0 (ask0 0 exQuery) 90 [], .hear 1 (tell0 0 exQuery (res1 90)), .hear 0 (tell0 0 exQuery (res0 40)),
  .hear 0 (tell0 0 exQuery (res1 90)), .hear 1 (tell0 0 exQuery (res0 40)), .hear 1 (tell0 0 exQuery (res0 40)), .timeout 0 0, .timeout 0 0, .timeout 1 0]

example : story (net exBusy) 0 0 = [.cb { res0 40 with rc := .none, last := true }, .tick, .cb (res0 40), .tick, .rx (res1 90), .rx (res0 40),
      .issued 1 100 1000]
    ∧ story (net exBusy) 1 0 = [.cb { res0 40 with rc := .none, last := true }, .tick, .rx (res0 40), .cb (res0 40), .rx (res0 40), .cb (res1 90),
      .rx (res1 90), .issued 1 0 1000]
    ∧ (exBusy.all tame && exBusy.all own) = true := by decide +kernel

/-- Nobody knows the subscriber, or the packet is lost: "not found". -/
example : story (net [.request 0 exQuery 0 1000, .serve 0 (ask0 0 exQuery) 90 [], .timeout 0 0]) 0 0
      = [.cb { noResult with last := true }, .tick, .issued 1 0 1000]
    ∧ story (net (attach 0 0 ++ [.request 0 exQuery 0 1000, .timeout 0 0])) 0 0
      = [.cb { noResult with last := true }, .tick, .issued 1 0 1000] := by decide +kernel

/-- C71, witness: an answer forged by somebody else is believed: nothing shows from whom a packet
comes. -/
theorem c71_forged_violated : ∃ evs r, Usable defaultSuffix exStart evs ∧ Few (net evs) ∧ .cb r ∈ story (net evs) 0 0 ∧ r.rc = .result
    ∧ ∀ j q x, ¬ Said id defaultSuffix exStart evs j q x := by
  refine ⟨[.request 0 exQuery 0 1000, .inject (tell0 0 exQuery (res0 90)), .hear 0 (tell0 0 exQuery (res0 90))], res0 90,
    exUsable (by decide +kernel), few_of_length _ _ _ _ (by decide), by decide +kernel, rfl, ?_⟩
  rintro j q x ⟨pre, e, post, now, he, p, sc, rfl, -⟩
  have : Ev.serve j p now sc ∈ [Ev.request 0 exQuery 0 1000, .inject (tell0 0 exQuery (res0 90)), .hear 0 (tell0 0 exQuery (res0 90))] := by
    rw [he]; exact List.mem_append_right _ List.mem_cons_self
  simp at this

/-- C71, witness: of two lookups of the same subscriber in one program only the later hears the
answer; the other ends with "not found" although the site that serves the subscriber answered in
time. -/
theorem c71_parallel_violated : ∃ evs, Usable defaultSuffix exStart evs ∧ Own evs ∧ Few (net evs)
    ∧ Said id defaultSuffix exStart evs 0 exQuery (res0 90)
    ∧ story (net evs) 0 0 = [.cb { noResult with last := true }, .tick, .issued 1 0 1000]
    ∧ .cb (res0 90) ∈ story (net evs) 0 1 := by
  refine ⟨attach 0 0 ++ [.request 0 exQuery 0 1000, .request 0 exQuery 0 1000, .serve 0 (ask0 0 exQuery) 90 [],
    .hear 0 (tell0 0 exQuery (res0 90)), .timeout 0 0], exUsable (by decide +kernel), exOwn (by decide +kernel),
    few_of_length _ _ _ _ (by decide +kernel), ?_, by decide +kernel, by decide +kernel⟩
  refine ⟨attach 0 0 ++ [.request 0 exQuery 0 1000, .request 0 exQuery 0 1000], .serve 0 (ask0 0 exQuery) 90 [], _, 90, rfl, ask0 0 exQuery, [], rfl,
    by decide +kernel, ⟨0, by decide +kernel⟩, ?_⟩
  unfold Says
  decide +kernel

/-- C71, witness: the answer to an earlier lookup, delayed in the network, ends a later one: the
packet id is not looked at.  Nobody was asked since the later lookup began, the subscriber has moved
to site 1 meanwhile, and the age (0) is that of the time when the packet was made. -/
theorem c71_stale_violated : ∃ evs1 evs2, Usable defaultSuffix exStart (evs1 ++ .request 0 exQuery 0 1000 :: evs2)
    ∧ Own (evs1 ++ .request 0 exQuery 0 1000 :: evs2) ∧ Few (net (evs1 ++ .request 0 exQuery 0 1000 :: evs2))
    ∧ (∀ j p now sc, .serve j p now sc ∉ evs2) ∧ ((net evs1).look 0).client.uids = 1
    ∧ Says id (net evs1) 1 100 [] exQuery (res1 50)
    ∧ .cb { res0 0 with last := true } ∈ story (net (evs1 ++ .request 0 exQuery 0 1000 :: evs2)) 0 1 := by
  refine ⟨attach 0 0 ++ [.request 0 exQuery 0 1000, .serve 0 (ask0 0 exQuery) 0 [], .timeout 0 0] ++ attach 1 50,
    [.hear 0 (tell0 0 exQuery (res0 0))], exUsable (by decide +kernel), exOwn (by decide +kernel),
    few_of_length _ _ _ _ (by decide +kernel), ?_, by decide +kernel, ?_, by decide +kernel⟩
  · intro j p now sc h
    simp at h
  · unfold Says
    decide +kernel

/-- C71, witness: the youngest answer need not be where the subscriber is.  Site 0 is asked at time
5, when the subscriber has been there for 5 seconds; the subscriber attaches at site 1 at time 10,
and the same question reaches site 1 at time 30.  The user is told about site 0, although the answer of
site 1 was heard before the lookup ended: the ages are compared as if they were taken at the same
time. -/
theorem c71_moved_violated : ∃ evs, Usable defaultSuffix exStart evs ∧ Own evs ∧ Few (net evs)
    ∧ Said id defaultSuffix exStart evs 0 exQuery (res0 5) ∧ Says id (net evs) 1 30 [] exQuery (res1 20)
    ∧ story (net evs) 0 0 = [.cb { res0 5 with last := true }, .tick, .rx (res1 20), .rx (res0 5), .issued 1 40000 40000] := by
  refine ⟨attach 0 0 ++ [.request 0 exQuery 40000 40000, .serve 0 (ask0 0 exQuery) 5 [], .hear 0 (tell0 0 exQuery (res0 5))] ++ attach 1 10
    ++ [.serve 1 (ask0 0 exQuery) 30 [], .hear 0 (tell0 0 exQuery (res1 20)), .timeout 0 0],
    exUsable (by decide +kernel), exOwn (by decide +kernel), few_of_length _ _ _ _ (by decide +kernel), ?_, ?_, by decide +kernel⟩
  · refine ⟨attach 0 0 ++ [.request 0 exQuery 40000 40000], .serve 0 (ask0 0 exQuery) 5 [], .hear 0 (tell0 0 exQuery (res0 5)) :: (attach 1 10
      ++ [.serve 1 (ask0 0 exQuery) 30 [], .hear 0 (tell0 0 exQuery (res1 20)), .timeout 0 0]), 5,
      by simp only [List.append_assoc, List.cons_append, List.nil_append], ask0 0 exQuery, [], rfl,
      by decide +kernel, ⟨0, by decide +kernel⟩, ?_⟩
    unfold Says
    decide +kernel
  · unfold Says
    decide +kernel

end Verif.Net.Props
