import Verif.Sys.Frame3
import Verif.Gsup.Props
import Verif.Auc.Props
/-!
# C21-C24: requests, responses and routes of the running HLR

The statements speak about `log`, the list of everything that was received and sent and
of every conclusion of a request (newest entry first), see `Verif.Sys.Out`.
-/
namespace Verif.Sys.Props
open Verif Verif.Db Verif.Gsup Verif.Hlr Verif.Sys

/-! ## The log -/

theorem good_mem {l : List Out} (h : GoodLog l) {o : Out} (ho : o ∈ l) :
    ∃ l1 l2, l = l1 ++ o :: l2 ∧ Allowed l2 o := by
  induction l with
  | nil => simp at ho
  | cons x l ih =>
    rcases List.mem_cons.1 ho with rfl | ho
    · exact ⟨[], l, rfl, h.1⟩
    · obtain ⟨l1, l2, e, a⟩ := ih h.2 ho
      exact ⟨x :: l1, l2, by rw [e]; rfl, a⟩

theorem good_tail {l1 l2 : List Out} (h : GoodLog (l1 ++ l2)) : GoodLog l2 := by
  induction l1 with
  | nil => exact h
  | cons x l ih => exact ih h.2

/-- A number belongs to one message. -/
theorem rx_once {l : List Out} (h : GoodLog l) {nr : Nat} {c c' : ConnId} {m m' : Option Msg}
    (h1 : .rx nr c m ∈ l) (h2 : .rx nr c' m' ∈ l) : c = c' ∧ m = m' := by
  induction l with
  | nil => simp at h1
  | cons o l ih =>
    rcases List.mem_cons.1 h1 with h1 | h1' <;> rcases List.mem_cons.1 h2 with h2 | h2'
    · rw [← h1] at h2
      cases h2; exact ⟨rfl, rfl⟩
    · subst h1; exact absurd h2' (h.1 _ _)
    · subst h2; exact absurd h1' (h.1 _ _)
    · exact ih h.2 h1' h2'

/-- Once closed, a number stays closed. -/
theorem closed_stays {l1 l2 : List Out} {nr : Nat} (h : GoodLog (l1 ++ l2)) {c : ConnId} {m : Option Msg}
    (hrx : .rx nr c m ∈ l2) (hc : isOpen nr l2 = false) : isOpen nr (l1 ++ l2) = false := by
  induction l1 with
  | nil => exact hc
  | cons o l ih =>
    have ih := ih h.2
    show isOpen nr (o :: (l ++ l2)) = false
    cases o with
    | rx n c' m' =>
      have : n ≠ nr := by
        rintro rfl
        exact h.1 c m (List.mem_append_right _ hrx)
      simp [isOpen, ih, this]
    | concl n how => simp [isOpen, ih]
    | _ => simp [isOpen, ih]

theorem closed_quiet {l1 l2 : List Out} {nr : Nat} (h : GoodLog (l1 ++ l2)) {c : ConnId} {m : Option Msg}
    (hrx : .rx nr c m ∈ l2) (hc : isOpen nr l2 = false) :
    (∀ how', .concl nr how' ∉ l1) ∧ (∀ c m, .tx c m (some nr) ∉ l1)
    ∧ (∀ a m, .remote a m (some nr) ∉ l1) := by
  induction l1 with
  | nil => exact ⟨fun _ h => by simp at h, fun _ _ h => by simp at h, fun _ _ h => by simp at h⟩
  | cons o l ih =>
    obtain ⟨i1, i2, i3⟩ := ih h.2
    have hcl := closed_stays h.2 hrx hc
    refine ⟨fun how' hm => ?_, fun c m hm => ?_, fun a m hm => ?_⟩
    · rcases List.mem_cons.1 hm with rfl | hm
      · exact absurd (hcl.symm.trans h.1.1) (by simp)
      · exact i1 _ hm
    · rcases List.mem_cons.1 hm with rfl | hm
      · exact absurd (hcl.symm.trans h.1.1) (by simp)
      · exact i2 _ _ hm
    · rcases List.mem_cons.1 hm with rfl | hm
      · exact absurd (hcl.symm.trans h.1.1) (by simp)
      · exact i3 _ _ hm

theorem closed_why {l1 l2 : List Out} {nr : Nat} (h : isOpen nr l2 = true)
    (hc : isOpen nr (l1 ++ l2) = false) : (∃ how, .concl nr how ∈ l1) ∨ .restart ∈ l1 := by
  induction l1 with
  | nil => rw [List.nil_append, h] at hc; cases hc
  | cons o l ih =>
    have lift : (∃ how, Out.concl nr how ∈ l) ∨ .restart ∈ l →
        (∃ how, Out.concl nr how ∈ o :: l) ∨ .restart ∈ o :: l := by
      rintro (⟨how, h⟩ | h)
      · exact .inl ⟨how, List.mem_cons_of_mem _ h⟩
      · exact .inr (List.mem_cons_of_mem _ h)
    rw [List.cons_append] at hc
    cases o with
    | concl n how =>
      by_cases hn : n = nr
      · subst hn; exact .inl ⟨how, List.mem_cons_self ..⟩
      · exact lift (ih (by simpa [isOpen, hn] using hc))
    | restart => exact .inr (List.mem_cons_self ..)
    | rx n _ _ =>
      simp only [isOpen, Bool.or_eq_false_iff] at hc
      exact lift (ih hc.2)
    | _ => exact lift (ih hc)

theorem open_of {l1 l2 : List Out} {nr : Nat} {c : ConnId} {m : Option Msg} :
    isOpen nr (l1 ++ .rx nr c m :: l2) = true ∨ (∃ how, .concl nr how ∈ l1) ∨ .restart ∈ l1 := by
  induction l1 with
  | nil => left; simp [isOpen]
  | cons o l ih =>
    rcases ih with ih | ⟨how, ih⟩ | ih
    · cases o with
      | concl n how =>
        by_cases hn : n = nr
        · subst hn; exact .inr (.inl ⟨how, List.mem_cons_self ..⟩)
        · left; simp [isOpen, ih, hn]
      | restart => exact .inr (.inr (List.mem_cons_self ..))
      | rx n _ _ => left; simp [isOpen, ih]
      | _ => left; simpa [isOpen] using ih
    · exact .inr (.inl ⟨how, List.mem_cons_of_mem _ ih⟩)
    · exact .inr (.inr (List.mem_cons_of_mem _ ih))

theorem reach_good {s : Sys} (h : Reach s) : GoodLog s.log := by
  obtain ⟨P, hi, -⟩ := reach_done h
  exact hi.good

/-! ## C21: responses are correlated with their request -/

/-- Whatever happens, every response that is ever sent was preceded by a request with its
number, and carries that request's IMSI, message class, session id and message
reference. -/
theorem c21_responses_sent {s : Sys} (h : Reach s) {c : ConnId} {m : Msg} {nr : Nat}
    (hm : .tx c m (some nr) ∈ s.log) : ∃ c0 m0 l1 l2,
      s.log = l1 ++ .tx c m (some nr) :: l2 ∧ .rx nr c0 (some m0) ∈ l2 ∧ Correlated m m0 := by
  obtain ⟨l1, l2, e, a⟩ := good_mem (reach_good h) hm
  obtain ⟨-, c0, m0, h0, hc, -⟩ := a
  exact ⟨c0, m0, l1, l2, e, h0, hc⟩

/-! ## C22: exactly one final outcome per request -/

/-- After the conclusion of a request there is no second conclusion, no response, and the
request is not passed on to another HLR. -/
theorem c22_at_most_once {s : Sys} (h : Reach s) {nr : Nat} {how : How} {l1 l2 : List Out}
    (hl : s.log = l1 ++ .concl nr how :: l2) :
    (∀ how', .concl nr how' ∉ l1) ∧ (∀ c m, .tx c m (some nr) ∉ l1)
    ∧ (∀ a m, .remote a m (some nr) ∉ l1) := by
  have hg := hl ▸ reach_good h
  obtain ⟨hop, c0, mo, hrx, -⟩ := (good_tail hg).1
  exact closed_quiet hg (List.mem_cons_of_mem _ hrx) (by simp [isOpen])

/-- Exactly one final response: after a response that is not provisional (the subscriber
data within a location update and messages within a USSD session are), no further response
is sent, the request is not passed on to another HLR, and it has been concluded. -/
theorem c22_one_final_response {s : Sys} (h : Reach s) {nr : Nat} {c c0 : ConnId} {m m0 : Msg}
    {l1 l2 : List Out} (hl : s.log = l1 ++ .tx c m (some nr) :: l2) (hrx : .rx nr c0 (some m0) ∈ s.log)
    (hf : ¬ Provisional m0 m) :
    (∀ c' m', .tx c' m' (some nr) ∉ l1)
    ∧ (∀ a m', .remote a m' (some nr) ∉ l1)
    ∧ (s.ub = false → (∃ how, .concl nr how ∈ l1) ∨ .restart ∈ l1) := by
  obtain ⟨P, hi, hP⟩ := reach_done h
  have hg := hi.good
  refine ⟨?_, ?_, ?_⟩
  · intro c' m' hm
    obtain ⟨l3, l4, e⟩ := List.append_of_mem hm
    have hl' : s.log = l3 ++ .tx c' m' (some nr) :: (l4 ++ .tx c m (some nr) :: l2) := by
      rw [hl, e]; simp
    have hg' := hg
    rw [hl'] at hg'
    obtain ⟨-, c1, m1, h1, -, h2⟩ := (good_tail hg').1
    obtain ⟨-, hm⟩ := rx_once hg hrx (show Out.rx nr c1 (some m1) ∈ s.log by
      rw [hl']; exact List.mem_append_right _ (List.mem_cons_of_mem _ h1))
    cases hm
    exact hf (h2.1 c m (by simp))
  · intro c' m' hm
    obtain ⟨l3, l4, e⟩ := List.append_of_mem hm
    have hl' : s.log = l3 ++ .remote c' m' (some nr) :: (l4 ++ .tx c m (some nr) :: l2) := by
      rw [hl, e]; simp
    have hg' := hg
    rw [hl'] at hg'
    obtain ⟨-, c1, m1, h1, -, h2⟩ := (good_tail hg').1
    obtain ⟨-, hm⟩ := rx_once hg hrx (show Out.rx nr c1 (some m1) ∈ s.log by
      rw [hl']; exact List.mem_append_right _ (List.mem_cons_of_mem _ h1))
    cases hm
    exact hf (h2.1 c m (by simp))
  · intro hu
    cases hP hu
    have hno : isOpen nr s.log = false := by
      cases ho : isOpen nr s.log with
      | false => rfl
      | true =>
        rw [hi.isopen] at ho
        obtain ⟨q, hq, rfl⟩ := List.mem_map.1 ho
        obtain ⟨-, hm⟩ := rx_once hg hrx (hi.logged q hq)
        cases hm
        exact absurd (hi.prov q hq c m (by rw [hl]; simp)) hf
    rw [hl] at hg
    have hop : isOpen nr l2 = true := (good_tail hg).1.1
    rw [hl] at hno
    exact closed_why (l2 := .tx c m (some nr) :: l2) hop hno

/-- A request that was passed on to another HLR is passed on once, unchanged but for the
name of its source, is not answered by this HLR after that, and is concluded with it. -/
theorem c22_passed_on {s : Sys} (h : Reach s) {nr : Nat} {a : Addr} {m : Msg}
    {l1 l2 : List Out} (hl : s.log = l1 ++ .remote a m (some nr) :: l2) :
    (∃ c0 m0, .rx nr c0 (some m0) ∈ l2 ∧ (∃ n, m = { m0 with src := n })
      ∧ ∀ c' m', .tx c' m' (some nr) ∈ l2 → Provisional m0 m')
    ∧ (∀ c' m', .tx c' m' (some nr) ∉ l1)
    ∧ (∀ a' m', .remote a' m' (some nr) ∉ l1) ∧ (∀ a' m', .remote a' m' (some nr) ∉ l2)
    ∧ (s.ub = false → (∃ how, .concl nr how ∈ l1) ∨ .restart ∈ l1) := by
  obtain ⟨P, hi, hP⟩ := reach_done h
  have hg := hi.good
  have hg0 := hg
  rw [hl] at hg0
  obtain ⟨hop, c0, m0, h0, h1, h2, h3⟩ := (good_tail hg0).1
  refine ⟨⟨c0, m0, h0, h1, h2⟩, ?_, ?_, h3, ?_⟩
  · intro c' m' hm
    obtain ⟨l3, l4, e⟩ := List.append_of_mem hm
    have hl' : s.log = l3 ++ .tx c' m' (some nr) :: (l4 ++ .remote a m (some nr) :: l2) := by
      rw [hl, e]; simp
    rw [hl'] at hg
    obtain ⟨-, c1, m1, -, -, -, h2⟩ := (good_tail hg).1
    exact h2 a m (by simp)
  · intro c' m' hm
    obtain ⟨l3, l4, e⟩ := List.append_of_mem hm
    have hl' : s.log = l3 ++ .remote c' m' (some nr) :: (l4 ++ .remote a m (some nr) :: l2) := by
      rw [hl, e]; simp
    rw [hl'] at hg
    obtain ⟨-, c1, m1, -, -, -, h2⟩ := (good_tail hg).1
    exact h2 a m (by simp)
  · intro hu
    cases hP hu
    have hno : isOpen nr s.log = false := by
      cases ho : isOpen nr s.log with
      | false => rfl
      | true =>
        rw [hi.isopen] at ho
        obtain ⟨q, hq, rfl⟩ := List.mem_map.1 ho
        exact absurd (show Out.remote a m (some q.nr) ∈ s.log by rw [hl]; simp) (hi.norem q hq a m)
    rw [hl] at hno
    exact closed_why (l2 := .remote a m (some nr) :: l2) hop hno

/-- Every request received has been concluded, or it was lost when the process died, or it
waits for the end of its location update or USSD session (which C28 and C34 are about), or,
with distributed GSM, for the subscriber's home HLR to be found and connected (C38). -/
theorem c22_concluded {s : Sys} (h : Reach s) (hu : s.ub = false) {nr : Nat} {c : ConnId}
    {mo : Option Msg} {l1 l2 : List Out} (hl : s.log = l1 ++ .rx nr c mo :: l2) :
    (∃ how, .concl nr how ∈ l1) ∨ .restart ∈ l1
    ∨ (∃ lu ∈ s.lus, lu.req.nr = nr ∧ lu.req.conn = c ∧ mo = some lu.req.gsup
        ∧ lu.req.gsup.typ = UPDATE_LOCATION)
    ∨ (∃ x ∈ s.sess, ∃ q ∈ x.reqs, q.nr = nr ∧ q.conn = c ∧ mo = some q.gsup ∧ IsSs q.gsup.typ)
    ∨ (∃ q ∈ s.pending, q.nr = nr ∧ q.conn = c ∧ mo = some q.gsup) := by
  obtain ⟨P, hi, hP⟩ := reach_done h
  cases hP hu
  have hrx : Out.rx nr c mo ∈ s.log := by rw [hl]; simp
  rcases open_of (l1 := l1) (l2 := l2) (nr := nr) (c := c) (m := mo) with ho | ho | ho
  · rw [← hl, hi.isopen] at ho
    obtain ⟨q, hq, rfl⟩ := List.mem_map.1 ho
    obtain ⟨hc, hm⟩ := rx_once hi.good hrx (hi.logged q hq)
    rw [List.nil_append] at hq
    rcases waiting_cases hq with ⟨lu, hlu, rfl⟩ | ⟨x, hx, hq⟩ | hq
    · exact .inr (.inr (.inl ⟨lu, hlu, rfl, hc.symm, hm, (hi.lus lu hlu).1⟩))
    · exact .inr (.inr (.inr (.inl ⟨x, hx, q, hq, rfl, hc.symm, hm, (hi.sessReq x hx q hq).1⟩)))
    · exact .inr (.inr (.inr (.inr ⟨q, hq, rfl, hc.symm, hm⟩)))
  · exact .inl ho
  · exact .inr (.inl ho)

/-- No request of a kind the HLR knows how to answer is dropped. -/
theorem c22_not_dropped_partial {s : Sys} (h : Reach s) {nr : Nat} {c : ConnId} {m : Msg}
    (hrx : .rx nr c (some m) ∈ s.log) (hc : .concl nr .dropped ∈ s.log) : ¬ NeedsAnswer m.typ := by
  have hg := reach_good h
  obtain ⟨l1, l2, e, -, c', mo, h1, h2⟩ := good_mem hg hc
  have : Out.rx nr c' mo ∈ s.log := by rw [e]; simp [h1]
  obtain ⟨rfl, hm⟩ := rx_once hg hrx this
  exact h2 m hm.symm

/-- A request ends together with a USSD session only if it belongs to one. -/
theorem c22_session_only_ss {s : Sys} (h : Reach s) {nr : Nat} {c : ConnId} {m : Msg}
    (hrx : .rx nr c (some m) ∈ s.log) (hc : .concl nr .session ∈ s.log) : IsSs m.typ := by
  have hg := reach_good h
  obtain ⟨l1, l2, e, -, c', mo, h1, h2⟩ := good_mem hg hc
  have : Out.rx nr c' mo ∈ s.log := by rw [e]; simp [h1]
  obtain ⟨rfl, hm⟩ := rx_once hg hrx this
  exact h2 m hm.symm

/-- A response the HLR decides on is handed to the connection registered for the requester
and, if final, concludes the request; without such a connection (or if the response cannot
be encoded, or contradicts the request) nothing is sent, and the request is concluded all
the same. -/
theorem c22_response_sent (cfg : Cfg) (s : Sys) (q : Req) (reply : Msg) (error final : Bool) :
    let m := (makeResponse reply q.gsup error final).2
    let end_ := if final then [Out.concl q.nr .answered] else []
    (respond cfg s q reply error final).2.log =
      end_ ++ (match routeFind s.routes (q.routing m).name with
        | some c => if (makeResponse reply q.gsup error final).1 = 0 ∧ cfg.enc m = true
            then [.tx c m (some q.nr)] else []
        | none => []) ++ s.log := by
  dsimp only
  unfold respond sendReqResponse
  dsimp only
  cases hr : routeFind s.routes (q.routing (makeResponse reply q.gsup error final).2).name <;>
    by_cases h0 : (makeResponse reply q.gsup error final).1 = 0 <;>
    by_cases he : cfg.enc (makeResponse reply q.gsup error final).2 = true <;>
    cases final <;> simp [h0, he, Sys.emit]

/-! ## C23: routes -/

/-- At most one connection is registered for an address. -/
theorem c23_one_conn {s : Sys} (h : Reach s) {a : Bytes} {c c' : ConnId}
    (h1 : (a, c) ∈ s.routes) (h2 : (a, c') ∈ s.routes) : c = c' := by
  obtain ⟨P, hi, -⟩ := reach_done h
  have e1 := (routeFind_some hi.routesNodup).2 h1
  have e2 := (routeFind_some hi.routesNodup).2 h2
  exact Option.some.inj (e1.symm.trans e2)

/-- No route leads to a connection that is closed. -/
theorem c23_live {s : Sys} (h : Reach s) {a : Bytes} {c : ConnId}
    (h1 : (a, c) ∈ s.routes) : ∃ k ∈ s.conns, k.id = c := by
  obtain ⟨P, hi, -⟩ := reach_done h
  exact hi.routesLive _ h1

/-- After a connection closes no route leads to it, whatever happens later. -/
theorem c23_closed {cfg : Cfg} {s : Sys} (h : Reach s) (hu : s.ub = false) {c : ConnId}
    (hc : ∃ k ∈ s.conns, k.id = c) (evs : List (Cfg × Ev)) (a : Bytes) :
    (a, c) ∉ (run (step cfg s (.close c)) evs).routes := by
  have hr := h.step cfg (.close c)
  have gone : c ∉ (step cfg s (.close c)).conns.map (·.id) ∧ c < (step cfg s (.close c)).nextConn := by
    obtain ⟨P, hi, -⟩ := reach_done h
    obtain ⟨k, hk, rfl⟩ := hc
    have hlt := hi.connFresh k hk
    unfold step
    rw [if_neg (by rw [hu]; simp)]
    dsimp only
    cases hf : s.conn? k.id with
    | none =>
      simp only [Sys.conn?, List.find?_eq_none] at hf
      exact absurd (hf k hk) (by simp)
    | some k' =>
      refine ⟨?_, hlt⟩
      intro hm
      obtain ⟨y, hy, he⟩ := List.mem_map.1 hm
      have := (List.mem_filter.1 hy).2
      simp [he] at this
  suffices H : ∀ t, Reach t → c ∉ t.conns.map (·.id) → c < t.nextConn → (a, c) ∉ (run t evs).routes from
    H _ hr gone.1 gone.2
  clear gone hr hc hu h s
  induction evs with
  | nil =>
    intro t h1 h2 _ hm
    obtain ⟨k, hk, he⟩ := c23_live h1 hm
    exact h2 (List.mem_map.2 ⟨k, hk, he⟩)
  | cons x l ih =>
    intro t h1 h2 h3
    obtain ⟨-, hc, hn⟩ := step_stays x.1 x.2 (reach_done h1)
    refine ih _ (h1.step x.1 x.2) ?_ (Nat.lt_of_lt_of_le h3 hn)
    intro hm
    rcases hc _ hm with hc | hc
    · exact h2 hc
    · exact absurd hc (Nat.ne_of_lt h3)

/-- An address registered for a connection stays registered for it as long as that
connection lives, whatever other peers do. -/
theorem c23_not_taken_over {s : Sys} (h : Reach s) {a : Bytes} {c : ConnId}
    (hr : (a, c) ∈ s.routes) (evs : List (Cfg × Ev)) (hl : ∃ k ∈ (run s evs).conns, k.id = c) :
    (a, c) ∈ (run s evs).routes
    ∧ ∀ c', (a, c') ∈ (run s evs).routes → c' = c := by
  obtain ⟨P, hi, -⟩ := reach_done h
  have hr' : Reach (run s evs) := by
    obtain ⟨d, l, rfl⟩ := h
    exact ⟨d, l ++ evs, (run_append ..).symm⟩
  have h1 : (a, c) ∈ (run s evs).routes := by
    rcases run_stays evs (reach_done h) ((routeFind_some hi.routesNodup).2 hr) with h1 | h1
    · obtain ⟨P, hi', -⟩ := reach_done hr'
      exact (routeFind_some hi'.routesNodup).1 h1
    · obtain ⟨k, hk, he⟩ := hl
      exact absurd (List.mem_map.2 ⟨k, hk, he⟩) h1
  exact ⟨h1, fun c' h2 => c23_one_conn hr' h2 h1⟩

/-- A message sent to an address is handed to the connection registered for it, or the
sender gets an error and nothing is sent. -/
theorem c23_send {s : Sys} (h : Reach s) (a : Bytes) (m : Msg) :
    (∃ c, (a, c) ∈ s.routes ∧ addrSend s a m = (0, { s with log := .tx c m none :: s.log }))
    ∨ ((∀ c, (a, c) ∉ s.routes) ∧ addrSend s a m = (-ENODEV, s)) := by
  obtain ⟨P, hi, -⟩ := reach_done h
  unfold addrSend
  cases hf : routeFind s.routes a with
  | none =>
    right
    refine ⟨fun c hm => ?_, rfl⟩
    rw [(routeFind_some hi.routesNodup).2 hm] at hf
    cases hf
  | some c =>
    left
    exact ⟨c, (routeFind_some hi.routesNodup).1 hf, rfl⟩

/-- The same for a name: the address is the name, with a NUL added if it has none. -/
theorem c23_send_name {s : Sys} (h : Reach s) (n : IpaName) (m : Msg) :
    (∃ c a, (a, c) ∈ s.routes ∧ (a = n.name ∨ a = n.name ++ [0])
      ∧ sendToIpa s n m = (0, { s with log := .tx c m none :: s.log }))
    ∨ (∃ rc, rc < 0 ∧ sendToIpa s n m = (rc, s)) := by
  unfold sendToIpa
  split
  · rename_i h0
    have e : ([] : Bytes) = n.name := by unfold IpaName.name; rw [h0]; simp
    rcases c23_send h [] m with ⟨c, h1, h2⟩ | ⟨-, h2⟩
    · exact .inl ⟨c, [], h1, .inl e, h2⟩
    · exact .inr ⟨_, by decide, h2⟩
  · split
    · split
      · exact .inr ⟨_, by decide, rfl⟩
      · rcases c23_send h (n.name ++ [0]) m with ⟨c, h1, h2⟩ | ⟨-, h2⟩
        · exact .inl ⟨c, _, h1, .inr rfl, h2⟩
        · exact .inr ⟨_, by decide, h2⟩
    · rcases c23_send h n.name m with ⟨c, h1, h2⟩ | ⟨-, h2⟩
      · exact .inl ⟨c, _, h1, .inl rfl, h2⟩
      · exact .inr ⟨_, by decide, h2⟩

/-! ## C24: a response goes back to the peer that asked -/

/-- A start on some database, followed by events whose messages are all proper: each
comes from a connection registered under its own, nonempty name, and claims no source name
that is registered for another connection. -/
def ReachProper (s : Sys) : Prop :=
  ∃ d evs, ProperHist (init d) evs ∧ s = run (init d) evs

/-- A message that arrives is in the log. -/
theorem rx_logged (cfg : Cfg) (e : Env) {c : ConnId} (mo : Option Msg) {s : Sys} {k : Conn}
    (hk : s.conn? c = some k) : .rx s.nextReq c mo ∈ (rx cfg e c mo s).log := by
  have pr := lfr_prims cfg (fun _ => True) (fun _ _ => True)
  have fin : ∀ s1 t, s1.log = .rx s.nextReq c mo :: s.log → LFr (fun _ => True) (fun _ _ => True) s1 t →
      .rx s.nextReq c mo ∈ t.log := by
    rintro s1 t h1 ⟨-, l, h, -⟩
    rw [h, h1]; simp
  unfold rx
  rw [hk]
  dsimp only
  cases mo with
  | none => simp [Sys.emit]
  | some m =>
    dsimp only
    split
    · exact fin _ _ rfl (pr.respondMsgt _ trivial _ (by decide) (by decide))
    · split
      · exact fin _ _ rfl (pr.respondErr _ trivial _)
      · unfold connRx
        split
        · exact fin _ _ rfl (lfr_readCb cfg e k _ _ _ _ trivial (fun _ _ => trivial) (fun _ _ _ _ _ _ _ => trivial))
        · dsimp only
          split
          · exact fin { s with
                nextReq := s.nextReq + 1, routes := (routeAdd s.routes k.id (mkReq k s.nextReq m).source.name).2,
                log := .rx s.nextReq c (some m) :: s.log } _ rfl (pr.respondMsgt _ trivial _ (by decide) (by decide))
          · exact fin { s with
                nextReq := s.nextReq + 1, routes := (routeAdd s.routes k.id (mkReq k s.nextReq m).source.name).2,
                log := .rx s.nextReq c (some m) :: s.log } _ rfl
              (lfr_readCb cfg e k _ _ _ _ trivial (fun _ _ => trivial) (fun _ _ _ _ _ _ _ => trivial))

/-- In such histories, every response is sent on the connection its request came from,
or that connection is gone. -/
theorem c24_own_conn_partial {cfg : Cfg} {s : Sys} (h : ReachProper s) {ev : Ev} (hp : Proper s ev)
    {l : List Out} (hl : (step cfg s ev).log = l ++ s.log) {c : ConnId} {m : Msg} {nr : Nat}
    (hm : .tx c m (some nr) ∈ l) :
    ∃ c0 m0, .rx nr c0 (some m0) ∈ (step cfg s ev).log ∧ (c = c0 ∨ ∀ k ∈ s.conns, k.id ≠ c0) := by
  obtain ⟨d, evs, hh, rfl⟩ := h
  have hd : Done (run (init d) evs) := done_run evs (inv_init d).done
  have hk : AllKnown (run (init d) evs) :=
    allKnown_run evs (inv_init d).done (fun q hq => by simp [waiting, init] at hq) hh
  generalize run (init d) evs = s at *
  have hg : GoodLog (step cfg s ev).log := by
    obtain ⟨P, hi, -⟩ := done_step cfg ev hd; exact hi.good
  obtain ⟨l', e', hr⟩ := step_resp (s := s) cfg ev
  have : l' = l := List.append_cancel_right (e'.symm.trans hl)
  subst this
  have hu : s.ub = false := by
    cases hu : s.ub with
    | false => rfl
    | true =>
      unfold step at hl; rw [if_pos hu] at hl
      have : l' = [] := by simpa using hl
      rw [this] at hm; simp at hm
  obtain ⟨P, hi, hP⟩ := hd
  cases hP hu
  have fromWaiting : ∀ q ∈ waiting s, ∀ rs m, q.nr = nr →
      (∀ a c', routeFind s.routes a = some c' → routeFind rs a = some c') →
      routeFind rs (q.routing m).name = some c →
      ∃ c0 m0, .rx nr c0 (some m0) ∈ (step cfg s ev).log ∧ (c = c0 ∨ ∀ k ∈ s.conns, k.id ≠ c0) := by
    intro q hq rs m hn hrs hf
    refine ⟨q.conn, q.gsup, ?_, ?_⟩
    · rw [hl, ← hn]; exact List.mem_append_right _ (hi.logged q hq)
    · by_cases hc : q.conn ∈ s.conns.map (·.id)
      · left
        have := hrs _ _ ((hk q hq).routing hc m)
        rw [this] at hf
        exact (Option.some.inj hf).symm
      · right
        intro k hk' he
        exact hc (List.mem_map.2 ⟨k, hk', he⟩)
  rcases hr with ⟨cc, mo, e, rs, rfl, hrs, hresp⟩ | ⟨-, hresp⟩
  · obtain ⟨⟨q, hq, hn, hf⟩, -⟩ := hresp c m nr hm
    have hrs' : ∀ a c', routeFind s.routes a = some c' → routeFind rs a = some c' := by
      rcases hrs with rfl | ⟨_, _, _, _, _, _, rfl⟩
      · exact fun _ _ h => h
      · exact fun _ _ h => routeFind_add h
    rcases hq with hq | ⟨m0, rfl, hq⟩
    · exact fromWaiting q hq rs m hn hrs' hf
    · obtain ⟨e1, e2, e3, e4, hkn, hs⟩ := known_new hi hp hq
      refine ⟨cc, m0, ?_, .inl ?_⟩
      · obtain ⟨k, hk1, -⟩ := hq
        have := rx_logged cfg e (some m0) hk1
        rw [← hn, e2]
        unfold step; rw [if_neg (by rw [hu]; simp)]
        exact this
      · rcases hrs with rfl | ⟨m1, q', em, hq', hv, -, rfl⟩
        · exact hs m c hf
        · cases em
          have : q' = q := by
            obtain ⟨k, hk1, hq⟩ := hq
            obtain ⟨k', hk2, hq'⟩ := hq'
            rw [hk1] at hk2; cases hk2
            rcases hq with ⟨a, b, rfl⟩ | ⟨a, rfl⟩ <;> rcases hq' with ⟨a', b', rfl⟩ | ⟨a', rfl⟩
            · rfl
            · exact absurd ⟨a, b⟩ a'
            · exact absurd ⟨a', b'⟩ a
            · rfl
          subst this
          have hrf : routesFor s cc q' = (routeAdd s.routes cc q'.source.name).2 := by
            unfold routesFor; rw [hv]; rfl
          rw [hrf] at hkn
          have := hkn.routing e4 m
          dsimp only at this
          rw [this, e1] at hf
          exact (Option.some.inj hf).symm
  · obtain ⟨⟨q, hq, hn, hf⟩, -⟩ := hresp c m nr hm
    exact fromWaiting q hq _ m hn (fun _ _ h => h) hf

/-! ## Examples, and histories in which the properties fail -/

/-- A configuration. -/
def exCfg : Cfg where
  crypto := Auc.Props.exCrypto
  myName := b "HLR-1"

def imsi1 : Bytes := b "001010000000001"
def msc1 : Bytes := b "MSC-1" ++ [0]
def msc2 : Bytes := b "MSC-2" ++ [0]

/-- A subscriber and two identified nodes. -/
def exTwo : List Ev :=
  [.db (.create imsi1 true true) [], .db (.msisdn imsi1 (some (b "1001"))) [],
   .connect, .ccm 1 (some msc1), .connect, .ccm 2 (some msc2)]

/-- Update Location Request (CS) and the acknowledgement of the subscriber data. -/
def ulMsg : Msg where
  typ := UPDATE_LOCATION
  imsi := imsi1
  cnDomain := 2

def ackMsg : Msg where
  typ := INSERT_DATA + 2
  imsi := imsi1

def purgeMsg : Msg where
  typ := PURGE_MS
  imsi := imsi1
  cnDomain := 2

/-- A location update of MSC-1 runs to its end; MSC-2 purges; both get their answers. -/
def exHist : List Ev := exTwo ++ [.rx 1 (some ulMsg) {}, .rx 1 (some ackMsg) {}, .rx 2 (some purgeMsg) {}]

def responses (s : Sys) : List (ConnId × Nat × Nat) :=
  s.log.filterMap fun | .tx c m (some nr) => some (c, m.typ, nr) | _ => none

example : responses (runWith exCfg (init {}) exHist)
      = [(2, PURGE_MS + 2, 3), (1, UPDATE_LOCATION + 2, 1), (1, INSERT_DATA, 1)]
    ∧ (runWith exCfg (init {}) exHist).ub = false := by decide +kernel

/-- The Update Location Result of that history is not provisional (`c22_one_final_response`);
the subscriber data before it is. -/
example : ∃ l1 l2 m, (runWith exCfg (init {}) exHist).log = l1 ++ .tx 1 m (some 1) :: l2
    ∧ m.typ = UPDATE_LOCATION + 2 ∧ ¬ Provisional ulMsg m ∧ .rx 1 1 (some ulMsg) ∈ l2 :=
  ⟨(runWith exCfg (init {}) exHist).log.take 4, (runWith exCfg (init {}) exHist).log.drop 5,
    (makeResponse { typ := UPDATE_LOCATION + 2 } ulMsg false true).2,
    by decide +kernel, by decide +kernel, by unfold Provisional IsSs; decide +kernel, by decide +kernel⟩

/-- While the location update waits, its request is open (third case of
`c22_concluded`). -/
example : (runWith exCfg (init {}) (exTwo ++ [.rx 1 (some ulMsg) {}])).lus.map (·.req.nr) = [1] := by
  decide +kernel

/-- The hypotheses of `c23_closed` and `c23_not_taken_over` can be met: MSC-2 tries to
register the name of MSC-1, then MSC-1 goes away. -/
example : (runWith exCfg (init {}) exTwo).routes = [(msc1, 1), (msc2, 2)]
    ∧ (runWith exCfg (init {}) (exTwo ++ [.ccm 2 (some msc1)])).routes = [(msc1, 1), (msc2, 2)]
    ∧ (runWith exCfg (init {}) (exTwo ++ [.close 1])).routes = [(msc2, 2)]
    ∧ (runWith exCfg (init {}) (exTwo ++ [.close 1, .ccm 2 (some msc1)])).routes = [(msc2, 2), (msc1, 2)] := by
  decide +kernel

instance decProper (s : Sys) (ev : Ev) : Decidable (Proper s ev) := by
  unfold Proper
  split
  · rename_i c m e
    cases hk : s.conn? c with
    | none => exact isTrue (by intro k h; cases h)
    | some k =>
      have : Decidable (∀ c', routeFind s.routes m.src = some c' → c' = c) :=
        match hr : routeFind s.routes m.src with
        | none => isTrue (by intro c' h; cases h)
        | some c' => if h : c' = c then isTrue (by intro x hx; cases hx; exact h)
                     else isFalse (fun H => h (H c' rfl))
      exact decidable_of_iff (k.name.isEmpty = false ∧ routeFind s.routes k.name.name = some c
        ∧ (m.src = [] ∨ ∀ c', routeFind s.routes m.src = some c' → c' = c))
        ⟨fun h k' e => by cases e; exact h, fun h => h k rfl⟩
  · exact isTrue trivial

instance decProperHist (s : Sys) : (evs : List (Cfg × Ev)) → Decidable (ProperHist s evs)
  | [] => isTrue trivial
  | x :: l => by
    unfold ProperHist
    have := decProperHist (step x.1 s x.2) l
    infer_instance

/-- The histories of `c24_own_conn_partial` include this one, in which also a proxy
connection brings a message of a third node. -/
example : ProperHist (init {}) ((exHist ++ [Ev.rx 2 (some { ulMsg with src := b "MSC-3" ++ [0] }) {}]).map fun ev => (exCfg, ev))
    ∧ (responses (runWith exCfg (init {}) (exHist ++
        [.rx 2 (some { ulMsg with src := b "MSC-3" ++ [0] }) {}]))).head? = some (2, INSERT_DATA, 4) := by
  decide +kernel

/-- C22: a message that cannot be decoded is dropped; no error is sent. -/
theorem c22_undecodable_violated (cfg : Cfg) (e : Env) (s : Sys) (c : ConnId) (k : Conn)
    (hk : s.conn? c = some k) :
    (rx cfg e c none s).log = .concl s.nextReq .dropped :: .rx s.nextReq c none :: s.log := by
  unfold rx; rw [hk]; rfl

/-- C22: a request of a kind read_cb does not know (0x1c is Location Cancel Request, 0x48
E-Prepare Handover Request) is dropped without any answer. -/
theorem c22_unknown_request_violated :
    ∃ evs s, s = runWith exCfg (init {}) evs ∧ s.ub = false ∧ ∃ m c, isRequest m.typ = true
      ∧ .rx 1 c (some m) ∈ s.log ∧ .concl 1 .dropped ∈ s.log ∧ ∀ c' m', .tx c' m' (some 1) ∉ s.log := by
  refine ⟨exTwo ++ [.rx 1 (some { typ := 0x1c, imsi := imsi1 }) {}], _, rfl, ?_, { typ := 0x1c, imsi := imsi1 }, 1, ?_⟩
  · decide +kernel
  · refine ⟨by decide, by decide +kernel, by decide +kernel, ?_⟩
    have : (runWith exCfg (init {}) (exTwo ++ [.rx 1 (some { typ := 0x1c, imsi := imsi1 }) {}])).log
        = [.concl 1 .dropped, .rx 1 1 (some { typ := 0x1c, imsi := imsi1 }), .connected 2, .connected 1] := by
      decide +kernel
    rw [this]
    intro c' m'
    simp

/-- C22: so is a USSD request without a session state. -/
theorem c22_ss_no_state_violated :
    (runWith { exCfg with parseSs := fun _ => some {} } (init {})
      (exTwo ++ [.rx 1 (some { typ := PROC_SS, imsi := imsi1, ssInfo := [1] }) {}])).log
    = [.concl 1 .dropped, .rx 1 1 (some { typ := PROC_SS, imsi := imsi1, ssInfo := [1] }),
       .connected 2, .connected 1] := by
  decide +kernel

/-- The response to request `nr` was sent on a live connection other than the one the
request came from, which was still there. -/
def Misrouted (s : Sys) (nr : Nat) : Prop :=
  ∃ c0 m0 c m, .rx nr c0 (some m0) ∈ s.log ∧ .tx c m (some nr) ∈ s.log ∧ c ≠ c0
    ∧ (s.conn? c0).isSome ∧ (s.conn? c).isSome

/-- C24: two nodes that announce the same name: the second one's request is answered to
the first one. -/
theorem c24_same_name_violated : ∃ s, Reach s ∧ s.ub = false ∧ Misrouted s 1 := by
  refine ⟨runWith exCfg (init {}) (exTwo ++ [.connect, .ccm 3 (some msc1), .rx 3 (some purgeMsg) {}]),
    ⟨_, _, rfl⟩, by decide +kernel, 3, purgeMsg, 1, ?_⟩
  refine ⟨(makeResponse { typ := PURGE_MS + 2 } purgeMsg false true).2, ?_⟩
  decide +kernel

/-- C24: a node that has not identified itself may claim any source name: its request is
answered to the node of that name. -/
theorem c24_unidentified_violated : ∃ s, Reach s ∧ s.ub = false ∧ Misrouted s 1 := by
  refine ⟨runWith exCfg (init {}) (exTwo ++ [.connect, .rx 3 (some { purgeMsg with src := msc1 }) {}]),
    ⟨_, _, rfl⟩, by decide +kernel, 3, { purgeMsg with src := msc1 }, 1, ?_⟩
  refine ⟨(makeResponse { typ := PURGE_MS + 2 } { purgeMsg with src := msc1 } false true).2, ?_⟩
  decide +kernel

/-- C24: a request with an invalid IMSI is answered before the source name is checked
against the registered names: an identified node makes the HLR send an error to another
one. -/
theorem c24_invalid_imsi_violated : ∃ s, Reach s ∧ s.ub = false ∧ Misrouted s 1 := by
  refine ⟨runWith exCfg (init {}) (exTwo ++ [.rx 2 (some { purgeMsg with imsi := [], src := msc1 }) {}]),
    ⟨_, _, rfl⟩, by decide +kernel, 2, { purgeMsg with imsi := [], src := msc1 }, 1, ?_⟩
  refine ⟨(makeResponse { cause := some .invMandInfo } { purgeMsg with imsi := [], src := msc1 } true true).2, ?_⟩
  decide +kernel

/-- With a valid IMSI the same message is refused with a routing error to its sender. -/
example : responses (runWith exCfg (init {}) (exTwo ++ [.rx 2 (some { purgeMsg with src := msc1 }) {}]))
    = [(2, ROUTING_ERROR, 1)] := by decide +kernel

/-- C24: a node that connects under the name of one that went away gets the answers to the
old one's requests (here, the end of its location update). -/
theorem c24_reconnect_violated : ∃ s, Reach s ∧ s.ub = false
    ∧ .rx 1 1 (some ulMsg) ∈ s.log ∧ ∃ m, m.typ = UPDATE_LOCATION + 2 ∧ .tx 3 m (some 1) ∈ s.log := by
  refine ⟨runWith exCfg (init {}) (exTwo ++ [.rx 1 (some ulMsg) {}, .close 1, .connect, .ccm 3 (some msc1),
      .rx 3 (some ackMsg) {}]), ⟨_, _, rfl⟩, by decide +kernel, by decide +kernel,
    (makeResponse { typ := UPDATE_LOCATION + 2 } ulMsg false true).2, by decide +kernel, by decide +kernel⟩

end Verif.Sys.Props
