import Verif.Fake.Inv
import Verif.Mslookup.DomainProps
/-!
# C82: the answers of the fake lookup method
-/
namespace Verif.Fake.Props
open Verif Verif.Mslookup Verif.Mslookup.Client Verif.Mslookup.Client.Spec Verif.Fake Verif.Fake.Spec
open Verif.Net (request_eq note)

/-- The ids and services of the answers are C strings. -/
def Strings (resps : List Resp) : Prop := ∀ x ∈ resps, (0 : UInt8) ∉ idText x.id

/-- C82: whatever the callbacks do, each answer is given at most once, and only if the test program
did not mark it as given. -/
theorem c82_once (env : Env) (k : Nat) (resps : List Resp) (evs : List Ev) :
    ((run env k resps evs).uses.map Use.resp).Nodup
    ∧ ∀ u ∈ (run env k resps evs).uses, ∃ x, resps[u.resp]? = some x ∧ x.sent = false :=
  ⟨(run_listed env k resps evs).nodup, (run_listed env k resps evs).fresh⟩

/-- C82: to the client, the method is like any other: the client goes through one of its runs,
for which C43 and C44 hold. -/
theorem c82_client (env : Env) (k : Nat) (resps : List Resp) (evs : List Ev) :
    ∃ cevs, (run env k resps evs).client = Client.run env k cevs := run_ran env k resps evs

theorem digits_nul {lo hi : Nat} {v : Bytes} (h : isNDigits lo hi v = true) : (0 : UInt8) ∉ v := by
  intro hm
  unfold isNDigits at h
  simp only [Bool.and_eq_true] at h
  have := List.all_eq_true.1 h.2 0 hm
  revert this; decide

theorem valid_nul {q : Query} (h : idValid q.id = true) : (0 : UInt8) ∉ idText q.id := by
  cases hq : q.id with
  | none => rw [hq] at h; cases h
  | imsi v =>
    rw [hq] at h
    exact digits_nul h
  | msisdn v =>
    rw [hq] at h
    exact digits_nul h

theorem due_iff {resps : List Resp} (hs : Strings resps) {x : Resp} (hx : x ∈ resps) {q : Query} (hq : idValid q.id = true) {now t : Int} :
    due now t q x = true ↔ x.sent = false ∧ For x q ∧ x.wait ≤ now - t := by
  unfold due For
  have := Verif.Mslookup.Props.c45_cmp q.id x.id (valid_nul hq) (hs x hx)
  simp only [Bool.and_eq_true, Bool.not_eq_true', decide_eq_true_eq, decide_eq_false_iff_not, this]
  constructor
  · rintro ⟨⟨⟨a, b⟩, c⟩, d⟩; exact ⟨a, ⟨b.symm, c.symm⟩, by omega⟩
  · rintro ⟨a, ⟨b, c⟩, d⟩; exact ⟨⟨⟨a, b.symm⟩, c.symm⟩, by omega⟩

/-- A request is made once. -/
theorem made_unique {resps : List Resp} {evs : List Ev} (hk : Kept evs) (hf : Few (quiet resps evs)) {u : Nat} {q q' : Query} {t t' : Int}
    (h : Made resps evs u q t) (h' : Made resps evs u q' t') : q = q' ∧ t = t' := by
  have grow : ∀ l1 q mn to t l2, evs = l1 ++ .client (.act (.request q mn to)) t :: l2 → serviceValid q.service = true → idValid q.id = true →
      (quiet resps (l1 ++ [.client (.act (.request q mn to)) t])).client.uids = (quiet resps l1).client.uids + 1 := by
    intro l1 q mn to t l2 e h1 h2
    have hk1 : Kept l1 := fun h => hk (by rw [e]; exact List.mem_append_left _ h)
    have hf1 : Few (quiet resps l1) := by rw [e] at hf; exact few_left hf
    have hI := run_inv hk1 hf1
    rw [show quiet resps (l1 ++ [.client (.act (.request q mn to)) t]) = step {} 0 (quiet resps l1) (.client (.act (.request q mn to)) t) from run_snoc _ _ _ _ _]
    unfold Verif.Fake.step
    rw [hI.ub, if_neg (by decide)]
    dsimp only
    rw [hI.freed, if_neg (by decide)]
    rcases request_eq hI.early.inv q mn to with ⟨hv, -⟩ | ⟨-, -, -, hu, -⟩
    · rw [h1, h2] at hv; cases hv
    · exact hu
  obtain ⟨l1, mn, to, l2, e, hu, h1, h2⟩ := h
  obtain ⟨m1, mn', to', m2, e', hu', h1', h2'⟩ := h'
  have key : ∀ (l1 : List Ev) (q : Query) (mn to : Nat) (t : Int) (l2 m1 m2 : List Ev) (x : Ev),
      evs = l1 ++ .client (.act (.request q mn to)) t :: l2 → evs = m1 ++ x :: m2 → serviceValid q.service = true → idValid q.id = true →
      (quiet resps l1).client.uids = (quiet resps m1).client.uids → ¬ l1.length < m1.length := by
    intro l1 q mn to t l2 m1 m2 x e e' h1 h2 hu hlt
    have hp : ∃ d, m1 = l1 ++ .client (.act (.request q mn to)) t :: d := by
      rw [e] at e'
      rcases List.append_eq_append_iff.1 e' with ⟨a, ha, hb⟩ | ⟨a, ha, hb⟩
      · cases a with
        | nil => rw [ha] at hlt; simp at hlt
        | cons y a =>
          obtain ⟨rfl, -⟩ := List.cons.inj hb
          exact ⟨a, ha⟩
      · rw [ha, List.length_append] at hlt; omega
    obtain ⟨d, rfl⟩ := hp
    have g := grow l1 q mn to t l2 e h1 h2
    have := uids_le {} 0 resps (l1 ++ [.client (.act (.request q mn to)) t]) d
    rw [List.append_assoc] at this
    have this : (quiet resps (l1 ++ [.client (.act (.request q mn to)) t])).client.uids
      ≤ (quiet resps (l1 ++ .client (.act (.request q mn to)) t :: d)).client.uids := this
    omega
  have a := key l1 q mn to t l2 m1 m2 _ e e' h1 h2 (hu.trans hu'.symm)
  have c := key m1 q' mn' to' t' m2 l1 l2 _ e' e h1' h2' (hu'.trans hu.symm)
  rw [e] at e'
  obtain ⟨-, e3⟩ := List.append_inj e' (by omega)
  cases e3
  exact ⟨rfl, rfl⟩

theorem made_valid {resps : List Resp} {evs : List Ev} {u : Nat} {q : Query} {t : Int} (h : Made resps evs u q t) : idValid q.id = true := by
  obtain ⟨_, _, _, _, _, _, _, h⟩ := h
  exact h

/-- C82: an answer goes to a request for the same id and service, when the timer of the method
runs, not before its time has passed since the request was made, and the client gets it as a
result for this request.  Missing: callbacks that make calls (for which `c82_cancel_violated` is
an example), the client being freed (`c82_free_violated`), and 2^32 requests. -/
theorem c82_answer_partial {resps : List Resp} {evs : List Ev} (hs : Strings resps) (hk : Kept evs) (hf : Few (quiet resps evs))
    {i u : Nat} {now : Int} (h : ⟨i, u, now⟩ ∈ (quiet resps evs).uses) :
    ∃ x q t, resps[i]? = some x ∧ Made resps evs u q t ∧ For x q ∧ x.wait ≤ now - t ∧ .tick now ∈ evs
      ∧ .rx x.result ∈ story (quiet resps evs) u := by
  obtain ⟨x, q, t, h1, h2, h3, h4, h5⟩ := (run_inv hk hf).uses _ h
  obtain ⟨-, h6, h7⟩ := (due_iff hs (List.mem_of_getElem? h1) (made_valid h2)).1 h3
  exact ⟨x, q, t, h1, h2, h6, h7, h4, List.mem_map.2 ⟨_, List.mem_filter.2 ⟨h5, by simp⟩, rfl⟩⟩

theorem tick_eq {resps : List Resp} {evs : List Ev} {now : Int} (hk : Kept evs) (hf : Few (quiet resps evs)) :
    ∃ new, Ticked now (quiet resps evs).client.reqs (quiet resps evs) (quiet resps (evs ++ [.tick now])) new := by
  have hI := run_inv hk hf
  rw [show quiet resps (evs ++ [.tick now]) = step {} 0 (quiet resps evs) (.tick now) from run_snoc _ _ _ _ _]
  unfold Verif.Fake.step
  rw [hI.ub, if_neg (by decide)]
  dsimp only
  rw [hI.freed, if_neg (by decide)]
  have : unsent (quiet resps evs).resps ≤ (quiet resps evs).resps.length := List.countP_le_length
  exact pass_ticked now _ _ _ hI.early hI.sorted ⟨[], rfl⟩ (by omega)

theorem few_tick {resps : List Resp} {evs : List Ev} {now : Int} (h : Few (quiet resps (evs ++ [.tick now]))) : Few (quiet resps evs) := few_left h

theorem kept_left {l1 l2 : List Ev} (h : Kept (l1 ++ l2)) : Kept l1 := fun hm => h (List.mem_append_left _ hm)

/-- A request that waits is in the list. -/
theorem waiting_req {resps : List Resp} {evs : List Ev} (hk : Kept evs) (hf : Few (quiet resps evs)) {u : Nat} (h : Waiting (quiet resps evs) u)
    {q : Query} {t : Int} (hm : Made resps evs u q t) :
    ∃ r ∈ (quiet resps evs).client.reqs, r.uid = u ∧ r.query = q ∧ (quiet resps evs).came u = t := by
  have hI := run_inv hk hf
  obtain ⟨r, hr⟩ := Rest.of_open ⟨hI.early.inv.toInv, hI.early.qt⟩ h
  obtain ⟨hr', rfl⟩ := Client.req?_some hr
  obtain ⟨e1, e2⟩ := made_unique hk hf (hI.made r hr') hm
  exact ⟨r, hr', rfl, e1, e2⟩

theorem sent_given {resps : List Resp} {evs : List Ev} {j : Nat} {x : Resp} (hx : resps[j]? = some x) (hs : x.sent = false)
    {now t : Int} {q : Query} (hd : due now t q x = true)
    (h : ∀ z, (quiet resps evs).resps[j]? = some z → due now t q z = false) : Given (quiet resps evs) j := by
  have hL := run_listed {} 0 resps evs
  apply Classical.byContradiction
  intro hn
  have hno : j ∉ (run {} 0 resps evs).uses.map Use.resp := by
    intro hm
    obtain ⟨u, hu, e⟩ := List.mem_map.1 hm
    exact hn ⟨u.uid, u.now, by rw [← e]; exact hu⟩
  have : (quiet resps evs).resps[j]? = some x := by
    have := hL.get j
    rw [hx] at this
    show (run {} 0 resps evs).resps[j]? = some x
    rw [this]
    show some _ = some _
    congr 1
    rcases x with ⟨a, b, c, d, e⟩
    simp only at hs ⊢
    simp [hs, hno]
  rw [h x this] at hd
  cases hd

/-- C82: when the timer of the method has run, a request that is still waiting either got an
answer just now, or every answer whose time has come for it has been given. -/
theorem c82_prompt_partial {resps : List Resp} {evs : List Ev} {now : Int} (hs : Strings resps) (hk : Kept evs)
    (hf : Few (quiet resps (evs ++ [.tick now]))) {u : Nat} {q : Query} {t : Int} (hm : Made resps evs u q t)
    (hw : Waiting (quiet resps evs) u) :
    (∃ i, ⟨i, u, now⟩ ∈ (quiet resps (evs ++ [.tick now])).uses ∧ ⟨i, u, now⟩ ∉ (quiet resps evs).uses)
    ∨ ∀ i x, resps[i]? = some x → x.sent = false → For x q → x.wait ≤ now - t → Given (quiet resps (evs ++ [.tick now])) i := by
  have hf0 := few_tick hf
  obtain ⟨new, hT⟩ := tick_eq (now := now) hk hf0
  obtain ⟨r, hr, rfl, rfl, rfl⟩ := waiting_req hk hf0 hw hm
  rcases hT.rest r hr with ⟨w, hw, e⟩ | h
  · left
    refine ⟨w.resp, ?_, ?_⟩
    · rw [hT.uses]
      refine List.mem_append_left _ ?_
      rw [← e, ← (hT.each w hw).1]
      exact hw
    · intro hmem
      have hn := (run_listed {} 0 resps (evs ++ [.tick now])).nodup
      rw [show (run {} 0 resps (evs ++ [.tick now])).uses = new ++ (quiet resps evs).uses from hT.uses, List.map_append] at hn
      exact (List.nodup_append.1 hn).2.2 w.resp (List.mem_map.2 ⟨w, hw, rfl⟩) w.resp (List.mem_map.2 ⟨_, hmem, rfl⟩) rfl
  · right
    intro i x hx hsx hfor hwait
    have hd := (due_iff hs (List.mem_of_getElem? hx) (made_valid hm)).2 ⟨hsx, hfor, hwait⟩
    exact sent_given hx hsx hd (fun z hz => h z (List.mem_of_getElem? hz))

/-- C82: the timer of the method gives at most one answer to each request; of those whose time has
come it takes the first one in the list, and an answer goes to the oldest of the requests that it
is for, except to those that got another one just now. -/
theorem c82_order_partial {resps : List Resp} {evs : List Ev} {now : Int} (hs : Strings resps) (hk : Kept evs)
    (hf : Few (quiet resps (evs ++ [.tick now]))) :
    ∃ new, (quiet resps (evs ++ [.tick now])).uses = new ++ (quiet resps evs).uses ∧ (new.map Use.uid).Nodup
      ∧ ∀ i u n, ⟨i, u, n⟩ ∈ new → n = now ∧ Waiting (quiet resps evs) u ∧ ∃ q t, Made resps evs u q t
        ∧ (∀ j x, j < i → resps[j]? = some x → x.sent = false → For x q → x.wait ≤ now - t → Given (quiet resps (evs ++ [.tick now])) j)
        ∧ ∀ x u' q' t', resps[i]? = some x → u' < u → Made resps evs u' q' t' → Waiting (quiet resps evs) u' → For x q' → x.wait ≤ now - t' →
            ∃ i', ⟨i', u', now⟩ ∈ new := by
  have hf0 := few_tick hf
  have hI := run_inv hk hf0
  have hL := run_listed {} 0 resps evs
  obtain ⟨new, hT⟩ := tick_eq (now := now) hk hf0
  refine ⟨new, hT.uses, ?_, ?_⟩
  · rw [List.Nodup, List.pairwise_map]
    exact hT.desc.imp (fun h => by omega)
  intro i u n hu
  obtain ⟨hn, y, hy, e, x, hx, hd, -, hlow, hold⟩ := hT.each _ hu
  have e : y.uid = u := e
  subst e
  have hx0 : resps[i]? = some x := hL.due hx (due_sent hd)
  have hmy := hI.made y hy
  refine ⟨hn, open_of hI.early.inv.toInv (find_eq hI.early.inv.nodup hy) (hI.early.qt _), y.query, _, hmy, ?_, ?_⟩
  · intro j z hj hz hsz hfor hwait
    have hdz := (due_iff hs (List.mem_of_getElem? hz) (made_valid hmy)).2 ⟨hsz, hfor, hwait⟩
    exact sent_given hz hsz hdz (fun w hw => hlow j w hj hw)
  · intro x' u' q' t' hx' hlt hm' hw' hfor hwait
    rw [hx0] at hx'
    cases hx'
    obtain ⟨r, hr, rfl, rfl, rfl⟩ := waiting_req hk hf0 hw' hm'
    rcases hold r hr hlt with ⟨w, hw, e⟩ | h
    · refine ⟨w.resp, ?_⟩
      rw [← e, ← (hT.each w hw).1]
      exact hw
    · have := (due_iff hs (List.mem_of_getElem? hx0) (made_valid hm')).2 ⟨due_sent hd, hfor, hwait⟩
      rw [h] at this
      cases this

/-- C82: an address that the callback of a request is given is that of an answer which the test
program listed for the id and service of the request, and whose time had come. -/
theorem c82_report_partial {resps : List Resp} {evs : List Ev} (hs : Strings resps) (hk : Kept evs) (hf : Few (quiet resps evs)) (ha : Alone evs)
    {u : Nat} {r : Result} (h : .cb r ∈ story (quiet resps evs) u) (hr : r.rc = .result) :
    ∃ i now x q t, ⟨i, u, now⟩ ∈ (quiet resps evs).uses ∧ resps[i]? = some x ∧ Same r x.result ∧ Made resps evs u q t ∧ For x q
      ∧ x.wait ≤ now - t := by
  have hI := run_inv hk hf
  obtain ⟨cevs, hc⟩ := run_ran {} 0 resps evs
  have hc : (quiet resps evs).client = Client.run {} 0 cevs := hc
  obtain ⟨l1, l2, e⟩ := List.append_of_mem h
  have hrec : Recent {} 0 cevs := recent_of_few (by rw [← hc]; exact Nat.le_succ_of_le hf)
  have e' : hist u (Client.run {} 0 cevs).log = l1 ++ .cb r :: l2 := by rw [← hc]; exact e
  obtain ⟨⟨z, ⟨hz, -⟩, hsame⟩, -⟩ := Verif.Mslookup.Props.c44_report_partial {} 0 cevs hrec u l1 l2 r e' hr
  have harr : ∀ t : List Obs, z ∈ arrived t → .rx z ∈ t := by
    intro t
    induction t with
    | nil => intro h; cases h
    | cons o t ih =>
      intro h
      cases o with
      | rx w =>
        have h : z ∈ (if w.rc = .result then w :: arrived t else arrived t) := h
        split at h
        · rcases List.mem_cons.1 h with rfl | h
          · exact List.mem_cons_self
          · exact List.mem_cons_of_mem _ (ih h)
        · exact List.mem_cons_of_mem _ (ih h)
      | _ => exact List.mem_cons_of_mem _ (ih h)
  have hm : .rx z ∈ story (quiet resps evs) u := by
    rw [e]
    exact List.mem_append_right _ (List.mem_cons_of_mem _ (harr l2 hz))
  obtain ⟨⟨v, o⟩, hv, ho⟩ := List.mem_map.1 hm
  obtain ⟨hlog, huv⟩ := List.mem_filter.1 hv
  have ho : o = .rx z := ho
  have huv' : v = u := by simpa using huv
  subst ho
  subst huv'
  obtain ⟨w, hw, e1, x, hx, hres⟩ := hI.rx ha v z hlog
  subst e1
  obtain ⟨x', q, t, h1, h2, h3, h4, -, -⟩ := c82_answer_partial hs hk hf (show ⟨w.resp, w.uid, w.now⟩ ∈ (quiet resps evs).uses from hw)
  rw [hx] at h1
  cases h1
  exact ⟨w.resp, w.now, x, q, t, hw, hx, by rw [hres]; exact hsame, h2, h3, h4⟩

/-- C82: no freed memory is used if the callbacks make no calls and the client is not freed. -/
theorem c82_safe_partial {resps : List Resp} {evs : List Ev} (hk : Kept evs) (hf : Few (quiet resps evs)) : (quiet resps evs).ub = false :=
  (run_inv hk hf).ub

/-! ## Examples -/

/-- Two services, and an address with an age. -/
def exA : Query := { service := b "gsup.hlr", id := .imsi (b "1234567") }
def exB : Query := { service := b "sip.voice", id := .msisdn (b "112") }
def exRes (port age : Nat) : Result := { rc := .result, v4 := { v6 := false, ip := 1, port := port }, age := age }

/-- Four answers: one for `exA` after one second, and three for `exB` after 0.6, 0.8 and 0.6
seconds. -/
def exResps : List Resp :=
  [{ wait := 1000000, id := exA.id, service := exA.service, result := exRes 42 0 },
   { wait := 600000, id := exB.id, service := exB.service, result := exRes 666 423 },
   { wait := 800000, id := exB.id, service := exB.service, result := exRes 23 235 },
   { wait := 600000, id := exB.id, service := exB.service, result := exRes 999 335 }]

def ask (q : Query) (now : Int) : Ev := .client (.act (.request q 2000 1)) now

/-- A request for `exA`, two for `exB`, and the timer of the method. -/
def exEvs : List Ev := [ask exA 0, ask exB 0, ask exB 100000, .tick 500000, .tick 600000, .tick 700000, .tick 800000]

theorem exStrings : Strings exResps := by
  unfold Strings
  decide +kernel

/-- The first answer for `exB` goes to the first request at 0.6 s, the third one at 0.7 s, since
the second one is not due; the second one follows at 0.8 s. -/
example : (quiet exResps exEvs).uses = [⟨2, 1, 800000⟩, ⟨3, 1, 700000⟩, ⟨1, 1, 600000⟩] := by decide +kernel

/-- At 1 s the request for `exA` is answered, and is over; its callback has got the address. -/
example : (quiet exResps (exEvs ++ [.tick 1000000])).uses.head? = some ⟨0, 0, 1000000⟩
    ∧ story (quiet exResps (exEvs ++ [.tick 1000000])) 0
      = [.cb { exRes 42 0 with last := true }, .rx (exRes 42 0), .issued 1 2000 1] := by decide +kernel

/-- Two requests get their answers in one run of the timer; the older one comes first. -/
example : (quiet exResps [ask exA 0, ask exB 0, ask exB 0, .tick 1000000]).uses
    = [⟨2, 2, 1000000⟩, ⟨1, 1, 1000000⟩, ⟨0, 0, 1000000⟩] := by decide +kernel

example : Kept exEvs ∧ Alone exEvs ∧ Few (quiet exResps exEvs) ∧ Made exResps exEvs 1 exB 0 ∧ Waiting (quiet exResps exEvs) 1 := by
  refine ⟨?_, ?_, ?_, ⟨[ask exA 0], 2000, 1, exEvs.drop 2, by decide +kernel, by decide +kernel, by decide +kernel, by decide +kernel⟩, ?_⟩
  · unfold Kept; decide +kernel
  · intro h r now hm
    simp [exEvs, ask] at hm
  · unfold Few; decide +kernel
  · refine ⟨⟨2, 2000, 1, by decide +kernel⟩, ?_, by decide +kernel⟩
    rintro ⟨r, hr, hl⟩
    have : ∀ o ∈ story (quiet exResps exEvs) 1, ∀ r, o ≠ .cb r := by
      have e : story (quiet exResps exEvs) 1 = [.rx (exRes 23 235), .rx (exRes 999 335), .rx (exRes 666 423), .issued 2 2000 1] := by decide +kernel
      rw [e]
      intro o ho
      simp at ho
      rcases ho with rfl | rfl | rfl | rfl <;> intro r h <;> cases h
    exact this _ hr r rfl

/-- C82, not so if a callback cancels another request: the loop had found the next request before
the callback was called, and goes on there, although it has been freed. -/
theorem c82_cancel_violated : ∃ env k evs, Kept evs ∧ Few (run env k exResps evs) ∧ (run env k exResps evs).ub = true := by
  refine ⟨{ react := fun _ => [.cancel 2] }, 1, [ask exA 0, ask exB 0, .tick 1000000], ?_, ?_, ?_⟩
  · unfold Kept; decide +kernel
  · unfold Few; decide +kernel
  · decide +kernel

/-- C82, not so after osmo_mslookup_client_free(): the timer of the method and those of requests
under way are still running, and use memory that was freed. -/
theorem c82_free_violated : (quiet [] [.free, .tick 100000]).ub = true
    ∧ (quiet [] [ask exA 0, .free, .client (.timeout 0) 2000000]).ub = true := by decide +kernel

end Verif.Fake.Props
