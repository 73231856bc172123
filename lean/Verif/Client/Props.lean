import Verif.Client.Spec
/-!
# The GSUP client: C58 (it keeps the link), C59 (what it sends), C60 (what it reports)
-/
namespace Verif.Client.Props
open Verif Verif.Client

theorem reach_inv {cb : Bool} {s : St} (h : Reach cb s) : Inv s := by
  obtain ⟨t, rc, s0, evs, h0, rfl⟩ := h
  exact run_inv cb (create_inv h0) evs

theorem reach_run {cb : Bool} {s : St} (h : Reach cb s) (evs : List Ev) : Reach cb (run cb s evs) := by
  obtain ⟨t, rc, s0, evs0, h0, rfl⟩ := h
  exact ⟨t, rc, s0, evs0 ++ evs, h0, run_append cb s0 evs0 evs⟩

/-! ## C58 -/

/-- C58: a client that calls itself connected has heard from its peer on this connection
within the last 40 seconds. -/
theorem c58_noticed {cb : Bool} {s : St} (hr : Reach cb s) (ha : s.alive = true) (hc : s.isConnected = true) :
    ∃ t, Sign s.log t ∧ s.now ≤ t + 40 := by
  have h := reach_inv hr
  obtain ⟨_, p, _, h1, _, t, ht, h2⟩ := h.up ((h.conn ha).mp hc)
  refine ⟨t, ht, ?_⟩
  split at h2 <;> omega

/-- Is the observation one of the two signs of life? -/
def isSign : Obs → Bool
  | .established => true
  | .pong => true
  | _ => false

theorem connect_signs (rc : Int) (s : St) : (connect rc s).2.log.filter (isSign ·.2) = s.log.filter (isSign ·.2) := by
  unfold connect
  split
  · rfl
  · dsimp only
    split
    · rfl
    · split <;> rfl

theorem tellDown_signs (cb : Bool) (a : Answer) (s : St) (f : St → St)
    (hf : ∀ s, (f s).log.filter (isSign ·.2) = s.log.filter (isSign ·.2)) :
    (tellDown cb a s f).log.filter (isSign ·.2) = s.log.filter (isSign ·.2) := by
  unfold tellDown
  split
  · exact hf s
  · cases a
    · exact (hf _).trans rfl
    · rfl
    · rfl

/-- C58: only the establishment of the connection and a PONG that arrives on it are taken as signs
of life. -/
theorem c58_signs (cb : Bool) (s : St) (e : Ev) :
    (step cb s e).log.filter (isSign ·.2) = (match e with
      | .established _ _ => if s.alive ∧ s.link = .connecting then [(s.now, .established)] else []
      | .frame p d (.handled _) _ =>
        if s.alive ∧ s.link = .up ∧ p = PROTO_IPA ∧ d.head? = some MSGT_PONG then [(s.now, .pong)] else []
      | _ => []) ++ s.log.filter (isSign ·.2) := by
  unfold step
  by_cases ha : s.alive = true
  · rw [if_neg (by simp [ha])]
    cases e with
    | wait d => rfl
    | established reg a =>
      dsimp only
      by_cases hl : s.link = .connecting
      · rw [if_pos hl, if_pos ⟨ha, hl⟩]
        unfold linkUp
        cases reg <;> cases cb <;> cases a <;> rfl
      · rw [if_neg hl, if_neg fun h => hl h.2]; rfl
    | lost a =>
      dsimp only
      split
      · rfl
      · unfold linkDown
        dsimp only
        refine (tellDown_signs cb a _ _ ?_).trans rfl
        intro s; rfl
    | frame p d c o =>
      dsimp only
      by_cases hl : s.link = .up
      · rw [if_pos hl]
        unfold read
        by_cases hp : p = PROTO_IPA
        · rw [if_pos hp]
          cases c with
          | bad => rfl
          | handled reply =>
            dsimp only
            by_cases hd : d.head? = some MSGT_PONG
            · rw [if_pos hd, if_pos ⟨ha, hl, hp, hd⟩]
              cases reply <;> rfl
            · rw [if_neg hd, if_neg fun h => hd h.2.2.2]
              cases reply <;> rfl
        · rw [if_neg hp]
          have hz : (match Ev.frame p d c o with
              | .established _ _ => if s.alive ∧ s.link = .connecting then [(s.now, Obs.established)] else []
              | .frame p d (.handled _) _ =>
                if s.alive ∧ s.link = .up ∧ p = PROTO_IPA ∧ d.head? = some MSGT_PONG then [(s.now, .pong)] else []
              | _ => []) = [] := by
            cases c with
            | bad => rfl
            | handled r => exact if_neg fun h => hp h.2.2.1
          refine Eq.trans ?_ (congrArg (· ++ s.log.filter (isSign ·.2)) hz.symm)
          split
          · rfl
          · cases d with
            | nil => rfl
            | cons x m =>
              dsimp only
              split
              · rfl
              · split
                · cases o <;> rfl
                · rfl
      · rw [if_neg hl]
        cases c with
        | bad => rfl
        | handled r =>
          dsimp only
          rw [if_neg fun h => hl h.2.1]
          rfl
    | writable =>
      dsimp only
      split <;> rfl
    | ping rc =>
      dsimp only
      split
      · unfold pingTimer
        dsimp only
        split
        · rfl
        · exact (connect_signs rc _).trans rfl
      · rfl
    | conn a rc =>
      dsimp only
      split
      · unfold connTimer
        dsimp only
        split
        · rfl
        · refine (tellDown_signs cb a _ _ ?_).trans rfl
          intro s; exact connect_signs rc s
      · rfl
    | send m =>
      show (send m s).2.log.filter _ = _
      unfold send
      split <;> rfl
    | destroy => rfl
  · rw [if_pos (by simpa using ha)]
    cases e with
    | established reg a => dsimp only; rw [if_neg fun h => ha h.1]; rfl
    | frame p d c o =>
      cases c with
      | bad => rfl
      | handled r => dsimp only; rw [if_neg fun h => ha h.1]; rfl
    | _ => rfl

/-- C58: a client without a connection that has not been told to stop (and met no final
error) tries again within 40 seconds, unless it is told to stop or destroyed before: in any
continuation that lasts longer, the attempt is in the history. -/
theorem c58_retry_partial {cb : Bool} {s : St} (hr : Reach cb s) (ha : s.alive = true) (hl : s.link = .closed)
    (hg : Going s.log) (evs : List Ev) (ht : s.now + 40 < (run cb s evs).now) :
    ∃ new, (run cb s evs).log = new ++ s.log ∧ ∃ x ∈ new, x.1 ≤ s.now + 40 ∧
      ((∃ n rc, x.2 = .attempt n rc) ∨ x.2 = .stop ∨ x.2 = .destroyed) := by
  have h := reach_inv hr
  have hne : ¬ Ended s.log := by
    rintro ⟨x, hx, hs | ⟨n, rc, hx', hf⟩⟩
    · exact (hg x hx).1 hs
    · obtain ⟨g1, g2, g3, g4⟩ := (hg x hx).2 n rc hx'
      simp only [fatal, Bool.or_eq_true, beq_iff_eq] at hf
      omega
  have hn : ∃ d, next s = some d ∧ d ≤ s.now + 40 := by
    unfold next
    rcases h.closed hl with ⟨d', h1, h2, h3, h4⟩ | ⟨p, h1, h2, h3, h4⟩ | ⟨h1, h2, h3 | h3⟩
    · exact ⟨d', by rw [h1], by omega⟩
    · rw [h1, h2]
      dsimp only
      split
      · exact ⟨_, rfl, by omega⟩
      · exact ⟨_, rfl, by omega⟩
    · rw [ha] at h3; cases h3
    · exact absurd h3 hne
  obtain ⟨d, hn, hd⟩ := hn
  obtain ⟨new, hnew, x, hx, hx1, hx2⟩ := run_next cb h ha hl hn evs (by omega)
  refine ⟨new, hnew, x, hx, by omega, ?_⟩
  rcases hx2 with ⟨n, rc, rfl⟩ | h | h
  · exact Or.inl ⟨n, rc, rfl⟩
  · exact Or.inr (Or.inl h)
  · exact Or.inr (Or.inr h)

theorem linkDown_cases (cb : Bool) (a : Answer) {s : St} (ha : s.alive = true) :
    ∃ n1, (linkDown cb a s).log = n1 ++ s.log ∧ ((∃ x ∈ n1, x.2 = .stop ∨ x.2 = .destroyed) ∨
      ((linkDown cb a s).alive = true ∧ (linkDown cb a s).link = .closed ∧ next (linkDown cb a s) = some (s.now + 1))) := by
  unfold linkDown tellDown
  dsimp only
  split
  · exact ⟨[(s.now, .lost)], rfl, Or.inr ⟨ha, rfl, rfl⟩⟩
  · cases a with
    | ok => exact ⟨[(s.now, .told false), (s.now, .lost)], rfl, Or.inr ⟨ha, rfl, rfl⟩⟩
    | stop => exact ⟨[(s.now, .stop), (s.now, .told false), (s.now, .lost)], rfl, Or.inl ⟨_, List.mem_cons_self, Or.inl rfl⟩⟩
    | destroy =>
      exact ⟨[(s.now, .destroyed), (s.now, .told false), (s.now, .lost)], rfl, Or.inl ⟨_, List.mem_cons_self, Or.inr rfl⟩⟩

/-- C58: when the peer closes the connection, or an attempt fails, the next attempt is one
second later, unless the user asks otherwise. -/
theorem c58_prompt {cb : Bool} {s : St} (hr : Reach cb s) (ha : s.alive = true) (hl : s.link ≠ .closed)
    (a : Answer) (evs : List Ev) (ht : s.now + 1 < (run cb s (.lost a :: evs)).now) :
    ∃ new, (run cb s (.lost a :: evs)).log = new ++ s.log ∧ ∃ x ∈ new,
      (∃ n rc, x = (s.now + 1, .attempt n rc)) ∨ x.2 = .stop ∨ x.2 = .destroyed := by
  have h := reach_inv hr
  have h' := step_inv cb h (.lost a)
  have ht : s.now + 1 < (run cb (step cb s (.lost a)) evs).now := ht
  show ∃ new, (run cb (step cb s (.lost a)) evs).log = _ ∧ _
  obtain ⟨n2, h2⟩ := run_ext cb (step cb s (.lost a)) evs
  have e : step cb s (.lost a) = linkDown cb a s := by
    unfold step
    rw [if_neg (by rw [ha]; simp)]
    dsimp only
    rw [if_neg hl]
  rw [e] at h' ht h2 ⊢
  obtain ⟨n1, hn1, ⟨x, hx, hs⟩ | ⟨h3, h4, h5⟩⟩ := linkDown_cases cb a ha
  · exact ⟨n2 ++ n1, by rw [h2, hn1, List.append_assoc], x, List.mem_append_right _ hx, Or.inr hs⟩
  · obtain ⟨new, hnew, x, hx, _, hx2⟩ := run_next cb h' h3 h4 h5 evs ht
    exact ⟨new ++ n1, by rw [hnew, hn1, List.append_assoc], x, List.mem_append_left _ hx, hx2⟩

/-- C58: an attempt that `ipa_client_conn_open` accepts is left to run: the connection is being
made, no timer of the client interferes, and nothing is said to have failed.  One that fails
for a final reason is reported as such by the attempt itself, so that a client whose first
attempt fails so is not created; any other failure is not an error to the caller. -/
theorem c58_attempt (rc : Int) {s : St} (hc : s.isConnected = false) :
    (0 ≤ rc → (connect rc s).1 = 0 ∧ (connect rc s).2.link = .connecting ∧ (connect rc s).2.conn = none
      ∧ (connect rc s).2.ping = none)
    ∧ (rc < 0 → (connect rc s).2.link = s.link
      ∧ ((connect rc s).1 < 0 ↔ rc = -9 ∨ rc = -22 ∨ rc = -88 ∨ rc = -97)
      ∧ ((connect rc s).1 < 0 → (connect rc s).1 = rc)
      ∧ (0 ≤ (connect rc s).1 → (connect rc s).2.conn = some (s.now + 1))) := by
  unfold connect
  rw [hc, if_neg (by simp)]
  dsimp only
  constructor
  · intro h
    rw [if_pos h]
    exact ⟨rfl, rfl, rfl, rfl⟩
  · intro h
    rw [if_neg (by omega)]
    have hf : fatal rc = true ↔ rc = -9 ∨ rc = -22 ∨ rc = -88 ∨ rc = -97 := by
      simp only [fatal, Bool.or_eq_true, beq_iff_eq]
      omega
    by_cases hx : fatal rc = true
    · rw [if_pos hx]
      exact ⟨rfl, ⟨fun _ => hf.1 hx, fun _ => h⟩, fun _ => rfl, fun h' => absurd h (by show ¬ rc < 0; exact Int.not_lt.2 h')⟩
    · rw [if_neg hx]
      exact ⟨rfl, ⟨fun h' => absurd h' (by simp), fun h' => absurd (hf.2 h') hx⟩, fun h' => absurd h' (by simp), fun _ => rfl⟩

example : (connect 0 { now := 3 }).2.link = .connecting ∧ (connect (-22) { now := 3 }).1 = -22
    ∧ (connect (-111) { now := 3 }).2.conn = some 4 := by decide +kernel

/-- C58: the clock of the two theorems above is never stuck: every state a client can be in
has continuations of any length of time. -/
theorem c58_time {cb : Bool} {s : St} (hr : Reach cb s) (n : Nat) : ∃ evs, s.now + n ≤ (run cb s evs).now :=
  time_goes_on cb (reach_inv hr) n

/-- A client without connection and without running timers does nothing any more. -/
theorem stuck (cb : Bool) {s : St} (hl : s.link = .closed) (hc : s.isConnected = false) (h1 : s.conn = none)
    (h2 : s.ping = none) (evs : List Ev) :
    (run cb s evs).isConnected = false ∧ (run cb s evs).tries = s.tries ∧
    lastTold (run cb s evs).log = lastTold s.log := by
  induction evs generalizing s with
  | nil => exact ⟨hc, rfl, rfl⟩
  | cons e evs ih =>
    have key : ∀ s' : St, step cb s e = s' → s'.link = .closed → s'.isConnected = false → s'.conn = none → s'.ping = none →
        s'.tries = s.tries → lastTold s'.log = lastTold s.log →
        (run cb s (e :: evs)).isConnected = false ∧ (run cb s (e :: evs)).tries = s.tries ∧
        lastTold (run cb s (e :: evs)).log = lastTold s.log := by
      intro s' he k1 k2 k3 k4 k5 k6
      show (run cb (step cb s e) evs).isConnected = false ∧ (run cb (step cb s e) evs).tries = s.tries ∧
        lastTold (run cb (step cb s e) evs).log = lastTold s.log
      rw [he, ← k5, ← k6]
      exact ih k1 k2 k3 k4
    by_cases ha : s.alive = true
    · have hs : step cb s e = (match e with
          | .wait d => wait d s
          | .send m => s.note (.refused m)
          | .destroy => destroy s
          | _ => s) := by
        unfold step
        rw [if_neg (by rw [ha]; simp)]
        cases e with
        | wait | destroy => rfl
        | established reg a => dsimp only; rw [if_neg (by rw [hl]; exact nofun)]
        | lost a => dsimp only; rw [if_pos hl]
        | frame p d c o => dsimp only; rw [if_neg (by rw [hl]; exact nofun)]
        | writable => dsimp only; rw [hl]
        | ping rc => dsimp only; rw [h2]; rfl
        | conn a rc => dsimp only; rw [h1]; rfl
        | send m => show (send m s).2 = _; unfold send; rw [if_pos (by rw [hc]; rfl)]
      cases e with
      | wait d => exact key _ hs hl hc h1 h2 rfl rfl
      | send m => exact key _ hs hl hc h1 h2 rfl rfl
      | destroy => exact key _ hs rfl hc rfl rfl rfl rfl
      | _ => exact key _ hs hl hc h1 h2 rfl rfl
    · have hs : step cb s e = (match e with | .wait d => wait d s | _ => s) := by
        unfold step
        rw [if_pos (by simpa using ha)]
        cases e <;> rfl
      cases e with
      | wait d => exact key _ hs hl hc h1 h2 rfl rfl
      | _ => exact key _ hs hl hc h1 h2 rfl rfl

/-- A history: the connection comes up and is reported, no PONG arrives for 20 seconds, and
`ipa_client_conn_open` then returns -EINVAL. -/
def exFatal : List Ev := [.established none .ok, .wait 20, .ping (-22)]

/-- C58 is violated: there is a history after which a client whose user always asked to go on
never tries again, whatever happens; and its user, told that the link is up, is never told
otherwise. -/
theorem c58_fatal_violated : ∃ s, Reach true s ∧ s.alive = true ∧ (∀ x ∈ s.log, x.2 ≠ .stop ∧ x.2 ≠ .destroyed) ∧
    ∀ evs, (run true s evs).isConnected = false ∧ (run true s evs).tries = s.tries ∧
      lastTold (run true s evs).log = some true := by
  refine ⟨run true { now := 0, link := .connecting, tries := 1, log := [(0, .attempt 1 0)] } exFatal,
    ⟨0, 0, _, exFatal, rfl, rfl⟩, rfl, by decide +kernel, fun evs => ?_⟩
  obtain ⟨h1, h2, h3⟩ := stuck true (s := run true { now := 0, link := .connecting, tries := 1, log := [(0, .attempt 1 0)] } exFatal)
    rfl rfl rfl rfl evs
  exact ⟨h1, h2, h3.trans rfl⟩

/-- An ordinary history: created, connected, two PONGs, the peer falls silent, the client
gives the connection up, tries again and is refused. -/
def exLife : List Ev := [.established (some [1]) .ok, .writable, .frame 0xfe [4] (.handled (some [5])) none,
  .frame 0xfe [1] (.handled none) none, .wait 100, .ping 0, .send [7], .frame 0xee [5, 9] .bad none, .wait 19]

example : (create 100 0).isSome = true ∧
    (run true ((create 100 0).getD {}) exLife).isConnected = true ∧
    (run true ((create 100 0).getD {}) exLife).now = 139 ∧
    (run true ((create 100 0).getD {}) exLife).log =
      [(120, .given [9]), (120, .accepted 1 [7]), (100, .pong), (100, .wrote 1 .ping), (100, .told true),
       (100, .established), (100, .attempt 1 0)] := by decide +kernel
example : (run true ((create 100 0).getD {}) (exLife ++ [.wait 9, .ping (-111)])).link = .closed ∧
    (run true ((create 100 0).getD {}) (exLife ++ [.wait 9, .ping (-111)])).now = 140 ∧
    (run true ((create 100 0).getD {}) (exLife ++ [.wait 9, .ping (-111), .wait 5, .conn .ok 0, .wait 40])).now = 181 := by
  decide +kernel

/-! ## C59 -/

/-- C59: a message is accepted if and only if the client is connected; a refused message is
never put in the transmit queue. -/
theorem c59_send (m : Bytes) (s : St) :
    ((send m s).1 = 0 ↔ s.isConnected = true) ∧ (s.isConnected = false → (send m s).1 = -107 ∧ (send m s).2.queue = s.queue) := by
  unfold send
  cases s.isConnected
  · exact ⟨⟨nofun, nofun⟩, fun _ => ⟨rfl, rfl⟩⟩
  · exact ⟨⟨fun _ => rfl, fun _ => rfl⟩, nofun⟩

/-- C59: over the whole life of a client, the GSUP messages each of its connections took are
the first ones of the messages accepted on that connection, in order: none is sent twice, out
of order, on another connection, or without having been accepted. -/
theorem c59_stream {cb : Bool} {s : St} (hr : Reach cb s) (n : Nat) : wroteOn n s.log <+: acceptedOn n s.log := by
  obtain ⟨t, rc, s0, evs, h0, rfl⟩ := hr
  exact (run_stream cb (create_stream h0) evs).all n

/-- C59: while the connection lasts nothing accepted on it is lost: it was taken by the
connection or waits in the queue. -/
theorem c59_kept {cb : Bool} {s : St} (hr : Reach cb s) (ha : s.alive = true) :
    wroteOn s.tries s.log ++ gsups s.queue = acceptedOn s.tries s.log := by
  obtain ⟨t, rc, s0, evs, h0, rfl⟩ := hr
  exact (run_stream cb (create_stream h0) evs).cur ha

/-- C59: a frame that arrives on the connection is handed to the user if and only if it is an
Osmocom frame with the GSUP extension, and then without its extension byte, once. -/
theorem c59_given (p : UInt8) (d : Bytes) (c : Ccm) (o : Option Bytes) (s : St) (m : Bytes) :
    (∃ new, (read p d c o s).log = new ++ s.log ∧ new = [(s.now, .given m)]) ↔ p = PROTO_OSMO ∧ d = EXT_GSUP :: m := by
  have hne : ∀ {a c : List (Nat × Obs)}, (∃ new, a ++ s.log = new ++ s.log ∧ new = c) ↔ a = c := by
    intro a c
    constructor
    · rintro ⟨new, h, rfl⟩; exact List.append_cancel_right h
    · rintro rfl; exact ⟨_, rfl, rfl⟩
  unfold read
  split
  · rename_i hp
    constructor
    · intro h
      exfalso
      cases c with
      | bad => exact absurd (hne (a := [(s.now, .dropped)]).mp h) (by simp)
      | handled reply =>
        cases reply <;> dsimp only at h <;> split at h <;>
          first
          | exact absurd (hne (a := [(s.now, .pong)]).mp h) (by simp)
          | exact absurd (hne (a := []).mp h) (by simp)
    · rintro ⟨h, _⟩
      rw [hp] at h; cases h
  · split
    · rename_i hp
      constructor
      · intro h; exact absurd (hne (a := []).mp h) (by simp)
      · rintro ⟨h, _⟩; exact absurd h hp
    · rename_i hp
      have hp : p = PROTO_OSMO := by simpa using hp
      cases d with
      | nil =>
        constructor
        · intro h; exact absurd (hne (a := []).mp h) (by simp)
        · rintro ⟨_, h⟩; cases h
      | cons x m' =>
        dsimp only
        split
        · rename_i hx
          constructor
          · intro h
            have := (hne (a := [(s.now, .given m')])).mp h
            simp at this
            exact ⟨hp, by rw [hx, this]⟩
          · rintro ⟨_, h⟩
            cases h
            exact ⟨[_], rfl, rfl⟩
        · rename_i hx
          constructor
          · intro h
            exfalso
            split at h
            · cases o <;> exact absurd (hne (a := []).mp h) (by simp)
            · exact absurd (hne (a := []).mp h) (by simp)
          · rintro ⟨_, h⟩
            cases h; exact absurd rfl hx

example : wroteOn 1 (run true ((create 100 0).getD {}) (exLife ++ [.writable, .writable, .writable, .writable])).log = [[7]] ∧
    acceptedOn 1 (run true ((create 100 0).getD {}) (exLife ++ [.writable, .writable, .writable, .writable])).log = [[7]] := by
  decide +kernel

/-- C59 is violated in the strong reading: there is a history in which a message was accepted
and is lost for good, although the client is connected again, and the user was told nothing
but "up" throughout. -/
theorem c59_lost_violated : ∃ s m, Reach true s ∧ s.isConnected = true ∧ (∃ n, m ∈ acceptedOn n s.log) ∧
    (∀ n, m ∉ wroteOn n s.log) ∧ s.queue = [.ping] ∧ (∀ x ∈ s.log, x.2 ≠ .told false) := by
  refine ⟨run true { now := 0, link := .connecting, tries := 1, log := [(0, .attempt 1 0)] }
    [.established none .ok, .wait 20, .send [7], .ping 0, .established none .ok], [7],
    ⟨0, 0, _, _, rfl, rfl⟩, rfl, ⟨1, by decide +kernel⟩, fun n => ?_, rfl, by decide +kernel⟩
  have : wroteOn n (run true { now := 0, link := .connecting, tries := 1, log := [(0, .attempt 1 0)] }
    [.established none .ok, .wait 20, .send [7], .ping 0, .established none .ok]).log = [] := rfl
  rw [this]; exact nofun

/-! ## C60 -/

/-- What a step does to the last report. -/
def Told (s : St) : Prop := s.alive = true → (s.isConnected = true ↔ lastTold s.log = some true ∧ dropped s.log = false)

theorem connect_told (rc : Int) {s : St} (h : Told s) : Told (connect rc s).2 := by
  unfold connect
  split
  · exact h
  · dsimp only
    split
    · exact h
    · split <;> exact h

theorem tellDown_told (a : Answer) {s : St} (f : St → St) (hc : s.isConnected = false)
    (hf : ∀ s, Told s → Told (f s)) : Told (tellDown true a s f) := by
  unfold tellDown
  rw [if_neg (by simp)]
  dsimp only
  have h1 : Told (s.note (.told false)) := by
    intro _
    show s.isConnected = true ↔ some false = some true ∧ _
    rw [hc]; exact ⟨nofun, fun h => absurd h.1 (by simp)⟩
  cases a
  · exact hf _ h1
  · exact h1
  · exact nofun

theorem step_told {s : St} (h : Told s) (hI : Inv s) (e : Ev) : Told (step true s e) := by
  unfold step
  split
  · cases e <;> exact h
  · rename_i ha
    have ha : s.alive = true := by simpa using ha
    cases e with
    | wait d => exact h
    | established reg a =>
      dsimp only
      split
      · unfold linkUp
        cases reg <;> dsimp only <;> (rw [if_neg (by simp)]) <;> cases a <;>
          first
          | (intro h; cases h; done)
          | (intro _; exact ⟨fun _ => ⟨rfl, rfl⟩, fun _ => rfl⟩)
      · exact h
    | lost a =>
      dsimp only
      split
      · exact h
      · exact tellDown_told a _ rfl (fun s h => h)
    | frame p d c o =>
      dsimp only
      split
      · unfold read
        split
        · cases c with
          | bad =>
            intro _
            exact ⟨nofun, fun h => absurd h.2 nofun⟩
          | handled reply => cases reply <;> dsimp only <;> split <;> exact h
        · split
          · exact h
          · cases d with
            | nil => exact h
            | cons x m =>
              dsimp only
              split
              · exact h
              · split
                · cases o <;> exact h
                · exact h
      · exact h
    | writable =>
      dsimp only
      split
      · exact h
      · exact h
    | ping rc =>
      dsimp only
      split
      · unfold pingTimer
        dsimp only
        split
        · exact h
        · refine connect_told rc ?_
          intro _
          exact ⟨nofun, fun h => absurd h.2 nofun⟩
      · exact h
    | conn a rc =>
      dsimp only
      split
      · unfold connTimer
        dsimp only
        split
        · exact h
        · rename_i hc
          exact tellDown_told a _ (by simpa using hc) (fun s h => connect_told rc h)
      · exact h
    | send m =>
      show Told (send m s).2
      unfold send
      split <;> exact h
    | destroy => exact nofun

theorem run_told {s : St} (h : Told s) (hI : Inv s) (evs : List Ev) : Told (run true s evs) := by
  induction evs generalizing s with
  | nil => exact h
  | cons e evs ih => exact ih (step_told h hI e) (step_inv true hI e)

/-- C60: at every moment of the life of a client whose user gave a callback, the client is
connected if and only if the user was last told so and the client has not given the connection
up since. -/
theorem c60_reports_partial {s : St} (hr : Reach true s) (ha : s.alive = true) :
    s.isConnected = true ↔ lastTold s.log = some true ∧ dropped s.log = false := by
  obtain ⟨t, rc, s0, evs, h0, rfl⟩ := hr
  refine run_told ?_ (create_inv h0) evs ha
  unfold create at h0
  dsimp only at h0
  split at h0
  · cases h0
  · cases h0
    exact connect_told rc (fun _ => ⟨nofun, fun h => absurd h.1 nofun⟩)

/-- C60: when the peer closes the connection or an attempt fails, the user is told at once. -/
theorem c60_told_down {s : St} (a : Answer) (ha : s.alive = true) (hl : s.link ≠ .closed) :
    ∃ new, (step true s (.lost a)).log = new ++ [(s.now, .told false), (s.now, .lost)] ++ s.log := by
  unfold step
  rw [if_neg (by rw [ha]; simp)]
  dsimp only
  rw [if_neg hl]
  unfold linkDown tellDown
  rw [if_neg (by simp)]
  dsimp only
  cases a
  · exact ⟨[], rfl⟩
  · exact ⟨[_], rfl⟩
  · exact ⟨[_], rfl⟩

/-- C60: when a connection is established, the user is told at once. -/
theorem c60_told_up {s : St} (reg : Option Bytes) (a : Answer) (ha : s.alive = true) (hl : s.link = .connecting) :
    ∃ new, (step true s (.established reg a)).log = new ++ [(s.now, .told true), (s.now, .established)] ++ s.log := by
  unfold step
  rw [if_neg (by rw [ha]; simp)]
  dsimp only
  rw [if_pos hl]
  unfold linkUp
  cases reg <;> dsimp only <;> (rw [if_neg (by simp)]) <;> cases a <;>
    first
    | exact ⟨[], rfl⟩
    | exact ⟨[_], rfl⟩

example : lastTold (run true ((create 100 0).getD {}) exLife).log = some true ∧
    dropped (run true ((create 100 0).getD {}) exLife).log = false := by decide +kernel

/-- C60 is violated: after a missing PONG the client is not connected although its user was
last told that it is. -/
theorem c60_timeout_violated : ∃ s, Reach true s ∧ s.alive = true ∧ lastTold s.log = some true ∧ s.isConnected = false :=
  ⟨_, ⟨0, 0, _, [.established none .ok, .wait 20, .ping 0], rfl, rfl⟩, rfl, rfl, rfl⟩

/-- C60 is violated: the same after an invalid CCM frame, and for up to 40 seconds. -/
theorem c60_ccm_violated : ∃ s s', Reach true s ∧ lastTold s.log = some true ∧ s.isConnected = false ∧
    run true s [.wait 20, .ping 0, .wait 20] = s' ∧ s'.now = s.now + 40 ∧ lastTold s'.log = some true ∧
    s'.isConnected = false ∧ s'.tries = s.tries :=
  ⟨_, _, ⟨0, 0, _, [.established none .ok, .frame 0xfe [1] (.handled none) none, .frame 0xfe [0xff] .bad none], rfl, rfl⟩,
    rfl, rfl, rfl, rfl, rfl, rfl, rfl⟩

end Verif.Client.Props
