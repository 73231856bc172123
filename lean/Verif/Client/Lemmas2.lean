import Verif.Client.Lemmas
/-!
# The GSUP client: when it tries again, what it writes, what it reports
-/
namespace Verif.Client
open Verif

/-! ## The next attempt -/

/-- When a client that has no connection tries again. -/
def next (s : St) : Option Nat :=
  match s.conn with
  | some d => some d
  | none => match s.ping with
    | some p => some (if s.gotPong then p + 20 else p)
    | none => none

/-- The client tried to connect at time `t`, or was told to stop, or was destroyed. -/
def Acts (x : Nat × Obs) (t : Nat) : Prop :=
  x.1 ≤ t ∧ ((∃ n rc, x = (t, .attempt n rc)) ∨ x.2 = .stop ∨ x.2 = .destroyed)

theorem connect_acts (rc : Int) (s : St) (hc : s.isConnected = false) :
    ∃ new, (connect rc s).2.log = new ++ s.log ∧ ∃ x ∈ new, Acts x s.now := by
  have : (connect rc s).2.log = (s.now, .attempt (s.tries + 1) rc) :: s.log := by
    unfold connect
    rw [if_neg (by rw [hc]; simp)]
    dsimp only
    split
    · rfl
    · split <;> rfl
  exact ⟨[(s.now, .attempt (s.tries + 1) rc)], this, _, List.mem_cons_self, Nat.le_refl _, Or.inl ⟨_, _, rfl⟩⟩

theorem step_next (cb : Bool) {s : St} (h : Inv s) (ha : s.alive = true) (hl : s.link = .closed) {d : Nat}
    (hn : next s = some d) (e : Ev) :
    (∃ new, (step cb s e).log = new ++ s.log ∧ ∃ x ∈ new, Acts x d) ∨
    ((step cb s e).alive = true ∧ (step cb s e).link = .closed ∧ next (step cb s e) = some d) := by
  have hc : s.isConnected = false := by
    cases hk : s.isConnected with
    | false => rfl
    | true => exact absurd (hl.symm.trans ((h.conn ha).mp hk)) nofun
  -- the time is not past the next attempt
  have hle : s.now ≤ d := by
    unfold next at hn
    rcases h.closed hl with ⟨d', h1, h2, h3, h4⟩ | ⟨p, h1, h2, h3, h4⟩ | ⟨h1, h2, _⟩
    · rw [h1] at hn; cases hn; exact h3
    · rw [h1, h2] at hn
      dsimp only at hn
      split at hn <;> cases hn <;> omega
    · rw [h1, h2] at hn; cases hn
  unfold step
  rw [if_neg (by rw [ha]; simp)]
  cases e with
  | wait d => exact Or.inr ⟨ha, hl, hn⟩
  | established reg a =>
    dsimp only
    rw [if_neg (by rw [hl]; exact nofun)]
    exact Or.inr ⟨ha, hl, hn⟩
  | lost a =>
    dsimp only
    rw [if_pos hl]
    exact Or.inr ⟨ha, hl, hn⟩
  | frame p d c o =>
    dsimp only
    rw [if_neg (by rw [hl]; exact nofun)]
    exact Or.inr ⟨ha, hl, hn⟩
  | writable =>
    dsimp only
    rw [hl]
    exact Or.inr ⟨ha, hl, hn⟩
  | ping rc =>
    dsimp only
    split
    · rename_i hd
      rcases h.closed hl with ⟨d', h1, h2, h3, h4⟩ | ⟨p, h1, h2, h3, h4⟩ | ⟨h1, h2, _⟩
      · rw [h2] at hd; exact absurd hd (by simp [due])
      · rw [h1] at hd
        have hd : p ≤ s.now := by simpa [due] using hd
        have hp : p = s.now := by omega
        unfold next at hn
        rw [h1, h2] at hn
        dsimp only at hn
        unfold pingTimer
        dsimp only
        split
        · rename_i hg
          rw [if_pos hg] at hn
          cases hn
          refine Or.inr ⟨ha, hl, ?_⟩
          unfold next startTest
          dsimp only
          rw [h2, hp]
          rfl
        · rename_i hg
          rw [if_neg hg] at hn
          cases hn
          left
          subst hp
          obtain ⟨new, hl', x, hx, hA⟩ := connect_acts rc
            { ({ s with ping := none } : St).note .dropped with link := .closed, isConnected := false } rfl
          exact ⟨new ++ [(s.now, .dropped)], by rw [hl']; simp [St.note], x, List.mem_append_left _ hx, hA⟩
      · rw [h2] at hd; exact absurd hd (by simp [due])
    · exact Or.inr ⟨ha, hl, hn⟩
  | conn a rc =>
    dsimp only
    split
    · rename_i hd
      rcases h.closed hl with ⟨d', h1, h2, h3, h4⟩ | ⟨p, h1, h2, h3, h4⟩ | ⟨h1, h2, _⟩
      · rw [h1] at hd
        have hd : d' ≤ s.now := by simpa [due] using hd
        have hp : d' = s.now := by omega
        unfold next at hn
        rw [h1] at hn
        cases hn
        subst hp
        left
        unfold connTimer
        dsimp only
        rw [if_neg (by rw [hc]; simp)]
        unfold tellDown
        split
        · exact connect_acts rc { s with conn := none } hc
        · dsimp only
          cases a with
          | ok =>
            obtain ⟨new, hl', x, hx, hA⟩ := connect_acts rc (({ s with conn := none } : St).note (.told false)) hc
            exact ⟨new ++ [(s.now, .told false)], by rw [hl']; simp [St.note], x, List.mem_append_left _ hx, hA⟩
          | stop =>
            exact ⟨[(s.now, .stop), (s.now, .told false)], rfl, _, List.mem_cons_self, Nat.le_refl _, Or.inr (Or.inl rfl)⟩
          | destroy =>
            exact ⟨[(s.now, .destroyed), (s.now, .told false)], rfl, _, List.mem_cons_self, Nat.le_refl _,
              Or.inr (Or.inr rfl)⟩
      · rw [h2] at hd; exact absurd hd (by simp [due])
      · rw [h1] at hd; exact absurd hd (by simp [due])
    · exact Or.inr ⟨ha, hl, hn⟩
  | send m =>
    right
    show (send m s).2.alive = true ∧ (send m s).2.link = .closed ∧ next (send m s).2 = some d
    unfold send
    rw [if_pos (by rw [hc]; rfl)]
    exact ⟨ha, hl, hn⟩
  | destroy =>
    left
    exact ⟨[(s.now, .destroyed)], rfl, _, List.mem_cons_self, hle, Or.inr (Or.inr rfl)⟩

/-- A client without a connection acts by the time of its next attempt. -/
theorem run_next (cb : Bool) {s : St} (h : Inv s) (ha : s.alive = true) (hl : s.link = .closed) {d : Nat}
    (hn : next s = some d) (evs : List Ev) (ht : d < (run cb s evs).now) :
    ∃ new, (run cb s evs).log = new ++ s.log ∧ ∃ x ∈ new, Acts x d := by
  induction evs generalizing s with
  | nil =>
    exfalso
    have ht : d < s.now := ht
    unfold next at hn
    rcases h.closed hl with ⟨d', h1, h2, h3, h4⟩ | ⟨p, h1, h2, h3, h4⟩ | ⟨h1, h2, _⟩
    · rw [h1] at hn; cases hn; omega
    · rw [h1, h2] at hn
      dsimp only at hn
      split at hn <;> cases hn <;> omega
    · rw [h1, h2] at hn; cases hn
  | cons e evs ih =>
    have ht : d < (run cb (step cb s e) evs).now := ht
    show ∃ new, (run cb (step cb s e) evs).log = _ ∧ _
    obtain ⟨n2, h2⟩ := run_ext cb (step cb s e) evs
    rcases step_next cb h ha hl hn e with ⟨new, hnew, x, hx, hA⟩ | ⟨ha', hl', hn'⟩
    · exact ⟨n2 ++ new, by rw [h2, hnew, List.append_assoc], x, List.mem_append_right _ hx, hA⟩
    · obtain ⟨new, hnew, x, hx, hA⟩ := ih (step_inv cb h e) ha' hl' hn' ht
      obtain ⟨n1, h1⟩ := step_ext cb s e
      exact ⟨new ++ n1, by rw [hnew, h1, List.append_assoc], x, List.mem_append_left _ hx, hA⟩

/-! ## Time goes on -/

theorem wait_one (s : St) (h1 : due s s.ping = false) (h2 : due s s.conn = false) : s.now + 1 ≤ (wait 1 s).now := by
  unfold wait
  dsimp only
  cases hp : s.ping <;> cases hc : s.conn <;> dsimp only <;> simp [hp, hc, due] at h1 h2 <;> omega

theorem connect_refused (s : St) (hc : s.isConnected = false) :
    (connect (-111) s).2.now = s.now ∧ (connect (-111) s).2.ping = none ∧
    (connect (-111) s).2.conn = some (s.now + 1) ∧ (connect (-111) s).2.alive = s.alive := by
  unfold connect
  rw [if_neg (by rw [hc]; simp)]
  exact ⟨rfl, rfl, rfl, rfl⟩

/-- Serving the timers that are due lets time go on. -/
theorem serve (cb : Bool) {s : St} (h : Inv s) :
    ∃ evs, s.now + 1 ≤ (run cb s evs).now := by
  by_cases ha : s.alive = true
  · by_cases hp : due s s.ping = true
    · refine ⟨[.ping (-111), .wait 1], ?_⟩
      show s.now + 1 ≤ (step cb (step cb s (.ping (-111))) (.wait 1)).now
      have e : step cb s (.ping (-111)) = pingTimer (-111) s := by
        unfold step
        rw [if_neg (by rw [ha]; simp)]
        dsimp only
        rw [if_pos hp]
      rw [e]
      have hc : s.conn = none := by
        cases hl : s.link with
        | connecting => exact (h.connecting hl).1
        | up => exact (h.up hl).1
        | closed =>
          rcases h.closed hl with ⟨d', h1, h2, h3, h4⟩ | ⟨p, h1, h2, h3, h4⟩ | ⟨h1, h2, _⟩
          · rw [h2] at hp; exact absurd hp (by simp [due])
          · exact h2
          · exact h1
      have hw : step cb (pingTimer (-111) s) (.wait 1) = wait 1 (pingTimer (-111) s) := by
        unfold step; split <;> rfl
      rw [hw]
      unfold pingTimer
      dsimp only
      split
      · have := wait_one (startTest { s with ping := none }) (by show decide (s.now + 20 ≤ s.now) = false; simp) (by simp [due, startTest, hc])
        exact this
      · obtain ⟨q1, q2, q3, q4⟩ := connect_refused
          { ({ s with ping := none } : St).note .dropped with link := .closed, isConnected := false } rfl
        generalize (connect (-111) _).2 = c at q1 q2 q3 ⊢
        have := wait_one c (by rw [q2]; rfl) (by rw [q3, due, q1]; simp)
        rw [q1] at this
        exact this
    · by_cases hc : due s s.conn = true
      · have hl : s.link = .closed := by
          cases hk : s.link with
          | connecting => rw [(h.connecting hk).1] at hc; exact absurd hc (by simp [due])
          | up => rw [(h.up hk).1] at hc; exact absurd hc (by simp [due])
          | closed => rfl
        have hi : s.isConnected = false := by
          cases hk : s.isConnected with
          | false => rfl
          | true => exact absurd (hl.symm.trans ((h.conn ha).mp hk)) nofun
        refine ⟨[.conn .ok (-111), .wait 1], ?_⟩
        show s.now + 1 ≤ (step cb (step cb s (.conn .ok (-111))) (.wait 1)).now
        have e : step cb s (.conn .ok (-111)) = connTimer cb .ok (-111) s := by
          unfold step
          rw [if_neg (by rw [ha]; simp)]
          dsimp only
          rw [if_pos hc]
        rw [e]
        have hw : step cb (connTimer cb .ok (-111) s) (.wait 1) = wait 1 (connTimer cb .ok (-111) s) := by
          unfold step; split <;> rfl
        rw [hw]
        unfold connTimer
        dsimp only
        rw [if_neg (by rw [hi]; simp)]
        have key : ∀ s' : St, s'.isConnected = false → s'.now = s.now → s.now + 1 ≤ (wait 1 (connect (-111) s').2).now := by
          intro s' h1 h2
          obtain ⟨q1, q2, q3, q4⟩ := connect_refused s' h1
          generalize (connect (-111) _).2 = c at q1 q2 q3 ⊢
          have := wait_one c (by rw [q2]; rfl) (by rw [q3, due, q1]; simp)
          omega
        unfold tellDown
        split
        · exact key _ hi rfl
        · exact key _ hi rfl
      · refine ⟨[.wait 1], ?_⟩
        have hw : step cb s (.wait 1) = wait 1 s := by unfold step; split <;> rfl
        show _ ≤ (step cb s (.wait 1)).now
        rw [hw]
        exact wait_one s (by simpa using hp) (by simpa using hc)
  · refine ⟨[.wait 1], ?_⟩
    have hw : step cb s (.wait 1) = wait 1 s := by unfold step; split <;> rfl
    show _ ≤ (step cb s (.wait 1)).now
    rw [hw]
    obtain ⟨_, h2, h3⟩ := h.dead (by simpa using ha)
    exact wait_one s (by rw [h3]; rfl) (by rw [h2]; rfl)

theorem run_append (cb : Bool) (s : St) (a c : List Ev) : run cb s (a ++ c) = run cb (run cb s a) c :=
  List.foldl_append

/-- No state stops the clock. -/
theorem time_goes_on (cb : Bool) {s : St} (h : Inv s) (n : Nat) : ∃ evs, s.now + n ≤ (run cb s evs).now := by
  induction n with
  | zero => exact ⟨[], Nat.le_refl _⟩
  | succ n ih =>
    obtain ⟨evs, he⟩ := ih
    obtain ⟨evs', he'⟩ := serve cb (run_inv cb h evs)
    exact ⟨evs ++ evs', by rw [run_append]; omega⟩

/-! ## What is written -/

/-- The GSUP messages the `n`-th connection took, earliest first. -/
def wroteOn (n : Nat) (log : List (Nat × Obs)) : List Bytes :=
  log.reverse.filterMap fun x => match x.2 with
    | .wrote k (.gsup m) => if k = n then some m else none
    | _ => none

/-- The messages of the user accepted on the `n`-th connection, earliest first. -/
def acceptedOn (n : Nat) (log : List (Nat × Obs)) : List Bytes :=
  log.reverse.filterMap fun x => match x.2 with
    | .accepted k m => if k = n then some m else none
    | _ => none

/-- The GSUP messages in the transmit queue. -/
def gsups (q : List Frame) : List Bytes :=
  q.filterMap fun f => match f with
    | .gsup m => some m
    | _ => none

theorem gsups_append (p q : List Frame) : gsups (p ++ q) = gsups p ++ gsups q := List.filterMap_append

theorem wroteOn_cons (n : Nat) (x : Nat × Obs) (log : List (Nat × Obs)) :
    wroteOn n (x :: log) = wroteOn n log ++ wroteOn n [x] := by
  simp [wroteOn]
theorem acceptedOn_cons (n : Nat) (x : Nat × Obs) (log : List (Nat × Obs)) :
    acceptedOn n (x :: log) = acceptedOn n log ++ acceptedOn n [x] := by
  simp [acceptedOn]

/-- What was accepted on the present connection has been written or is waiting in the queue;
earlier connections got the first of the messages accepted on them; nothing is known of later
ones. -/
structure Stream (s : St) : Prop where
  cur : s.alive = true → wroteOn s.tries s.log ++ gsups s.queue = acceptedOn s.tries s.log
  all : ∀ n, wroteOn n s.log <+: acceptedOn n s.log
  later : ∀ n, s.tries < n → acceptedOn n s.log = [] ∧ wroteOn n s.log = []

/-- An observation that is neither an acceptance nor a write. -/
def plain : Obs → Bool
  | .accepted .. => false
  | .wrote .. => false
  | _ => true

theorem plain_nil {o : Obs} (h : plain o = true) (n t : Nat) : wroteOn n [(t, o)] = [] ∧ acceptedOn n [(t, o)] = [] := by
  cases o <;> first | exact ⟨rfl, rfl⟩ | cases h

theorem Stream.keep {s s' : St} (h : Stream s) (new : List (Nat × Obs)) (hl : s'.log = new ++ s.log)
    (hp : ∀ x ∈ new, plain x.2 = true) (ht : s'.tries = s.tries)
    (hq : s'.alive = true → s.alive = true ∧ gsups s'.queue = gsups s.queue) : Stream s' := by
  have hw : ∀ n, wroteOn n s'.log = wroteOn n s.log ∧ acceptedOn n s'.log = acceptedOn n s.log := by
    intro n
    rw [hl]
    clear hl
    induction new with
    | nil => exact ⟨rfl, rfl⟩
    | cons x new ih =>
      obtain ⟨i1, i2⟩ := ih (fun y hy => hp y (List.mem_cons_of_mem _ hy))
      obtain ⟨p1, p2⟩ := plain_nil (hp x List.mem_cons_self) n x.1
      rw [List.cons_append, wroteOn_cons, acceptedOn_cons, i1, i2, p1, p2]
      simp
  refine ⟨fun ha => ?_, fun n => ?_, fun n hn => ?_⟩
  · obtain ⟨h1, h2⟩ := hq ha
    rw [ht, (hw _).1, (hw _).2, h2]; exact h.cur h1
  · rw [(hw _).1, (hw _).2]; exact h.all n
  · rw [(hw _).1, (hw _).2]; exact h.later n (by rw [← ht]; exact hn)

theorem connect_stream (rc : Int) {s : St} (h : Stream s) (hc : s.isConnected = false) : Stream (connect rc s).2 := by
  have key : ∀ s' : St, s'.log = (s.now, .attempt (s.tries + 1) rc) :: s.log → s'.tries = s.tries + 1 → s'.queue = [] → Stream s' := by
    intro s' h1 h2 h3
    have hw : ∀ n, wroteOn n s'.log = wroteOn n s.log ∧ acceptedOn n s'.log = acceptedOn n s.log := by
      intro n
      rw [h1, wroteOn_cons, acceptedOn_cons]
      exact ⟨List.append_nil _, List.append_nil _⟩
    refine ⟨fun _ => ?_, fun n => ?_, fun n hn => ?_⟩
    · rw [h2, (hw _).1, (hw _).2, h3, (h.later _ (by omega)).1, (h.later _ (by omega)).2]; rfl
    · rw [(hw _).1, (hw _).2]; exact h.all n
    · rw [(hw _).1, (hw _).2]; exact h.later n (by omega)
  unfold connect
  rw [if_neg (by rw [hc]; simp)]
  dsimp only
  split
  · exact key _ rfl rfl rfl
  · split <;> exact key _ rfl rfl rfl

theorem destroy_stream {s : St} (h : Stream s) : Stream (destroy s) :=
  h.keep [(s.now, .destroyed)] rfl (by intro x hx; rcases List.mem_cons.mp hx with rfl | hx; rfl; cases hx) rfl nofun

theorem note_stream {s : St} (h : Stream s) {o : Obs} (ho : plain o = true) : Stream (s.note o) :=
  h.keep [(s.now, o)] rfl (by intro x hx; rcases List.mem_cons.mp hx with rfl | hx; exact ho; cases hx) rfl (fun h => ⟨h, rfl⟩)

theorem same_stream {s s' : St} (h : Stream s) (h1 : s'.log = s.log) (h2 : s'.tries = s.tries) (h3 : s'.alive = s.alive)
    (h4 : gsups s'.queue = gsups s.queue) : Stream s' :=
  h.keep [] h1 nofun h2 (fun h => ⟨by rw [← h3]; exact h, h4⟩)

theorem tellDown_stream (cb : Bool) (a : Answer) {s : St} (f : St → St) (h : Stream s) (hc : s.isConnected = false)
    (hf : ∀ s, Stream s → s.isConnected = false → Stream (f s)) : Stream (tellDown cb a s f) := by
  unfold tellDown
  split
  · exact hf s h hc
  · dsimp only
    cases a
    · exact hf _ (note_stream h rfl) hc
    · exact note_stream (note_stream h rfl) rfl
    · exact destroy_stream (note_stream h rfl)

theorem step_stream (cb : Bool) {s : St} (h : Stream s) (e : Ev) : Stream (step cb s e) := by
  unfold step
  split
  · cases e <;> first | exact same_stream h rfl rfl rfl rfl | exact h
  · rename_i ha
    have ha : s.alive = true := by simpa using ha
    cases e with
    | wait d => exact same_stream h rfl rfl rfl rfl
    | established reg a =>
      dsimp only
      split
      · unfold linkUp
        have h0 := note_stream h (o := .established) rfl
        cases reg <;> dsimp only <;> split
        · exact same_stream h0 rfl rfl rfl (by simp [startTest, gsups_append, gsups, St.note])
        · have h1 : Stream (({ startTest { s.note .established with link := .up, isConnected := true } with conn := none } : St).note (.told true)) :=
            by
              refine note_stream (o := .told true) ?_ rfl
              exact same_stream h0 rfl rfl rfl (by simp [startTest, gsups_append, gsups, St.note])
          cases a <;> first | exact h1 | exact destroy_stream h1
        · exact same_stream h0 rfl rfl rfl (by simp [startTest, gsups_append, gsups, St.note])
        · rename_i m _
          have h1 : Stream (({ startTest { s.note .established with link := .up, isConnected := true } with
              queue := (startTest { s.note .established with link := .up, isConnected := true }).queue ++ [Frame.oap m], conn := none } : St).note (.told true)) :=
            by
              refine note_stream (o := .told true) ?_ rfl
              exact same_stream h0 rfl rfl rfl (by simp [startTest, gsups_append, gsups, St.note])
          cases a <;> first | exact h1 | exact destroy_stream h1
      · exact h
    | lost a =>
      dsimp only
      split
      · exact h
      · unfold linkDown
        refine tellDown_stream cb a _ (same_stream (note_stream h (o := .lost) rfl) rfl rfl rfl rfl) rfl ?_
        intro s h _
        exact same_stream h rfl rfl rfl rfl
    | frame p d c o =>
      dsimp only
      split
      · unfold read
        split
        · cases c with
          | bad => exact same_stream (note_stream h (o := .dropped) rfl) rfl rfl rfl rfl
          | handled reply =>
            cases reply <;> dsimp only <;> split
            · exact same_stream (note_stream h (o := .pong) rfl) rfl rfl rfl rfl
            · exact h
            · exact same_stream (note_stream h (o := .pong) rfl) rfl rfl rfl (by simp [gsups_append, gsups, St.note])
            · exact same_stream h rfl rfl rfl (by simp [gsups_append, gsups])
        · split
          · exact h
          · cases d with
            | nil => exact h
            | cons x m =>
              dsimp only
              split
              · exact note_stream h rfl
              · split
                · cases o
                  · exact h
                  · exact same_stream h rfl rfl rfl (by simp [gsups_append, gsups])
                · exact h
      · exact h
    | writable =>
      dsimp only
      split
      · rename_i f q hl hq
        have hcur := h.cur ha
        rw [hq] at hcur
        -- what one frame adds
        have hone : wroteOn s.tries [(s.now, .wrote s.tries f)] = gsups [f] := by
          cases f <;> simp [wroteOn, gsups]
        have hother : ∀ n, n ≠ s.tries → wroteOn n [(s.now, .wrote s.tries f)] = [] := by
          intro n hn
          cases f <;> simp [wroteOn, Ne.symm hn]
        have hacc : ∀ n, acceptedOn n ((s.now, .wrote s.tries f) :: s.log) = acceptedOn n s.log := by
          intro n
          rw [acceptedOn_cons]; exact List.append_nil _
        have hfq : gsups (f :: q) = gsups [f] ++ gsups q := gsups_append [f] q
        rw [hfq] at hcur
        refine ⟨fun _ => ?_, fun n => ?_, fun n hn => ?_⟩
        · show wroteOn s.tries ((s.now, .wrote s.tries f) :: s.log) ++ gsups q = acceptedOn s.tries ((s.now, .wrote s.tries f) :: s.log)
          rw [hacc, wroteOn_cons, hone, List.append_assoc]; exact hcur
        · show wroteOn n ((s.now, .wrote s.tries f) :: s.log) <+: acceptedOn n ((s.now, .wrote s.tries f) :: s.log)
          rw [hacc, wroteOn_cons]
          by_cases hn : n = s.tries
          · subst hn
            rw [hone, ← hcur, ← List.append_assoc]
            exact List.prefix_append _ _
          · rw [hother n hn, List.append_nil]; exact h.all n
        · show acceptedOn n ((s.now, .wrote s.tries f) :: s.log) = [] ∧ wroteOn n ((s.now, .wrote s.tries f) :: s.log) = []
          have hn : s.tries < n := hn
          rw [hacc, wroteOn_cons, hother n (by omega), List.append_nil]
          exact h.later n hn
      · exact h
    | ping rc =>
      dsimp only
      split
      · unfold pingTimer
        dsimp only
        split
        · exact same_stream h rfl rfl rfl (by simp [startTest, gsups_append, gsups])
        · exact connect_stream rc (same_stream (note_stream h (o := .dropped) rfl) rfl rfl rfl rfl) rfl
      · exact h
    | conn a rc =>
      dsimp only
      split
      · unfold connTimer
        dsimp only
        split
        · exact same_stream h rfl rfl rfl rfl
        · rename_i hc
          exact tellDown_stream cb a _ (same_stream h rfl rfl rfl rfl) (by simpa using hc)
            (fun s h hc => connect_stream rc h hc)
      · exact h
    | send m =>
      show Stream (send m s).2
      unfold send
      split
      · exact note_stream h rfl
      · have hw : ∀ n, wroteOn n ((s.now, .accepted s.tries m) :: s.log) = wroteOn n s.log := by
          intro n
          rw [wroteOn_cons]; exact List.append_nil _
        have ha1 : acceptedOn s.tries ((s.now, .accepted s.tries m) :: s.log) = acceptedOn s.tries s.log ++ [m] := by
          rw [acceptedOn_cons]; simp [acceptedOn]
        have ha2 : ∀ n, n ≠ s.tries → acceptedOn n ((s.now, .accepted s.tries m) :: s.log) = acceptedOn n s.log := by
          intro n hn
          rw [acceptedOn_cons]; simp [acceptedOn, Ne.symm hn]
        refine ⟨fun _ => ?_, fun n => ?_, fun n hn => ?_⟩
        · show wroteOn s.tries ((s.now, .accepted s.tries m) :: s.log) ++ gsups (s.queue ++ [.gsup m]) =
            acceptedOn s.tries ((s.now, .accepted s.tries m) :: s.log)
          rw [hw, ha1, gsups_append, ← List.append_assoc, h.cur ha]; rfl
        · show wroteOn n ((s.now, .accepted s.tries m) :: s.log) <+: acceptedOn n ((s.now, .accepted s.tries m) :: s.log)
          rw [hw]
          by_cases hn : n = s.tries
          · subst hn; rw [ha1]; exact (h.all _).trans (List.prefix_append _ _)
          · rw [ha2 n hn]; exact h.all n
        · show acceptedOn n ((s.now, .accepted s.tries m) :: s.log) = [] ∧ wroteOn n ((s.now, .accepted s.tries m) :: s.log) = []
          have hn : s.tries < n := hn
          rw [hw, ha2 n (by omega)]; exact h.later n hn
    | destroy => exact destroy_stream h

theorem run_stream (cb : Bool) {s : St} (h : Stream s) (evs : List Ev) : Stream (run cb s evs) := by
  induction evs generalizing s with
  | nil => exact h
  | cons e evs ih => exact ih (step_stream cb h e)

theorem create_stream {t : Nat} {rc : Int} {s : St} (h : create t rc = some s) : Stream s := by
  unfold create at h
  dsimp only at h
  split at h
  · cases h
  · cases h; exact connect_stream rc ⟨fun _ => rfl, fun _ => List.prefix_refl _, fun _ _ => ⟨rfl, rfl⟩⟩ rfl

end Verif.Client
