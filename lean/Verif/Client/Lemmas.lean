import Verif.Client.Model
/-!
# The GSUP client: invariants of its timers and its link
-/
namespace Verif.Client
open Verif

/-! ## The log only grows -/

/-- `s'` continues the history of `s`. -/
def Ext (s s' : St) : Prop := ∃ new, s'.log = new ++ s.log

theorem Ext.refl (s : St) : Ext s s := ⟨[], rfl⟩
theorem Ext.trans {a c d : St} (h : Ext a c) (h' : Ext c d) : Ext a d := by
  obtain ⟨x, hx⟩ := h; obtain ⟨y, hy⟩ := h'
  exact ⟨y ++ x, by rw [hy, hx, List.append_assoc]⟩
theorem Ext.note {a c : St} (h : Ext a c) (o : Obs) : Ext a (c.note o) :=
  h.trans ⟨[(c.now, o)], rfl⟩
theorem Ext.of_log {a c : St} (h : c.log = a.log) : Ext a c := ⟨[], by rw [h]; rfl⟩

theorem connect_ext (rc : Int) (s : St) : Ext s (connect rc s).2 := by
  unfold connect
  split
  · exact Ext.refl s
  · dsimp only
    split
    · exact ⟨[_], rfl⟩
    · split <;> exact ⟨[_], rfl⟩

theorem tellDown_ext (cb : Bool) (a : Answer) (s : St) (f : St → St) (hf : ∀ s, Ext s (f s)) :
    Ext s (tellDown cb a s f) := by
  unfold tellDown
  split
  · exact hf s
  · dsimp only
    cases a
    · exact ((Ext.refl s).note _).trans (hf _)
    · exact ((Ext.refl s).note _).note _
    · exact ((Ext.refl s).note _).trans ⟨[_], rfl⟩

theorem step_ext (cb : Bool) (s : St) (e : Ev) : Ext s (step cb s e) := by
  unfold step
  split
  · cases e <;> exact Ext.of_log rfl
  · cases e with
    | wait d => exact Ext.of_log rfl
    | established reg a =>
      dsimp only
      split
      · unfold linkUp
        dsimp only
        cases reg <;> dsimp only <;> (split; · exact ⟨[_], rfl⟩) <;> cases a <;>
          first | exact ⟨[_, _], rfl⟩ | exact ⟨[_, _, _], rfl⟩
      · exact Ext.refl s
    | lost a =>
      dsimp only
      split
      · exact Ext.refl s
      · unfold linkDown
        exact Ext.trans ⟨[_], rfl⟩ (tellDown_ext cb a _ _ (fun s => Ext.of_log rfl))
    | frame p d c o =>
      dsimp only
      split
      · unfold read
        split
        · cases c with
          | bad => exact ⟨[_], rfl⟩
          | handled reply =>
            cases reply <;> dsimp only <;> split <;> first | exact ⟨[_], rfl⟩ | exact ⟨[], rfl⟩
        · split
          · exact Ext.refl s
          · cases d with
            | nil => exact Ext.refl s
            | cons x m =>
              dsimp only
              split
              · exact ⟨[_], rfl⟩
              · split
                · cases o <;> exact ⟨[], rfl⟩
                · exact Ext.refl s
      · exact Ext.refl s
    | writable =>
      dsimp only
      split
      · exact ⟨[_], rfl⟩
      · exact Ext.refl s
    | ping rc =>
      dsimp only
      split
      · unfold pingTimer
        dsimp only
        split
        · exact ⟨[], rfl⟩
        · exact Ext.trans ⟨[_], rfl⟩ (connect_ext rc _)
      · exact Ext.refl s
    | conn a rc =>
      dsimp only
      split
      · unfold connTimer
        dsimp only
        split
        · exact ⟨[], rfl⟩
        · exact Ext.trans ⟨[], rfl⟩ (tellDown_ext cb a _ _ (connect_ext rc))
      · exact Ext.refl s
    | send m =>
      show Ext s (send m s).2
      unfold send
      split <;> exact ⟨[_], rfl⟩
    | destroy => exact ⟨[_], rfl⟩

theorem run_ext (cb : Bool) (s : St) (evs : List Ev) : Ext s (run cb s evs) := by
  induction evs generalizing s with
  | nil => exact Ext.refl s
  | cons e evs ih => exact (step_ext cb s e).trans (ih _)

/-! ## Timers and link -/

/-- `ipa_client_conn_open` failed for a reason the client takes as final, or the user asked
not to retry. -/
def Ended (log : List (Nat × Obs)) : Prop :=
  ∃ x ∈ log, x.2 = .stop ∨ ∃ n rc, x.2 = .attempt n rc ∧ fatal rc = true

theorem Ended.mono {s s' : St} (h : Ext s s') (e : Ended s.log) : Ended s'.log := by
  obtain ⟨new, hn⟩ := h
  obtain ⟨x, hx, hp⟩ := e
  exact ⟨x, by rw [hn]; exact List.mem_append_right _ hx, hp⟩

/-- A sign of life of the peer on the present connection, at time `t`. -/
def Sign (log : List (Nat × Obs)) (t : Nat) : Prop :=
  ∃ newer o older, log = newer ++ (t, o) :: older ∧ (o = .established ∨ o = .pong) ∧
    ∀ x ∈ newer, x.2 ≠ .lost ∧ x.2 ≠ .dropped ∧ ∀ n rc, x.2 ≠ .attempt n rc

/-- The timers and the link of a client. -/
structure Inv (s : St) : Prop where
  up : s.link = .up → s.conn = none ∧ ∃ p, s.ping = some p ∧ s.now ≤ p ∧ p ≤ s.now + 20 ∧
    ∃ t, Sign s.log t ∧ p ≤ t + (if s.gotPong then 20 else 40)
  conn : s.alive = true → (s.isConnected = true ↔ s.link = .up)
  connecting : s.link = .connecting → s.conn = none ∧ s.ping = none ∧ s.queue = []
  closed : s.link = .closed → (∃ d, s.conn = some d ∧ s.ping = none ∧ s.now ≤ d ∧ d ≤ s.now + 1) ∨
    (∃ p, s.ping = some p ∧ s.conn = none ∧ s.now ≤ p ∧ p ≤ s.now + 20) ∨
    (s.conn = none ∧ s.ping = none ∧ (s.alive = false ∨ Ended s.log))
  dead : s.alive = false → s.link = .closed ∧ s.conn = none ∧ s.ping = none

theorem Sign.note {s : St} {t : Nat} (h : Sign s.log t) {o : Obs} (h1 : o ≠ .lost) (h2 : o ≠ .dropped)
    (h3 : ∀ n rc, o ≠ .attempt n rc) : Sign (s.note o).log t := by
  obtain ⟨newer, o', older, hl, ho, hn⟩ := h
  refine ⟨(s.now, o) :: newer, o', older, ?_, ho, ?_⟩
  · show _ :: s.log = _
    rw [hl]; rfl
  · intro x hx
    rcases List.mem_cons.mp hx with rfl | hx
    · exact ⟨h1, h2, h3⟩
    · exact hn x hx

/-- A connection attempt from a state that is not connected establishes the invariant. -/
theorem connect_inv (rc : Int) (s : St) (ha : s.alive = true) (hc : s.isConnected = false)
    (hl : s.link = .closed) : Inv (connect rc s).2 := by
  unfold connect
  rw [if_neg (by rw [hc]; simp)]
  dsimp only
  split
  · refine ⟨nofun, fun _ => ?_, fun _ => ⟨rfl, rfl, rfl⟩, nofun, fun h => ?_⟩
    · show s.isConnected = true ↔ _
      rw [hc]; exact ⟨nofun, nofun⟩
    · exact absurd (ha.symm.trans h) nofun
  · split
    · rename_i hf
      refine ⟨fun h => ?_, fun _ => ?_, fun h => ?_, fun _ => Or.inr (Or.inr ⟨rfl, rfl, Or.inr ?_⟩), fun h => ?_⟩
      · exact absurd (hl.symm.trans h) nofun
      · show s.isConnected = true ↔ s.link = _
        rw [hc, hl]; exact ⟨nofun, nofun⟩
      · exact absurd (hl.symm.trans h) nofun
      · exact ⟨_, List.mem_cons_self, Or.inr ⟨_, rc, rfl, hf⟩⟩
      · exact absurd (ha.symm.trans h) nofun
    · refine ⟨fun h => ?_, fun _ => ?_, fun h => ?_, fun _ => Or.inl ⟨_, rfl, rfl, ?_, ?_⟩, fun h => ?_⟩
      · exact absurd (hl.symm.trans h) nofun
      · show s.isConnected = true ↔ s.link = _
        rw [hc, hl]; exact ⟨nofun, nofun⟩
      · exact absurd (hl.symm.trans h) nofun
      · show s.now ≤ s.now + 1; omega
      · show s.now + 1 ≤ s.now + 1; omega
      · exact absurd (ha.symm.trans h) nofun

theorem destroy_inv (s : St) : Inv (destroy s) :=
  ⟨nofun, nofun, nofun, fun _ => Or.inr (Or.inr ⟨rfl, rfl, Or.inl rfl⟩), fun _ => ⟨rfl, rfl, rfl⟩⟩

theorem tellDown_inv (cb : Bool) (a : Answer) (s : St) (f : St → St) (ha : s.alive = true)
    (hc : s.isConnected = false) (hl : s.link = .closed) (hp : s.ping = none) (hcn : s.conn = none)
    (hf : ∀ s : St, s.alive = true → s.isConnected = false → s.link = .closed → s.ping = none → Inv (f s)) :
    Inv (tellDown cb a s f) := by
  unfold tellDown
  split
  · exact hf s ha hc hl hp
  · dsimp only
    cases a
    · exact hf _ ha hc hl hp
    · refine ⟨fun h => ?_, fun _ => ?_, fun h => ?_, fun _ => Or.inr (Or.inr ⟨hcn, hp, Or.inr ?_⟩), fun h => ?_⟩
      · exact absurd (hl.symm.trans h) nofun
      · show s.isConnected = true ↔ s.link = _
        rw [hc, hl]; exact ⟨nofun, nofun⟩
      · exact absurd (hl.symm.trans h) nofun
      · exact ⟨_, List.mem_cons_self, Or.inl rfl⟩
      · exact absurd (ha.symm.trans h) nofun
    · exact destroy_inv _

/-- Changes that leave timers and link alone keep the invariant. -/
theorem Inv.keep {s s' : St} (h : Inv s) (h1 : s'.now = s.now) (h2 : s'.alive = s.alive) (h3 : s'.link = s.link)
    (h4 : s'.isConnected = s.isConnected) (h5 : s'.gotPong = s.gotPong) (h6 : s'.ping = s.ping)
    (h7 : s'.conn = s.conn) (h8 : s.link = .connecting → s'.queue = s.queue) (hx : Ext s s')
    (hs : s.link = .up → ∀ t, Sign s.log t → Sign s'.log t) : Inv s' := by
  refine ⟨fun hu => ?_, fun ha => ?_, fun hc => ?_, fun hc => ?_, fun ha => ?_⟩
  · rw [h3] at hu
    obtain ⟨hc, p, hp, h9, h10, t, ht, h11⟩ := h.up hu
    exact ⟨by rw [h7]; exact hc, p, by rw [h6]; exact hp, by rw [h1]; exact h9, by rw [h1]; exact h10, t, hs hu t ht,
      by rw [h5]; exact h11⟩
  · rw [h2] at ha
    rw [h4, h3]; exact h.conn ha
  · rw [h3] at hc
    rw [h7, h6, h8 hc]; exact h.connecting hc
  · rw [h3] at hc
    rw [h7, h6, h1, h2]
    rcases h.closed hc with h | h | ⟨h, h', h''⟩
    · exact Or.inl h
    · exact Or.inr (Or.inl h)
    · exact Or.inr (Or.inr ⟨h, h', h''.imp id (Ended.mono hx)⟩)
  · rw [h2] at ha
    rw [h3, h7, h6]; exact h.dead ha

theorem wait_now (d : Nat) (s : St) : s.now ≤ (wait d s).now ∧ (∀ p, s.ping = some p → s.now ≤ p → (wait d s).now ≤ p) ∧
    (∀ p, s.conn = some p → s.now ≤ p → (wait d s).now ≤ p) := by
  unfold wait
  dsimp only
  refine ⟨by omega, fun p hp h => ?_, fun p hp h => ?_⟩
  · rw [hp]; dsimp only
    cases s.conn <;> dsimp only <;> omega
  · rw [hp]; dsimp only
    cases s.ping <;> dsimp only <;> omega

theorem wait_inv (d : Nat) {s : St} (h : Inv s) : Inv (wait d s) := by
  obtain ⟨w1, w2, w3⟩ := wait_now d s
  refine ⟨fun hu => ?_, h.conn, h.connecting, fun hc => ?_, h.dead⟩
  · obtain ⟨hc, p, hp, h9, h10, r⟩ := h.up hu
    exact ⟨hc, p, hp, w2 p hp h9, by omega, r⟩
  · rcases h.closed hc with ⟨d', h1, h2, h3, h4⟩ | ⟨p, h1, h2, h3, h4⟩ | h
    · exact Or.inl ⟨d', h1, h2, w3 d' h1 h3, by omega⟩
    · exact Or.inr (Or.inl ⟨p, h1, h2, w2 p h1 h3, by omega⟩)
    · exact Or.inr (Or.inr h)

theorem pingTimer_inv (rc : Int) {s : St} (h : Inv s) (ha : s.alive = true) (hd : due s s.ping = true) :
    Inv (pingTimer rc s) := by
  unfold pingTimer
  dsimp only
  split
  · rename_i hg
    unfold startTest
    refine ⟨fun hu => ?_, h.conn, fun hc => ?_, fun hc => ?_, fun ha' => ?_⟩
    · obtain ⟨hc, p, hp, h9, h10, t, ht, h11⟩ := h.up hu
      rw [hp] at hd
      have hd : p ≤ s.now := by simpa [due] using hd
      rw [if_pos hg] at h11
      refine ⟨hc, s.now + 20, rfl, Nat.le_add_right _ _, Nat.le_refl _, t, ht, ?_⟩
      show s.now + 20 ≤ t + 40
      omega
    · have := (h.connecting hc).2.1
      rw [this] at hd
      exact absurd hd (by simp [due])
    · rcases h.closed hc with ⟨d', h1, h2, h3, h4⟩ | ⟨p, h1, h2, h3, h4⟩ | ⟨h1, h2, h3⟩
      · rw [h2] at hd; exact absurd hd (by simp [due])
      · exact Or.inr (Or.inl ⟨s.now + 20, rfl, h2, Nat.le_add_right _ _, Nat.le_refl _⟩)
      · rw [h2] at hd; exact absurd hd (by simp [due])
    · exact absurd (ha.symm.trans ha') nofun
  · exact connect_inv rc _ ha rfl rfl

theorem linkUp_inv (cb : Bool) (reg : Option Bytes) (a : Answer) {s : St} (ha : s.alive = true) :
    Inv (linkUp cb reg a s) := by
  have key : ∀ s' : St, s'.now = s.now → s'.alive = true → s'.link = .up → s'.isConnected = true →
      s'.ping = some (s.now + 20) → s'.conn = none → Sign s'.log s.now → Inv s' := by
    intro s' h1 h2 h3 h4 h5 h6 h7
    refine ⟨fun _ => ⟨h6, s.now + 20, h5, by omega, by omega, s.now, h7, by split <;> omega⟩, fun _ => by rw [h3, h4]; simp,
      fun h => ?_, fun h => ?_, fun h => ?_⟩
    · exact absurd (h3.symm.trans h) nofun
    · exact absurd (h3.symm.trans h) nofun
    · exact absurd (h2.symm.trans h) nofun
  unfold linkUp
  have hs0 : Sign ((s.now, Obs.established) :: s.log) s.now := ⟨[], _, s.log, rfl, Or.inl rfl, nofun⟩
  have hs1 : Sign ((s.now, Obs.told true) :: (s.now, Obs.established) :: s.log) s.now :=
    ⟨[(s.now, Obs.told true)], _, s.log, rfl, Or.inl rfl, by
      intro x hx
      rcases List.mem_cons.mp hx with rfl | hx
      · exact ⟨nofun, nofun, nofun⟩
      · cases hx⟩
  cases reg <;> dsimp only <;> split <;>
    first
    | exact key _ rfl ha rfl rfl rfl rfl hs0
    | (cases a <;> first | exact destroy_inv _ | exact key _ rfl ha rfl rfl rfl rfl hs1)

theorem linkDown_inv (cb : Bool) (a : Answer) {s : St} (ha : s.alive = true) (hcn : s.conn = none) :
    Inv (linkDown cb a s) := by
  unfold linkDown
  refine tellDown_inv cb a _ _ ha rfl rfl rfl hcn ?_
  intro s ha hc hl hp
  refine ⟨fun h => ?_, fun _ => ?_, fun h => ?_, fun _ => Or.inl ⟨_, rfl, hp, Nat.le_add_right _ _, Nat.le_refl _⟩, fun h => ?_⟩
  · exact absurd (hl.symm.trans h) nofun
  · show s.isConnected = true ↔ s.link = _
    rw [hc, hl]; exact ⟨nofun, nofun⟩
  · exact absurd (hl.symm.trans h) nofun
  · exact absurd (ha.symm.trans h) nofun

theorem read_inv (p : UInt8) (d : Bytes) (c : Ccm) (o : Option Bytes) {s : St} (h : Inv s) (ha : s.alive = true)
    (hu : s.link = .up) : Inv (read p d c o s) := by
  have hnc : s.link ≠ .connecting := by rw [hu]; exact nofun
  have same : ∀ s' : St, s'.now = s.now → s'.alive = s.alive → s'.link = s.link → s'.isConnected = s.isConnected →
      s'.gotPong = s.gotPong → s'.ping = s.ping → s'.conn = s.conn → s'.log = s.log → Inv s' := by
    intro s' h1 h2 h3 h4 h5 h6 h7 h8
    exact h.keep h1 h2 h3 h4 h5 h6 h7 (fun h => absurd h hnc) (Ext.of_log h8) (fun _ t ht => by rw [h8]; exact ht)
  unfold read
  split
  · cases c with
    | bad =>
      obtain ⟨hc, p, hp, h9, h10, _⟩ := h.up hu
      exact ⟨nofun, fun _ => ⟨nofun, nofun⟩, nofun, fun _ => Or.inr (Or.inl ⟨p, hp, hc, h9, h10⟩),
        fun h => absurd (ha.symm.trans h) nofun⟩
    | handled reply =>
      have pongInv : ∀ s' : St, s'.now = s.now → s'.alive = s.alive → s'.link = s.link → s'.isConnected = s.isConnected →
          s'.gotPong = true → s'.ping = s.ping → s'.conn = s.conn → s'.log = (s.now, Obs.pong) :: s.log → Inv s' := by
        intro s' h1 h2 h3 h4 h5 h6 h7 h8
        obtain ⟨hc, p, hp, h9, h10, _⟩ := h.up hu
        refine ⟨fun _ => ⟨h7.trans hc, p, h6.trans hp, by omega, by omega, s.now, ?_, ?_⟩, fun _ => ?_, fun h => ?_, fun h => ?_, fun h => ?_⟩
        · rw [h8]; exact ⟨[], _, s.log, rfl, Or.inr rfl, nofun⟩
        · rw [if_pos h5]; omega
        · rw [h4, h3]; exact h.conn ha
        · exact absurd (hu.symm.trans (h3.symm.trans h)) nofun
        · exact absurd (hu.symm.trans (h3.symm.trans h)) nofun
        · exact absurd (ha.symm.trans (h2.symm.trans h)) nofun
      cases reply <;> dsimp only <;> split <;>
        first | exact pongInv _ rfl rfl rfl rfl rfl rfl rfl rfl | exact same _ rfl rfl rfl rfl rfl rfl rfl rfl
  · split
    · exact h
    · cases d with
      | nil => exact h
      | cons x m =>
        dsimp only
        split
        · exact h.keep rfl rfl rfl rfl rfl rfl rfl (fun _ => rfl) ⟨[_], rfl⟩
            (fun _ t ht => ht.note nofun nofun nofun)
        · split
          · cases o <;> exact same _ rfl rfl rfl rfl rfl rfl rfl rfl
          · exact h

theorem step_inv (cb : Bool) {s : St} (h : Inv s) (e : Ev) : Inv (step cb s e) := by
  unfold step
  split
  · cases e <;> first | exact wait_inv _ h | exact h
  · rename_i ha
    have ha : s.alive = true := by simpa using ha
    cases e with
    | wait d => exact wait_inv d h
    | established reg a =>
      dsimp only
      split
      · exact linkUp_inv cb reg a ha
      · exact h
    | lost a =>
      dsimp only
      split
      · exact h
      · rename_i hl
        refine linkDown_inv cb a ha ?_
        cases hk : s.link with
        | closed => exact absurd hk hl
        | connecting => exact (h.connecting hk).1
        | up => exact (h.up hk).1
    | frame p d c o =>
      dsimp only
      split
      · rename_i hu; exact read_inv p d c o h ha hu
      · exact h
    | writable =>
      dsimp only
      split
      · rename_i f q hl hq
        exact h.keep rfl rfl rfl rfl rfl rfl rfl (fun h => absurd (hl.symm.trans h) nofun) ⟨[_], rfl⟩
          (fun _ t ht => ht.note nofun nofun nofun)
      · exact h
    | ping rc =>
      dsimp only
      split
      · rename_i hd; exact pingTimer_inv rc h ha hd
      · exact h
    | conn a rc =>
      dsimp only
      split
      · rename_i hd
        have hl : s.link = .closed ∧ s.ping = none := by
          cases hk : s.link with
          | connecting => rw [(h.connecting hk).1] at hd; exact absurd hd (by simp [due])
          | up => rw [(h.up hk).1] at hd; exact absurd hd (by simp [due])
          | closed =>
            rcases h.closed hk with ⟨d', h1, h2, _⟩ | ⟨p, h1, h2, _⟩ | ⟨h1, h2, h3⟩
            · exact ⟨rfl, h2⟩
            · rw [h2] at hd; exact absurd hd (by simp [due])
            · rw [h1] at hd; exact absurd hd (by simp [due])
        have hc : s.isConnected = false := by
          cases hk : s.isConnected with
          | false => rfl
          | true => exact absurd (hl.1.symm.trans ((h.conn ha).mp hk)) nofun
        unfold connTimer
        dsimp only
        rw [if_neg (by rw [hc]; simp)]
        refine tellDown_inv cb a _ _ ha hc hl.1 hl.2 rfl ?_
        intro s ha hc hl _
        exact connect_inv rc s ha hc hl
      · exact h
    | send m =>
      show Inv (send m s).2
      unfold send
      split
      · exact h.keep rfl rfl rfl rfl rfl rfl rfl (fun _ => rfl) ⟨[_], rfl⟩ (fun _ t ht => ht.note nofun nofun nofun)
      · rename_i hc
        have hu : s.link = .up := (h.conn ha).mp (by simpa using hc)
        exact h.keep rfl rfl rfl rfl rfl rfl rfl (fun h => absurd (hu.symm.trans h) nofun) ⟨[_], rfl⟩
          (fun _ t ht => ht.note nofun nofun nofun)
    | destroy => exact destroy_inv s

theorem run_inv (cb : Bool) {s : St} (h : Inv s) (evs : List Ev) : Inv (run cb s evs) := by
  induction evs generalizing s with
  | nil => exact h
  | cons e evs ih => exact ih (step_inv cb h e)

theorem create_inv {t : Nat} {rc : Int} {s : St} (h : create t rc = some s) : Inv s := by
  unfold create at h
  dsimp only at h
  split at h
  · cases h
  · cases h; exact connect_inv rc _ rfl rfl rfl

end Verif.Client
