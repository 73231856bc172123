import Verif.Stop.Model
import Verif.Sys.Spec
/-!
# C87: osmo-hlr ends when told to, and only after finishing what it has begun
-/
namespace Verif.Stop

variable {σ ε : Type}

/-! ## Specification -/

/-- Somebody has told the program to end. -/
def Spec.Asked (as : List (Act ε)) : Prop := .sig .term ∈ as ∨ .sig .int ∈ as

/-- All events that happened. -/
def Spec.happened : List (Act ε) → List ε
  | [] => []
  | .io evs :: as => evs ++ happened as
  | _ :: as => happened as

/-- How often the program gets to do a step. -/
def Spec.goes : List (Act ε) → Nat
  | [] => 0
  | .go :: as => goes as + 1
  | _ :: as => goes as

/-- How many steps the program needs to end: those for the events it has taken up, and for the end itself. -/
def Spec.left : Phase ε → Nat
  | .handling evs => evs.length + 6
  | .stopMdns => 4
  | .stopGsup => 3
  | .closeDb => 2
  | .finish => 1
  | .exited _ => 0
  | _ => 5

/-! ## What holds at every moment -/

/-- The events taken up but not yet handled. -/
def pending : Phase ε → List ε
  | .handling evs => evs
  | _ => []

/-- What is closed where. -/
def Closed (s : St σ ε) : Prop :=
  match s.phase with
  | .stopGsup => s.mdns = false ∧ s.gsup = true ∧ s.db = true
  | .closeDb => s.mdns = false ∧ s.gsup = false ∧ s.db = true
  | .finish => s.mdns = false ∧ s.gsup = false ∧ s.db = false
  | .exited c => s.mdns = false ∧ s.gsup = false ∧ s.db = false ∧ c = 0
  | .killed => True
  | _ => s.mdns = true ∧ s.gsup = true ∧ s.db = true

structure Inv (handle : σ → ε → σ) (σ0 : σ) (s : St σ ε) : Prop where
  done : ∃ l, s.sys = l.foldl handle σ0 ∧ (s.phase ≠ .killed → s.took = l ++ pending s.phase) ∧ l <+: s.took
  closed : Closed s
  quit : s.phase = .stopMdns ∨ s.phase = .stopGsup ∨ s.phase = .closeDb ∨ s.phase = .finish ∨ s.phase = .exited 0 → 0 < s.quit

theorem signal_cases (s : St σ ε) (g : Sig) :
    ((signal s g).sys = s.sys ∧ (signal s g).took = s.took ∧ (signal s g).mdns = s.mdns ∧ (signal s g).gsup = s.gsup ∧ (signal s g).db = s.db
      ∧ (s.quit ≤ (signal s g).quit) ∧ (s.quit < (signal s g).quit → g = .term ∨ g = .int))
    ∧ ((signal s g).phase = .killed ∨ (signal s g).phase = s.phase ∨ s.phase = .waiting ∧ (signal s g).phase = .check) := by
  obtain ⟨phase, quit, sys, mdns, gsup, db, took⟩ := s
  cases phase <;> cases g <;> simp [signal, Phase.live]

theorem step_inv {handle : σ → ε → σ} {σ0 : σ} {s : St σ ε} (h : Inv handle σ0 s) (a : Act ε) : Inv handle σ0 (step handle s a) := by
  obtain ⟨⟨l, h1, h2, h3⟩, hc, hq⟩ := h
  cases a with
  | sig g =>
    obtain ⟨⟨e1, e2, e3, e4, e5, e6, -⟩, hp⟩ := signal_cases s g
    show Inv handle σ0 (signal s g)
    rcases hp with hp | hp | ⟨hw, hp⟩
    · refine ⟨⟨l, e1 ▸ h1, fun hn => absurd hp hn, e2 ▸ h3⟩, ?_, ?_⟩
      · unfold Closed; rw [hp]; trivial
      · rw [hp]; intro h; simp at h
    · refine ⟨⟨l, e1 ▸ h1, ?_, e2 ▸ h3⟩, ?_, ?_⟩
      · rw [hp, e2]; exact h2
      · unfold Closed at hc ⊢; rw [hp, e3, e4, e5]; exact hc
      · rw [hp]; intro h; exact Nat.lt_of_lt_of_le (hq h) e6
    · refine ⟨⟨l, e1 ▸ h1, ?_, e2 ▸ h3⟩, ?_, ?_⟩
      · rw [hp, e2]; intro _; have := h2 (by rw [hw]; simp); rw [hw] at this; exact this
      · unfold Closed at hc ⊢; rw [hp, e3, e4, e5]; rw [hw] at hc; exact hc
      · rw [hp]; intro h; simp at h
  | go =>
    obtain ⟨phase, quit, sys, mdns, gsup, db, took⟩ := s
    show Inv handle σ0 (go handle _)
    dsimp only at h1 h2 h3
    cases phase with
    | starting => exact ⟨⟨l, h1, fun _ => h2 (by simp), h3⟩, hc, fun h => by simp [go] at h⟩
    | check =>
      unfold go
      dsimp only
      by_cases hz : quit = 0
      · rw [if_pos hz]
        exact ⟨⟨l, h1, fun _ => h2 (by simp), h3⟩, hc, fun h => by simp at h⟩
      · rw [if_neg hz]
        exact ⟨⟨l, h1, fun _ => h2 (by simp), h3⟩, hc, fun _ => Nat.pos_of_ne_zero hz⟩
    | enter => exact ⟨⟨l, h1, fun _ => h2 (by simp), h3⟩, hc, fun h => by simp [go] at h⟩
    | waiting => exact ⟨⟨l, h1, h2, h3⟩, hc, hq⟩
    | handling evs =>
      cases evs with
      | nil => exact ⟨⟨l, h1, fun _ => h2 (by simp), h3⟩, hc, fun h => by simp [go] at h⟩
      | cons e es =>
        have h2 := h2 (by simp)
        refine ⟨⟨l ++ [e], ?_, ?_, ?_⟩, hc, fun h => by simp [go] at h⟩
        · show handle sys e = _
          rw [List.foldl_append, ← h1]; rfl
        · intro _
          show took = (l ++ [e]) ++ es
          rw [h2, List.append_assoc]; rfl
        · show l ++ [e] <+: took
          exact ⟨es, by rw [h2, List.append_assoc]; rfl⟩
    | stopMdns => exact ⟨⟨l, h1, fun _ => h2 (by simp), h3⟩, ⟨rfl, hc.2.1, hc.2.2⟩, fun _ => hq (by simp)⟩
    | stopGsup => exact ⟨⟨l, h1, fun _ => h2 (by simp), h3⟩, ⟨hc.1, rfl, hc.2.2⟩, fun _ => hq (by simp)⟩
    | closeDb => exact ⟨⟨l, h1, fun _ => h2 (by simp), h3⟩, ⟨hc.1, hc.2.1, rfl⟩, fun _ => hq (by simp)⟩
    | finish => exact ⟨⟨l, h1, fun _ => h2 (by simp), h3⟩, ⟨hc.1, hc.2.1, hc.2.2, rfl⟩, fun _ => hq (by simp)⟩
    | exited c => exact ⟨⟨l, h1, h2, h3⟩, hc, hq⟩
    | killed => exact ⟨⟨l, h1, h2, h3⟩, hc, hq⟩
  | io evs =>
    obtain ⟨phase, quit, sys, mdns, gsup, db, took⟩ := s
    show Inv handle σ0 (io _ evs)
    dsimp only at h1 h2 h3
    by_cases hw : phase = .waiting
    · subst hw
      have h2 := h2 (by simp)
      have h2 : took = l := by rw [h2]; simp [pending]
      refine ⟨⟨l, h1, fun _ => ?_, ?_⟩, hc, fun h => by simp [io] at h⟩
      · show took ++ evs = l ++ evs
        rw [h2]
      · exact h3.trans (List.prefix_append _ _)
    · have : io (⟨phase, quit, sys, mdns, gsup, db, took⟩ : St σ ε) evs = ⟨phase, quit, sys, mdns, gsup, db, took⟩ := by
        unfold io; cases phase <;> first | rfl | exact absurd rfl hw
      rw [this]
      exact ⟨⟨l, h1, h2, h3⟩, hc, hq⟩

theorem run_inv {handle : σ → ε → σ} {σ0 : σ} {s : St σ ε} (h : Inv handle σ0 s) (as : List (Act ε)) : Inv handle σ0 (run handle s as) := by
  induction as generalizing s with
  | nil => exact h
  | cons a as ih => exact ih (step_inv h a)

theorem init_inv (handle : σ → ε → σ) (σ0 : σ) : Inv handle σ0 ({ sys := σ0 } : St σ ε) :=
  ⟨⟨[], rfl, fun _ => rfl, List.prefix_refl _⟩, ⟨rfl, rfl, rfl⟩, fun h => by simp at h⟩

theorem go_quit (handle : σ → ε → σ) (s : St σ ε) : (go handle s).quit = s.quit ∧ (go handle s).took = s.took := by
  unfold go
  split <;> exact ⟨rfl, rfl⟩

theorem io_quit (s : St σ ε) (evs : List ε) : (io s evs).quit = s.quit := by
  unfold io
  split <;> rfl

theorem run_quit (handle : σ → ε → σ) (s : St σ ε) (as : List (Act ε)) (h : s.quit < (run handle s as).quit) : Spec.Asked as := by
  induction as generalizing s with
  | nil => exact absurd h (Nat.lt_irrefl _)
  | cons a as ih =>
    by_cases hl : (step handle s a).quit < (run handle (step handle s a) as).quit
    · rcases ih _ hl with h | h
      · exact .inl (List.mem_cons_of_mem _ h)
      · exact .inr (List.mem_cons_of_mem _ h)
    · have hs : s.quit < (step handle s a).quit := Nat.lt_of_lt_of_le h (Nat.le_of_not_lt hl)
      cases a with
      | sig g =>
        rcases (signal_cases s g).1.2.2.2.2.2.2 hs with rfl | rfl
        · exact .inl List.mem_cons_self
        · exact .inr List.mem_cons_self
      | go => exact absurd ((go_quit handle s).1 ▸ hs) (Nat.lt_irrefl _)
      | io evs => exact absurd (io_quit s evs ▸ hs) (Nat.lt_irrefl _)

theorem run_took (handle : σ → ε → σ) (s : St σ ε) (as : List (Act ε)) :
    ∃ l, (run handle s as).took = s.took ++ l ∧ l.Sublist (Spec.happened as) := by
  induction as generalizing s with
  | nil => exact ⟨[], (List.append_nil _).symm, List.Sublist.refl _⟩
  | cons a as ih =>
    obtain ⟨l, h1, h2⟩ := ih (step handle s a)
    cases a with
    | sig g => exact ⟨l, (show _ = s.took ++ l by rw [← (signal_cases s g).1.2.1]; exact h1), h2⟩
    | go => exact ⟨l, (show _ = s.took ++ l by rw [← (go_quit handle s).2]; exact h1), h2⟩
    | io evs =>
      by_cases hw : s.phase = .waiting
      · refine ⟨evs ++ l, ?_, List.Sublist.append (List.Sublist.refl _) h2⟩
        have : (step handle s (.io evs)).took = s.took ++ evs := by
          show (io s evs).took = _
          unfold io; rw [hw]
        show (run handle (step handle s (.io evs)) as).took = _
        rw [h1, this, List.append_assoc]
      · refine ⟨l, ?_, h2.trans (List.sublist_append_right _ _)⟩
        have : (step handle s (.io evs)).took = s.took := by
          show (io s evs).took = _
          unfold io
          split
          · rename_i h; exact absurd h hw
          · rfl
        show (run handle (step handle s (.io evs)) as).took = _
        rw [h1, this]

/-- **C87.** When the HLR has ended by itself: it was told to; it has handled every event that it had taken up, completely, one after the other, each
of which did happen; the mDNS sockets, the GSUP server and the database are closed, and the exit code is 0. -/
theorem c87_end (handle : σ → ε → σ) (σ0 : σ) (as : List (Act ε)) (c : Nat) (h : (run handle { sys := σ0 } as).phase = .exited c) :
    Spec.Asked as ∧ c = 0
    ∧ (run handle { sys := σ0 } as).sys = (run handle { sys := σ0 } as).took.foldl handle σ0
    ∧ (run handle { sys := σ0 } as).took.Sublist (Spec.happened as)
    ∧ (run handle { sys := σ0 } as).mdns = false ∧ (run handle { sys := σ0 } as).gsup = false ∧ (run handle { sys := σ0 } as).db = false := by
  have hi := run_inv (init_inv handle σ0) as
  obtain ⟨l, h1, h2, h3⟩ := hi.done
  have hc := hi.closed
  unfold Closed at hc
  rw [h] at hc
  dsimp only at hc
  have h2 := h2 (by rw [h]; simp)
  rw [h] at h2
  rw [show pending (Phase.exited c : Phase ε) = [] from rfl, List.append_nil] at h2
  refine ⟨run_quit handle ({ sys := σ0 } : St σ ε) as (hi.quit ?_), hc.2.2.2, ?_, ?_, hc.1, hc.2.1, hc.2.2.1⟩
  · rw [h, hc.2.2.2]; simp
  · rw [h1, h2]
  · obtain ⟨l', e1, e2⟩ := run_took handle ({ sys := σ0 } : St σ ε) as
    rw [e1]; exact e2

/-- **C87.** At every moment until then: the state of the HLR is that after a number of whole events, and nothing is closed while events are
handled or may still come. -/
theorem c87_running (handle : σ → ε → σ) (σ0 : σ) (as : List (Act ε)) :
    (∃ l, l <+: (run handle { sys := σ0 } as).took ∧ (run handle { sys := σ0 } as).sys = l.foldl handle σ0)
    ∧ ((run handle { sys := σ0 } as).phase = .waiting ∨ (∃ evs, (run handle { sys := σ0 } as).phase = .handling evs) →
      (run handle { sys := σ0 } as).mdns = true ∧ (run handle { sys := σ0 } as).gsup = true ∧ (run handle { sys := σ0 } as).db = true) := by
  have hi := run_inv (init_inv handle σ0) as
  obtain ⟨l, h1, -, h3⟩ := hi.done
  refine ⟨⟨l, h3, h1⟩, ?_⟩
  have hc := hi.closed
  unfold Closed at hc
  rintro (h | ⟨evs, h⟩) <;> · rw [h] at hc; exact hc

/-- **C87.** For the HLR of `Sys`: the database it leaves is that of a history of whole events. -/
theorem c87_database (d : Verif.Db.Db) (as : List (Act (Sys.Cfg × Sys.Ev))) (c : Nat) (h : (run hlr { sys := Sys.init d } as).phase = .exited c) :
    (run hlr { sys := Sys.init d } as).sys.db = (Sys.run (Sys.init d) (run hlr { sys := Sys.init d } as).took).db := by
  have e : ∀ (l : List (Sys.Cfg × Sys.Ev)) s, l.foldl hlr s = Sys.run s l := by
    intro l
    induction l with
    | nil => intro s; rfl
    | cons x l ih => intro s; exact ih _
  rw [← e, ← (c87_end hlr (Sys.init d) as c h).2.2.1]

/-! ## How soon it ends -/

theorem signal_busy {s : St σ ε} {g : Sig} (hg : g ≠ .kill) (h1 : s.phase ≠ .starting) (h2 : s.phase ≠ .waiting) :
    (signal s g).phase = s.phase := by
  obtain ⟨phase, quit, sys, mdns, gsup, db, took⟩ := s
  cases phase <;> cases g <;> simp_all [signal, Phase.live]

/-- The program does something and will look at `quit` before it waits. -/
def Busy : Phase ε → Prop
  | .starting | .enter | .waiting | .killed => False
  | .exited c => c = 0
  | _ => True

theorem prompt_core (handle : σ → ε → σ) (s : St σ ε) (hq : 0 < s.quit) (hp : Busy s.phase) (as : List (Act ε))
    (hk : .sig .kill ∉ as) (hn : Spec.left s.phase ≤ Spec.goes as) :
    (run handle s as).phase = .exited 0 ∧ (run handle s as).took = s.took := by
  induction as generalizing s with
  | nil =>
    obtain ⟨phase, quit, sys, mdns, gsup, db, took⟩ := s
    cases phase <;> simp [Spec.left, Spec.goes] at hn
    cases hp
    exact ⟨rfl, rfl⟩
  | cons a as ih =>
    have hk' : .sig .kill ∉ as := fun h => hk (List.mem_cons_of_mem _ h)
    have hs : s.phase ≠ .starting ∧ s.phase ≠ .waiting := by
      constructor <;> intro h <;> rw [h] at hp <;> exact hp
    cases a with
    | sig g =>
      have hg : g ≠ .kill := fun e => hk (e ▸ List.mem_cons_self)
      have e := signal_busy (s := s) hg hs.1 hs.2
      obtain ⟨⟨-, e2, -, -, -, e6, -⟩, -⟩ := signal_cases s g
      have := ih (signal s g) (Nat.lt_of_lt_of_le hq e6) (by rw [e]; exact hp) hk' (by rw [e]; exact hn)
      exact ⟨this.1, this.2.trans e2⟩
    | io evs =>
      have e : io s evs = s := by
        unfold io
        split
        · rename_i h; exact absurd h hs.2
        · rfl
      have := ih (io s evs) (by rw [e]; exact hq) (by rw [e]; exact hp) hk' (by rw [e]; exact hn)
      exact ⟨this.1, this.2.trans (by rw [e])⟩
    | go =>
      have e := go_quit handle s
      have hn' : Spec.left s.phase ≤ Spec.goes as + 1 := hn
      have hb : Busy (go handle s).phase ∧ Spec.left (go handle s).phase ≤ Spec.goes as := by
        obtain ⟨phase, quit, sys, mdns, gsup, db, took⟩ := s
        dsimp only at hq hp hn' hs
        cases phase with
        | starting => exact absurd rfl hs.1
        | enter => exact hp.elim
        | waiting => exact hp.elim
        | killed => exact hp.elim
        | check =>
          unfold go
          dsimp only
          rw [if_neg (by omega)]
          simp only [Spec.left] at hn' ⊢
          exact ⟨trivial, by omega⟩
        | handling evs => cases evs <;> simp [go, Busy, Spec.left] at hn' ⊢ <;> omega
        | exited c => exact ⟨hp, Nat.zero_le _⟩
        | _ => simp [go, Busy, Spec.left] at hn' ⊢ <;> omega
      have := ih (go handle s) (e.1 ▸ hq) hb.1 hk' hb.2
      exact ⟨this.1, this.2.trans e.2⟩

/-- **C87.** A running HLR that is told to end ends after handling the events it has taken up and a fixed number of further steps, and takes up no
others, whatever else happens meanwhile.

Missing: a program that has looked at `quit` and is not waiting yet (`c87_lost_violated`); a program that starts (`c87_early_violated`). -/
theorem c87_prompt_partial (handle : σ → ε → σ) (s : St σ ε) (hp : s.phase = .waiting ∨ Busy s.phase) (g : Sig) (hg : g = .term ∨ g = .int)
    (as : List (Act ε)) (hk : .sig .kill ∉ as) (hn : Spec.left s.phase ≤ Spec.goes as) :
    (run handle s (.sig g :: as)).phase = .exited 0 ∧ (run handle s (.sig g :: as)).took = s.took := by
  have hcore : ∀ s' : St σ ε, s' = signal s g → (0 < s'.quit ∨ s'.phase = .exited 0) ∧ Busy s'.phase ∧ Spec.left s'.phase = Spec.left s.phase ∧ s'.took = s.took := by
    rintro s' rfl
    obtain ⟨phase, quit, sys, mdns, gsup, db, took⟩ := s
    dsimp only at hp
    rcases hp with rfl | hp
    · rcases hg with rfl | rfl <;> simp [signal, Phase.live, Busy, Spec.left]
    · cases phase <;> rcases hg with rfl | rfl <;> simp_all [signal, Phase.live, Busy, Spec.left]
  obtain ⟨h1, h2, h3, h4⟩ := hcore _ rfl
  show (run handle (signal s g) as).phase = _ ∧ (run handle (signal s g) as).took = _
  rcases h1 with h1 | h1
  · have := prompt_core handle (signal s g) h1 h2 as hk (by rw [h3]; exact hn)
    exact ⟨this.1, this.2.trans h4⟩
  · have fix : ∀ (as : List (Act ε)) (s' : St σ ε), s'.phase = .exited 0 → run handle s' as = s' := by
      intro as
      induction as with
      | nil => intro s' _; rfl
      | cons a as ih =>
        intro s' h
        have e : step handle s' a = s' := by
          cases a with
          | sig g => simp [step, signal, Phase.live, h]
          | go => simp [step, go, h]
          | io evs => simp [step, io, h]
        show run handle (step handle s' a) as = s'
        rw [e]; exact ih s' h
    rw [fix as _ h1]
    exact ⟨h1, h4⟩

/-- **C87.** Once told to end, wherever it is, the HLR takes up events at most once more. -/
theorem c87_once_more (handle : σ → ε → σ) (s : St σ ε) (hq : 0 < s.quit) (as : List (Act ε)) :
    (run handle s as).took = s.took ∨ ∃ evs, .io evs ∈ as ∧ (run handle s as).took = s.took ++ evs := by
  have never : ∀ (as : List (Act ε)) (s : St σ ε), 0 < s.quit → s.phase ≠ .starting → s.phase ≠ .enter → s.phase ≠ .waiting →
      (run handle s as).took = s.took := by
    intro as
    induction as with
    | nil => intro s _ _ _ _; rfl
    | cons a as ih =>
      intro s hq h1 h2 h3
      have hstep : 0 < (step handle s a).quit ∧ (step handle s a).phase ≠ .starting ∧ (step handle s a).phase ≠ .enter
          ∧ (step handle s a).phase ≠ .waiting ∧ (step handle s a).took = s.took := by
        cases a with
        | sig g =>
          obtain ⟨⟨-, e2, -, -, -, e6, -⟩, hp⟩ := signal_cases s g
          refine ⟨Nat.lt_of_lt_of_le hq e6, ?_, ?_, ?_, e2⟩
          all_goals
            show (signal s g).phase ≠ _
            rcases hp with hp | hp | ⟨hw, -⟩
            · rw [hp]; simp
            · rw [hp]; assumption
            · exact absurd hw h3
        | go =>
          refine ⟨(go_quit handle s).1 ▸ hq, ?_, ?_, ?_, (go_quit handle s).2⟩
          all_goals
            show (go handle s).phase ≠ _
            unfold go
            obtain ⟨phase, quit, sys, mdns, gsup, db, took⟩ := s
            dsimp only at hq h1 h2 h3 ⊢
            have : quit ≠ 0 := by omega
            split <;> simp_all
        | io evs =>
          have e : io s evs = s := by
            unfold io
            split
            · rename_i h; exact absurd h h3
            · rfl
          show 0 < (io s evs).quit ∧ _ ∧ _ ∧ _ ∧ _
          simp only [step]
          rw [e]
          exact ⟨hq, h1, h2, h3, rfl⟩
      exact (ih _ hstep.1 hstep.2.1 hstep.2.2.1 hstep.2.2.2.1).trans hstep.2.2.2.2
  induction as generalizing s with
  | nil => exact .inl rfl
  | cons a as ih =>
    have lift : 0 < (step handle s a).quit → (step handle s a).took = s.took →
        (run handle s (a :: as)).took = s.took ∨ ∃ evs, .io evs ∈ a :: as ∧ (run handle s (a :: as)).took = s.took ++ evs := by
      intro h1 h2
      rcases ih _ h1 with h | ⟨evs, h3, h4⟩
      · exact .inl (h.trans h2)
      · exact .inr ⟨evs, List.mem_cons_of_mem _ h3, h4.trans (by rw [h2])⟩
    cases a with
    | sig g => exact lift (Nat.lt_of_lt_of_le hq (signal_cases s g).1.2.2.2.2.2.1) (signal_cases s g).1.2.1
    | go => exact lift ((go_quit handle s).1 ▸ hq) (go_quit handle s).2
    | io evs =>
      by_cases hw : s.phase = .waiting
      · right
        refine ⟨evs, List.mem_cons_self, ?_⟩
        have e : io s evs = { s with phase := .handling evs, took := s.took ++ evs } := by unfold io; rw [hw]
        show (run handle (io s evs) as).took = _
        rw [never as (io s evs) (by rw [e]; exact hq) (by rw [e]; simp) (by rw [e]; simp) (by rw [e]; simp), e]
      · have e : io s evs = s := by
          unfold io
          split
          · rename_i h; exact absurd h hw
          · rfl
        exact lift (by show 0 < (io s evs).quit; rw [e]; exact hq) (by show (io s evs).took = _; rw [e])

theorem run_append (handle : σ → ε → σ) (s : St σ ε) (as bs : List (Act ε)) : run handle s (as ++ bs) = run handle (run handle s as) bs :=
  List.foldl_append

/-- On the way to the next look at `quit`, without events. -/
theorem calm_run (handle : σ → ε → σ) (s : St σ ε) (hq : 0 < s.quit) (as : List (Act ε))
    (ha : ∀ a ∈ as, a = .go ∨ ∃ g, g ≠ .kill ∧ a = .sig g)
    (hp : s.phase = .enter ∧ 1 ≤ Spec.goes as ∨ s.phase = .waiting ∨ Busy s.phase ∧ Spec.left s.phase ≤ 5) :
    0 < (run handle s as).quit ∧ ((run handle s as).phase = .waiting ∨ Busy (run handle s as).phase ∧ Spec.left (run handle s as).phase ≤ 5) := by
  induction as generalizing s with
  | nil =>
    rcases hp with ⟨-, h⟩ | h
    · exact absurd h (by simp [Spec.goes])
    · exact ⟨hq, h⟩
  | cons a as ih =>
    have ha' : ∀ a ∈ as, a = .go ∨ ∃ g, g ≠ .kill ∧ a = .sig g := fun x h => ha x (List.mem_cons_of_mem _ h)
    rcases ha a List.mem_cons_self with rfl | ⟨g, hg, rfl⟩
    · refine ih (go handle s) ((go_quit handle s).1 ▸ hq) ha' ?_
      obtain ⟨phase, quit, sys, mdns, gsup, db, took⟩ := s
      dsimp only at hq hp
      have hz : quit ≠ 0 := by omega
      rcases hp with ⟨rfl, -⟩ | rfl | ⟨hb, hl⟩
      · exact .inr (.inl rfl)
      · exact .inr (.inl rfl)
      · refine .inr (.inr ?_)
        cases phase with
        | handling evs => simp [Spec.left] at hl
        | starting => exact hb.elim
        | enter => exact hb.elim
        | waiting => exact hb.elim
        | killed => exact hb.elim
        | check => simp [go, hz, Busy, Spec.left]
        | exited c => exact ⟨hb, hl⟩
        | _ => simp [go, Busy, Spec.left]
    · refine ih (signal s g) (Nat.lt_of_lt_of_le hq (signal_cases s g).1.2.2.2.2.2.1) ha' ?_
      obtain ⟨phase, quit, sys, mdns, gsup, db, took⟩ := s
      dsimp only at hq hp
      rcases hp with ⟨rfl, hn⟩ | rfl | ⟨hb, hl⟩
      · refine .inl ⟨?_, hn⟩
        cases g <;> simp_all [signal, Phase.live]
      · refine .inr ?_
        cases g <;> simp_all [signal, Phase.live, Busy, Spec.left]
      · refine .inr (.inr ?_)
        have h1 : phase ≠ .starting := by rintro rfl; exact hb
        have h2 : phase ≠ .waiting := by rintro rfl; exact hb
        have e := signal_busy (s := (⟨phase, quit, sys, mdns, gsup, db, took⟩ : St σ ε)) hg h1 h2
        rw [e]
        exact ⟨hb, hl⟩

/-- **C87.** A program that has missed the signal, because it had looked at `quit` already, ends after handling the next events. -/
theorem c87_next_event (handle : σ → ε → σ) (s : St σ ε) (hq : 0 < s.quit) (hp : s.phase = .enter ∨ s.phase = .waiting)
    (as : List (Act ε)) (ha : ∀ a ∈ as, a = .go ∨ ∃ g, g ≠ .kill ∧ a = .sig g) (hgo : 1 ≤ Spec.goes as)
    (evs : List ε) (bs : List (Act ε)) (hk : .sig .kill ∉ bs) (hn : evs.length + 6 ≤ Spec.goes bs) :
    (run handle s (as ++ .io evs :: bs)).phase = .exited 0 := by
  rw [run_append]
  obtain ⟨h1, h2⟩ := calm_run handle s hq as ha (by
    rcases hp with h | h
    · exact .inl ⟨h, hgo⟩
    · exact .inr (.inl h))
  generalize run handle s as = t at h1 h2
  show (run handle (io t evs) bs).phase = _
  rcases h2 with h2 | ⟨h2, h3⟩
  · have e : io t evs = { t with phase := .handling evs, took := t.took ++ evs } := by unfold io; rw [h2]
    rw [e]
    exact (prompt_core handle { t with phase := .handling evs, took := t.took ++ evs } h1 trivial bs hk hn).1
  · have e : io t evs = t := by
      unfold io
      split
      · rename_i h; rw [h] at h2; exact h2.elim
      · rfl
    rw [e]
    exact (prompt_core handle t h1 h2 bs hk (by omega)).1

/-- **C87.** The other signals do not disturb a running HLR: those that are ignored do nothing at all; SIGUSR1 changes nothing but that it may
interrupt the waiting. -/
theorem c87_other_signals (handle : σ → ε → σ) (s : St σ ε) (hp : s.phase ≠ .starting) :
    step handle s (.sig .ignored) = s
    ∧ (step handle s (.sig .usr1) = s ∨ s.phase = .waiting ∧ step handle s (.sig .usr1) = { s with phase := .check }) := by
  obtain ⟨phase, quit, sys, mdns, gsup, db, took⟩ := s
  cases phase <;> simp_all [step, signal, Phase.live]

/-! ## Violations -/

/-- C87 is violated when the signal comes after the program has looked at `quit` and before it waits: it does not end, however long it is given, until
something else happens. -/
theorem c87_lost_violated (handle : σ → ε → σ) (σ0 : σ) (n : Nat) :
    (run handle { sys := σ0 } ([.go, .go, .sig .term] ++ List.replicate n .go)).phase.live = true
    ∧ (run handle { sys := σ0 } ([.go, .go, .sig .term] ++ List.replicate n .go)).quit = 1 := by
  have h : ∀ n (s : St σ ε), s.phase = .waiting → run handle s (List.replicate n .go) = s := by
    intro n
    induction n with
    | zero => intro s _; rfl
    | succ n ih =>
      intro s hs
      have e : step handle s .go = s := by simp [step, go, hs]
      show run handle (step handle s .go) (List.replicate n .go) = s
      rw [e]; exact ih s hs
  cases n with
  | zero => exact ⟨rfl, rfl⟩
  | succ n =>
    show (run handle (run handle { sys := σ0 } [.go, .go, .sig .term, .go]) (List.replicate n .go)).phase.live = true
      ∧ (run handle (run handle { sys := σ0 } [.go, .go, .sig .term, .go]) (List.replicate n .go)).quit = 1
    rw [h n _ rfl]
    exact ⟨rfl, rfl⟩

/-- C87 is violated under a supervisor, as systemd, that kills a program that has not ended some time after SIGTERM: if the signal comes at that
moment and nothing else happens, the program is killed with the database open, which leaves its second file behind (see C83). -/
theorem c87_supervisor_violated (handle : σ → ε → σ) (σ0 : σ) (n : Nat) :
    (run handle { sys := σ0 } (([.go, .go, .sig .term] ++ List.replicate n .go) ++ [.sig .kill])).phase = .killed
    ∧ (run handle { sys := σ0 } (([.go, .go, .sig .term] ++ List.replicate n .go) ++ [.sig .kill])).db = true := by
  have hl := (c87_lost_violated handle σ0 n).1
  have hr : (run handle { sys := σ0 } ([.go, .go, .sig .term] ++ List.replicate n .go)).db = true := by
    have : ∀ n (s : St σ ε), (s.phase = .enter ∨ s.phase = .waiting) → (run handle s (List.replicate n .go)).db = s.db := by
      intro n
      induction n with
      | zero => intro s _; rfl
      | succ n ih =>
        intro s hs
        have e : (step handle s .go).phase = .waiting ∧ (step handle s .go).db = s.db := by
          rcases hs with h | h <;> simp [step, go, h]
        exact (ih (step handle s .go) (.inr e.1)).trans e.2
    rw [run_append]
    exact (this n _ (.inl rfl)).trans rfl
  rw [run_append]
  generalize run handle { sys := σ0 } ([.go, .go, .sig .term] ++ List.replicate n .go) = t at hl hr
  show (signal t .kill).phase = _ ∧ (signal t .kill).db = _
  unfold signal
  rw [hl]
  exact ⟨rfl, hr⟩

/-- C87 is violated while the program starts: the signal ends it at once, and the database, which is open and may have been upgraded, is not closed. -/
theorem c87_early_violated (handle : σ → ε → σ) (σ0 : σ) :
    (run handle ({ sys := σ0 } : St σ ε) [.sig .term]).phase = .killed ∧ (run handle ({ sys := σ0 } : St σ ε) [.sig .term]).db = true := ⟨rfl, rfl⟩

/-! ## Examples -/

/-- A program that adds up numbers: it is told to end while it handles the first of three. -/
example : (run (fun (s e : Nat) => s + e) { sys := 100 }
      [.go, .go, .go, .io [1, 2, 3], .go, .sig .term, .io [50], .go, .sig .usr1, .go, .go, .go, .go, .go, .go, .go]).phase = .exited 0
    ∧ (run (fun (s e : Nat) => s + e) { sys := 100 }
      [.go, .go, .go, .io [1, 2, 3], .go, .sig .term, .io [50], .go, .sig .usr1, .go, .go, .go, .go, .go, .go, .go]).sys = 106 := by decide +kernel

/-- The hypotheses of `c87_prompt_partial` hold in reachable states. -/
example : (run (fun (s e : Nat) => s + e) { sys := 100 } [.go, .go, .go]).phase = .waiting
    ∧ Busy (run (fun (s e : Nat) => s + e) { sys := 100 } [.go, .go, .go, .io [1, 2, 3], .go]).phase := ⟨rfl, trivial⟩

/-- So do those of `c87_next_event`: the signal is missed, and the program ends after the event that follows. -/
example : (run (fun (s e : Nat) => s + e) { sys := 100 } [.go, .go, .sig .term]).phase = .enter
    ∧ 0 < (run (fun (s e : Nat) => s + e) { sys := 100 } [.go, .go, .sig .term]).quit
    ∧ (run (fun (s e : Nat) => s + e) { sys := 100 }
        ([.go, .go, .sig .term] ++ ([.go] ++ .io [7] :: [.go, .go, .go, .go, .go, .go, .go]))).phase = .exited 0 := by decide +kernel

/-- The HLR of `Sys` does end. -/
example (cfg : Sys.Cfg) : (run hlr { sys := Sys.init {} } [.go, .go, .go, .io [(cfg, .connect)], .sig .int, .go, .go, .go, .go, .go, .go, .go]).phase = .exited 0 := rfl

end Verif.Stop
