import Verif.Roam.Spec
/-!
# C72: roaming subscribers are served by their home HLR
-/
namespace Verif.Roam
open Verif Verif.Db Verif.Sys Verif.Mslookup Verif.Mslookup.Props Verif.Net Verif.Net.Spec Verif.Net.Props Verif.Sys.Props

variable {z : Zone} {sfx : Bytes} {s : Start} {w : Wires} {evs : List Net.Ev}

theorem Sound.before {l : List Net.Ev} (h : Sound z sfx s w (evs ++ l)) : Sound z sfx s w evs := by
  intro pre e post he
  exact h pre e (post ++ l) (by rw [he]; simp)

theorem Honest.before {l : List Net.Ev} (h : Honest w (evs ++ l)) : Honest w evs where
  node j c m e he := h.node j c m e (List.mem_append_left _ he)
  hlr i a m e he := h.hlr i a m e (List.mem_append_left _ he)

/-- An event of an HLR's history is one of the history of the network, unless the HLR was killed. -/
theorem hist_ev {j : Nat} {x : Cfg × Sys.Ev} (h : x ∈ ((Net.run z sfx s evs).site j).hist) (hk : x.2 ≠ .kill) : .hlr j x.2 ∈ evs :=
  ((hist_run z sfx s evs j).2 x h).resolve_left hk

theorem log_eq (j : Nat) : logOf z sfx s evs j = (Sys.run (init (s.db j)) ((Net.run z sfx s evs).site j).hist).log := by
  unfold logOf
  rw [(hist_run z sfx s evs j).1]

/-- In an honest network no HLR is ever sent, as to a server, a result that lets a subscriber in. -/
theorem rx_honest (hs : Sound z sfx s w evs) (hh : Honest w evs) :
    ∀ j c m e, .hlr j (.rx c (some m) e) ∈ evs → ¬ IsGrant m.typ := by
  induction evs using snoc_induction with
  | nil => intro j c m e h; cases h
  | snoc evs x ih =>
    have ih := ih hs.before hh.before
    intro j c m e hm
    rcases List.mem_append.1 hm with hm | hm
    · exact ih j c m e hm
    · have hx := List.mem_singleton.1 hm
      subst hx
      cases hp : w.peer j c with
      | none => exact hh.node j c m e (List.mem_append_right _ (List.mem_singleton.2 rfl)) hp
      | some i =>
        obtain ⟨a, m', nr, e1, -, hl⟩ := hs evs _ [] rfl i hp
        cases e1
        rw [log_eq] at hl
        refine (run_origin (s.db i) _ ?_).2.1 a m nr hl
        intro cfg c m e h
        exact ih i c m e (hist_ev h (by intro h; cases h))

end Verif.Roam

namespace Verif.Roam.Props
open Verif Verif.Db Verif.Sys Verif.Mslookup Verif.Mslookup.Props Verif.Net Verif.Net.Spec Verif.Net.Props Verif.Sys.Props

variable {z : Zone} {sfx : Bytes} {s : Start} {w : Wires} {evs : List Net.Ev}

/-- C72: a request that an HLR sends on is for a subscriber that the HLR at that address offered
to serve, i.e. that was in its database (or the address is the fixed one that is configured). -/
theorem c72_home_partial (hu : Usable sfx s evs) (ho : Own evs) (hf : Few (Net.run z sfx s evs)) (hs : Sound z sfx s w evs)
    {i : Nat} {a : Addr} (hz : a.nonzero = true) {m : Gsup.Msg} {nr : Nat} (h : .remote a m (some nr) ∈ logOf z sfx s evs i) :
    (∃ c m' e, .hlr i (.rx c (some m') e) ∈ evs ∧ m'.imsi = m.imsi ∧ e.gateway = a)
    ∨ ∃ j pre post r, evs = pre ++ post ∧ HlrAddress ((Net.run z sfx s pre).site j).srv r ∧ a = foundAddr (r.v4, r.v6)
      ∧ HasSub z sfx s pre j m.imsi := by
  rw [log_eq] at h
  obtain ⟨x, hx, ht⟩ := sent_told _ _ hz h
  rcases ht with ⟨v, e, hv, ha⟩ | ⟨c, m', e, hv, hi, hg⟩
  · right
    have hmem := hist_ev hx (by rw [hv]; intro h; cases h)
    rw [hv] at hmem
    obtain ⟨pre, post, hevs⟩ := List.append_of_mem hmem
    obtain ⟨p, u, r, hask, hcb, hrc, hvr⟩ := hs pre _ post hevs
    rw [hevs] at hu ho hf
    obtain ⟨j, pre', post', hpre, -, hadr, y, hy, hn⟩ :=
      c71_home_partial (usable_before hu) (own_before ho) (Few.before hf) hask rfl hcb hrc
    refine ⟨j, pre', post' ++ _, r, by rw [hevs, hpre, List.append_assoc], hadr, by rw [ha, hvr], y, hy, hn⟩
  · left
    have hmem := hist_ev hx (by rw [hv]; intro h; cases h)
    rw [hv] at hmem
    exact ⟨c, m', e, hmem, hi, hg⟩

/-- C72: with addresses as they should be configured, every request that an HLR sends on goes to the HLR that
has the subscriber. -/
theorem c72_reaches_partial (hu : Usable sfx s evs) (ho : Own evs) (hf : Few (Net.run z sfx s evs)) (hs : Sound z sfx s w evs)
    (hg : NoGateway evs) (hl : Listens z sfx s w evs)
    {i : Nat} {a : Addr} (hz : a.nonzero = true) {m : Gsup.Msg} {nr : Nat} (h : .remote a m (some nr) ∈ logOf z sfx s evs i)
    {home : Nat} (hh : OnlyHome z sfx s evs m.imsi home) : w.site a = some home := by
  rcases c72_home_partial hu ho hf hs hz h with ⟨c, m', e, he, -, ha⟩ | ⟨j, pre, post, r, hevs, hadr, ha, hsub⟩
  · have := hg _ _ _ _ he
    rw [ha, hz] at this
    cases this
  · rw [ha] at hz ⊢
    rw [← hh pre post j hevs hsub]
    exact hl pre post j r hevs hadr hz

/-- C72: what an HLR receives over a connection from another HLR is a message that the other HLR
received before, with only the source name filled in, or it is an error message of the other HLR. -/
theorem c72_faithful {i j : Nat} {c : ConnId} {mo : Option Gsup.Msg} {e : Env} {pre post : List Net.Ev} (hs : Sound z sfx s w evs)
    (hevs : evs = pre ++ .hlr j (.rx c mo e) :: post) (hp : w.peer j c = some i) :
    ∃ m, mo = some m ∧ ((∃ c' m0 e' n, .hlr i (.rx c' (some m0) e') ∈ pre ∧ m = { m0 with src := n }) ∨ ∃ t, m.typ = Gsup.toError t) := by
  obtain ⟨a, m, nr, hm, -, hl⟩ := hs pre _ post hevs i hp
  refine ⟨m, hm, ?_⟩
  rw [log_eq] at hl
  obtain ⟨h1, h2⟩ := run_received (s.db i) ((Net.run z sfx s pre).site i).hist
  cases nr with
  | none => exact .inr (h1 a m hl)
  | some nr =>
    left
    obtain ⟨P, hi, -⟩ := reach_done (s := Sys.run (init (s.db i)) ((Net.run z sfx s pre).site i).hist) ⟨_, _, rfl⟩
    obtain ⟨c', m0, hr, n, hm⟩ := goodLog_remote hi.good hl
    obtain ⟨cfg, e', h⟩ := h2 _ _ _ hr
    exact ⟨c', m0, e', n, hist_ev h (by intro h; cases h), hm⟩

/-- C72: in an honest network every result that lets a subscriber in is, when it arrives at a node of
whatever site, an answer that the HLR of some site itself gave to a request. -/
theorem c72_origin_partial (hs : Sound z sfx s w evs) (hh : Honest w evs) {i : Nat} {c : ConnId} {m : Gsup.Msg} {nr : Option Nat}
    (h : .tx c m nr ∈ logOf z sfx s evs i) (hg : IsGrant m.typ) :
    ∃ j pre post, evs = pre ++ post ∧ Answered z sfx s pre j m := by
  have key : ∀ n (evs : List Net.Ev), evs.length ≤ n → Sound z sfx s w evs → Honest w evs → ∀ i c nr,
      .tx c m nr ∈ logOf z sfx s evs i → ∃ j pre post, evs = pre ++ post ∧ Answered z sfx s pre j m := by
    intro n
    induction n with
    | zero =>
      intro evs hn _ _ i c nr h
      have : evs = [] := List.length_eq_zero_iff.1 (Nat.le_zero.1 hn)
      subst this
      cases h
    | succ n ih =>
      intro evs hn hs hh i c nr h
      cases nr with
      | some nr => exact ⟨i, evs, [], (List.append_nil _).symm, c, nr, h⟩
      | none =>
        rw [log_eq] at h
        obtain ⟨cfg, a, e, he⟩ := (run_origin (s.db i) _ (fun cfg c m e h =>
          rx_honest hs hh i c m e (hist_ev h (by intro h; cases h)))).1 c m h hg
        have he := hist_ev he (by intro h; cases h)
        cases hw : w.site a with
        | none => exact absurd hg (hh.hlr i a m e he hw)
        | some j =>
          obtain ⟨pre, post, hevs⟩ := List.append_of_mem he
          obtain ⟨c', nr', -, hl⟩ := hs pre _ post hevs j hw
          subst hevs
          obtain ⟨j', pre', post', hp, ha⟩ := ih pre (by rw [List.length_append, List.length_cons] at hn; omega) hs.before hh.before j c' nr' hl
          exact ⟨j', pre', post' ++ _, by rw [hp, List.append_assoc], ha⟩
  exact key evs.length evs (Nat.le_refl _) hs hh i c nr h

/-- In the history, the HLR of site `j` was asked for a location update of the subscriber by the node `name`, found the
subscriber in its database, allowed in the domain, recorded the node and the time there, and was then told that the
subscriber's data had been received. -/
def Granted (z : Zone) (sfx : Bytes) (s : Start) (evs : List Net.Ev) (j : Nat) (imsi name : Bytes) : Prop :=
  ∃ e1 cfg c m e e2 cfga ca ack ea e3 via t, ((Net.run z sfx s evs).site j).hist
      = e1 ++ (cfg, .rx c (some m) e) :: e2 ++ (cfga, .rx ca (some ack) ea) :: e3
    ∧ m.typ = Gsup.UPDATE_LOCATION ∧ m.imsi = imsi ∧ m.src = name ∧ ack.typ = Gsup.INSERT_DATA + 2 ∧ ack.imsi = imsi ∧ e.now = some t
    ∧ Recorded (Sys.run (init (s.db j)) (e1 ++ [(cfg, .rx c (some m) e)])).db imsi (!m.isCs) (name.takeWhile (· != 0)) via t

/-- The name of a requester is stored up to its terminating zero. -/
theorem stored_name {st : Sys} {c : ConnId} {m : Gsup.Msg} {q : Req} {n : Bytes} (hq : IsNew st c m q) (hn : q.source.cstr = some n)
    (h0 : (0 : UInt8) ∈ m.src) (hl : m.src.length ≤ 128) : n = m.src.takeWhile (· != 0) := by
  obtain ⟨k, -, h⟩ := hq
  have hne : m.src ≠ [] := by intro h; rw [h] at h0; cases h0
  have hset : Gsup.ipaSet k.name m.src = (0, { len := m.src.length, val := m.src ++ k.name.val.drop m.src.length }) := by
    unfold Gsup.ipaSet
    rw [if_neg (by simpa using hne), if_neg (by omega)]
  rcases h with ⟨-, h, -⟩ | ⟨-, rfl⟩
  · rw [hset] at h; exact absurd rfl h
  · unfold mkReq at hn
    rw [if_neg (by simpa using hne)] at hn
    dsimp only at hn
    rw [hset] at hn
    unfold Gsup.IpaName.cstr at hn
    dsimp only at hn
    rw [if_pos (by simp [h0])] at hn
    cases hn
    generalize k.name.val.drop m.src.length = v
    clear hset hl
    revert h0
    generalize m.src = l at hne ⊢
    clear hne
    induction l with
    | nil => intro h; cases h
    | cons x l ih =>
      intro h
      rw [List.cons_append, List.takeWhile_cons, List.takeWhile_cons]
      split
      · rename_i hx
        rw [ih ((List.mem_cons.1 h).resolve_left (fun e => by subst e; simp at hx))]
      · rfl

/-- An own answer that grants a location update. -/
theorem answered_granted {j : Nat} {m : Gsup.Msg} (h : Answered z sfx s evs j m) (ht : m.typ = Gsup.UPDATE_LOCATION + 2)
    (h0 : (0 : UInt8) ∈ m.dst) (hl : m.dst.length ≤ 128) : Granted z sfx s evs j m.imsi m.dst := by
  obtain ⟨c, nr, h⟩ := h
  rw [log_eq] at h
  obtain ⟨e1, cfg, c, m0, e, e2, cfga, ca, ack, ea, e3, he, h1, -, h2, h3, h4, h5, q, n, via, t, h6, -, h7, -, h8, h9⟩ := c27_granted _ _ h ht
  rw [h2] at h0 hl
  rw [stored_name h6 h7 h0 hl, ← h2] at h9
  rw [← h3] at h5 h9
  exact ⟨e1, cfg, c, m0, e, e2, cfga, ca, ack, ea, e3, via, t, he, h1, h3.symm, h2.symm, h4, h5, h8, h9⟩

/-- Every earlier point of an HLR's history is one of the history of the network. -/
theorem hist_point (evs : List Net.Ev) (j : Nat) : ∀ h1 h2, ((Net.run z sfx s evs).site j).hist = h1 ++ h2 →
    ∃ pre post, evs = pre ++ post ∧ ((Net.run z sfx s pre).site j).hist = h1 := by
  induction evs using snoc_induction with
  | nil =>
    intro h1 h2 h
    refine ⟨[], [], rfl, ?_⟩
    have : h1 ++ h2 = [] := h.symm
    rw [List.append_eq_nil_iff] at this
    rw [this.1]; rfl
  | snoc evs e ih =>
    intro h1 h2 h
    have hh : ((Net.run z sfx s (evs ++ [e])).site j).hist = ((Net.run z sfx s evs).site j).hist
        ∨ ∃ x, ((Net.run z sfx s (evs ++ [e])).site j).hist = ((Net.run z sfx s evs).site j).hist ++ [x] := by
      rw [run_cons_snoc]
      generalize Net.run z sfx s evs = n
      have hset : ∀ k (t : Site), ((n.setSite k t).site j).hist = if j = k then t.hist else (n.site j).hist := by
        intro k t
        show (if j = k then t else n.site j).hist = _
        split <;> rfl
      have hsend : ∀ (n' : Net) o, ((n'.send o).site j) = n'.site j := by
        intro n' o
        unfold Net.send
        split <;> rfl
      cases e with
      | hlr k ev =>
        show ((n.setSite k _).site j).hist = _ ∨ ∃ x, ((n.setSite k _).site j).hist = _
        rw [hset]
        split
        · rename_i hk; subst hk; exact .inr ⟨_, rfl⟩
        · exact .inl rfl
      | conf k cfg srv =>
        left
        show ((n.setSite k _).site j).hist = _
        rw [hset]
        split
        · rename_i hk; subst hk; rfl
        · rfl
      | request k q mn to => left; show (((n.setLook k _).send _).site j).hist = _; rw [hsend]; rfl
      | cancel k h => exact .inl rfl
      | timeout k u => exact .inl rfl
      | serve k p now sc =>
        unfold Net.step
        dsimp only
        split
        · split
          · rw [hset]
            split
            · rename_i hk; subst hk; exact .inr ⟨_, rfl⟩
            · exact .inl rfl
          · rw [hsend]; exact .inl rfl
        · exact .inl rfl
      | hear k p =>
        left
        unfold Net.step
        dsimp only
        split
        · split <;> rfl
        · rfl
      | inject p => exact .inl rfl
    rcases hh with hh | ⟨x, hh⟩
    · rw [hh] at h
      obtain ⟨pre, post, rfl, hp⟩ := ih h1 h2 h
      exact ⟨pre, post ++ [e], by simp, hp⟩
    · by_cases hn : h2 = []
      · subst hn
        rw [List.append_nil] at h
        exact ⟨evs ++ [e], [], by simp, h⟩
      · rw [← List.dropLast_concat_getLast hn, ← List.append_assoc, hh] at h
        obtain ⟨pre, post, rfl, hp⟩ := ih h1 _ (List.append_inj_left' h rfl)
        exact ⟨pre, post ++ [e], by simp, hp⟩

/-- A site that granted a location update had the subscriber in its database. -/
theorem Granted.hasSub {j : Nat} {imsi name : Bytes} (h : Granted z sfx s evs j imsi name) :
    ∃ pre post, evs = pre ++ post ∧ HasSub z sfx s pre j imsi := by
  obtain ⟨e1, cfg, c, m, e, e2, cfga, ca, ack, ea, e3, via, t, he, -, -, -, -, -, -, r, hr, hi, -⟩ := h
  obtain ⟨pre, post, hevs, hp⟩ := hist_point evs j (e1 ++ [(cfg, .rx c (some m) e)]) (e2 ++ (cfga, .rx ca (some ack) ea) :: e3) (by rw [he]; simp)
  refine ⟨pre, post, hevs, r, ?_, hi⟩
  rw [(hist_run z sfx s pre j).1, hp]
  exact hr

/-- C72: in an honest network, whenever a node is sent the result of a location update - by the HLR
of its own site or, passed on, from elsewhere - the HLR that has the subscriber had recorded this node, as
its location, before. -/
theorem c72_granted_partial (hs : Sound z sfx s w evs) (hh : Honest w evs) {i : Nat} {c : ConnId} {m : Gsup.Msg} {nr : Option Nat}
    (h : .tx c m nr ∈ logOf z sfx s evs i) (ht : m.typ = Gsup.UPDATE_LOCATION + 2) (h0 : (0 : UInt8) ∈ m.dst) (hl : m.dst.length ≤ 128) :
    ∃ j pre post, evs = pre ++ post ∧ Granted z sfx s pre j m.imsi m.dst ∧ ∀ home, OnlyHome z sfx s evs m.imsi home → j = home := by
  obtain ⟨j, pre, post, hevs, ha⟩ := c72_origin_partial hs hh h (.inl ht)
  have hg := answered_granted ha ht h0 hl
  refine ⟨j, pre, post, hevs, hg, fun home hh => ?_⟩
  obtain ⟨pre', post', hp, hsub⟩ := hg.hasSub
  exact hh pre' (post' ++ post) j (by rw [hevs, hp, List.append_assoc]) hsub

/-- C72: when the result of a location update is passed on to a node at the visited site, then this node had asked and
waited for it, the HLR that has the subscriber had recorded it, and from now on
the visited site counts the subscriber as attached there. -/
theorem c72_visited_partial {pre post : List Net.Ev} {i : Nat} {a : Addr} {m : Gsup.Msg} {e : Env}
    (hs : Sound z sfx s w (pre ++ .hlr i (.remoteRx a m e) :: post)) (hh : Honest w (pre ++ .hlr i (.remoteRx a m e) :: post))
    (hp : PassedOn ((Net.run z sfx s pre).site i).cfg ((Net.run z sfx s pre).site i).sys a m e)
    (ht : m.typ = Gsup.UPDATE_LOCATION + 2) (h0 : (0 : UInt8) ∈ m.dst) (hl : m.dst.length ≤ 128) :
    (∃ cs, Requested (s.db i) ((Net.run z sfx s pre).site i).hist m.imsi cs m.dst)
    ∧ (∃ j pre' post', pre = pre' ++ post' ∧ Granted z sfx s pre' j m.imsi m.dst
      ∧ ∀ home, OnlyHome z sfx s pre m.imsi home → j = home)
    ∧ ∃ y ∈ ((Net.run z sfx s (pre ++ [.hlr i (.remoteRx a m e)])).site i).sys.proxy, y.data.imsi = m.imsi ∧ ∃ cs, (y.data.dom cs).vlr.name = m.dst := by
  have hne : m.dst ≠ [] := by intro h; rw [h] at h0; cases h0
  have hsys := (hist_run z sfx s pre i).1
  have hp' := hp
  rw [hsys] at hp'
  obtain ⟨h1, x, hx, y, hy, -, h3, -, h4, -⟩ := c39_passed_partial _ _ _ hp' ht hne
  refine ⟨h1, ?_, y, ?_, h3, h4⟩
  · cases hw : w.site a with
    | none => exact absurd (.inl ht) (hh.hlr i a m e (by simp) hw)
    | some j =>
      obtain ⟨c', nr', -, hl'⟩ := hs pre _ post rfl j hw
      exact c72_granted_partial hs.before hh.before hl' ht h0 hl
  · rw [run_cons_snoc]
    show y ∈ (((Net.run z sfx s pre).setSite i _).site i).sys.proxy
    have : (((Net.run z sfx s pre).setSite i (((Net.run z sfx s pre).site i).event (.remoteRx a m e))).site i).sys
        = Sys.run (init (s.db i)) (((Net.run z sfx s pre).site i).hist ++ [(((Net.run z sfx s pre).site i).cfg, .remoteRx a m e)]) := by
      rw [Sys.Props.run_snoc, ← hsys]
      show (if i = i then _ else _ : Site).sys = _
      rw [if_pos rfl]
      rfl
    rw [this]
    exact hy

/-- C72: in an honest network, the vectors that a node is sent were made by the HLR of a site from the keys that
it has for the subscriber, for a request for vectors for this subscriber. -/
theorem c72_vectors_partial (hd : ∀ j, s.db j = {}) (hs : Sound z sfx s w evs) (hh : Honest w evs) {i : Nat} {c : ConnId} {m : Gsup.Msg} {nr : Option Nat}
    (h : .tx c m nr ∈ logOf z sfx s evs i) (ht : m.typ = Gsup.SEND_AUTH_INFO + 2) :
    ∃ j pre post e1 cfg c0 m0 e e2, evs = pre ++ post ∧ ((Net.run z sfx s pre).site j).hist = e1 ++ (cfg, .rx c0 (some m0) e) :: e2
      ∧ m0.typ = Gsup.SEND_AUTH_INFO ∧ m0.imsi = m.imsi ∧ m.vecs ≠ []
      ∧ (∃ id g u, Auc.authKeys (Sys.run (init {}) (e1 ++ [(cfg, .rx c0 (some m0) e)])).db m.imsi = .keys id g u
        ∧ ∀ v ∈ m.vecs, Auc.VecFrom cfg.crypto g (u.map (fun a => { a with sep := m0.ratSgs })) v)
      ∧ ∀ home, OnlyHome z sfx s evs m.imsi home → j = home := by
  obtain ⟨j, pre, post, hevs, c', nr', ha⟩ := c72_origin_partial hs hh h (.inr ht)
  rw [log_eq, hd j] at ha
  obtain ⟨e1, cfg, c0, m0, e, e2, q, he, hm0, h1, -, h5, h6⟩ := sai_sent {} _ ha ht
  obtain ⟨past, hpast⟩ := run_db e1
  rw [← hpast] at h6
  have hq := (isNew_eqs h5).2.2
  obtain ⟨⟨h2, -⟩, id, g, u, h3, h4, -⟩ := Auc.Props.c15_number_and_kind past _ _ _ _ _ _ _ _ h6
  have hi : (saiReq q).imsi = m.imsi := by rw [h1, ← hq]; rfl
  have hr : (saiReq q).sgs = m0.ratSgs := by rw [← hq]; rfl
  rw [hi] at h3
  rw [hr] at h4
  refine ⟨j, pre, post, e1, cfg, c0, m0, e, e2, hevs, he, hm0, h1.symm, h2, ⟨id, g, u, h3, h4⟩, fun home ho => ?_⟩
  obtain ⟨pre', post', hp, hp'⟩ := hist_point pre j (e1 ++ [(cfg, .rx c0 (some m0) e)]) e2 (by rw [he]; simp)
  refine ho pre' (post' ++ post) j (by rw [hevs, hp, List.append_assoc]) ?_
  unfold HasSub
  rw [(hist_run z sfx s pre' j).1, hp', hd j]
  unfold Auc.authKeys at h3
  split at h3
  · rename_i r hr
    exact ⟨r, List.mem_of_find?_eq_some hr, by have := List.find?_some hr; simpa using this⟩
  · cases h3

end Verif.Roam.Props
