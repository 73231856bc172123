import Verif.Sys.ProxyHist
import Verif.Sys.Props3
/-!
# Property theorems C37 and C39 (distributed GSM)

`run (init d) evs` ranges over every run of the HLR.
-/
namespace Verif.Sys.Props
open Verif Verif.Db Verif.Gsup Verif.Hlr

theorem proxyRemove_sublist (imsi : Bytes) (l : List ProxyEntry) : (proxyRemove imsi l).Sublist l := by
  induction l with
  | nil => exact List.Sublist.refl _
  | cons y l ih =>
    unfold proxyRemove
    split
    · exact List.sublist_cons_self y l
    · exact ih.cons_cons y

/-! ## C37: entries -/

theorem nodup_step {cfg : Cfg} {s : Sys} (h : (s.proxy.map (·.data.imsi)).Nodup) (ev : Ev) :
    ((step cfg s ev).proxy.map (·.data.imsi)).Nodup := by
  rcases step_proxy cfg s ev with hg | ⟨imsi, res, e, -, -, hp⟩ | ⟨c, -, hp⟩ | ⟨hp, -⟩
  · exact hg.nodup h
  · rw [hp]; exact h.sublist ((proxyRemove_sublist _ _).map _)
  · rw [hp]; exact h.sublist (List.filter_sublist.map _)
  · rw [hp]; exact List.nodup_nil

theorem nodup_run {s : Sys} (h : (s.proxy.map (·.data.imsi)).Nodup) (evs : List (Cfg × Ev)) :
    ((run s evs).proxy.map (·.data.imsi)).Nodup := by
  induction evs generalizing s with
  | nil => exact h
  | cons x l ih => exact ih (nodup_step (cfg := x.1) h x.2)

/-- At any time the proxy has at most one entry per IMSI. -/
theorem c37_one_entry {s : Sys} (h : Reach s) : (s.proxy.map (·.data.imsi)).Nodup := by
  obtain ⟨d, evs, rfl⟩ := h
  exact nodup_run (s := init d) List.nodup_nil evs

/-- What a garbage collection at time `c` keeps: exactly the entries changed within the
last 3600 seconds. -/
theorem c37_collected {cfg : Cfg} {s : Sys} (hu : s.ub = false) (c : Int) (x : ProxyEntry) :
    x ∈ (step cfg s (.proxyGc c)).proxy ↔ x ∈ s.proxy ∧ x.lastUpdate ≤ c ∧ c ≤ x.lastUpdate + 3600 := by
  have hs : (step cfg s (.proxyGc c)).proxy = s.proxy.filter (proxyKeeps c) := by
    unfold step
    rw [if_neg (by simp [hu])]
    rfl
  rw [hs, List.mem_filter]
  refine and_congr_right fun _ => ?_
  unfold proxyKeeps timestampAge FRESH_TIME
  dsimp only
  split
  · rename_i h
    simp only [Bool.false_and, Bool.false_eq_true, false_iff]
    omega
  · rename_i h
    simp only [Bool.true_and, decide_eq_true_eq]
    omega

/-- An entry keeps existing, as it is or as changed by this event (and dated so), except
when: a lookup for its subscriber failed, a garbage collection found it outdated, or the
process was restarted. -/
theorem c37_dropped_only {cfg : Cfg} {s : Sys} (ev : Ev) {x : ProxyEntry} (hx : x ∈ s.proxy) :
    (∃ y ∈ (step cfg s ev).proxy, y.data.imsi = x.data.imsi ∧ (y = x ∨ y.lastUpdate = ev.clock))
    ∨ (∃ res e, ev = .lookup x.data.imsi res e ∧ Failed res)
    ∨ (∃ c, ev = .proxyGc c ∧ ¬ (x.lastUpdate ≤ c ∧ c ≤ x.lastUpdate + 3600))
    ∨ (∃ l, (step cfg s ev).log = l ++ s.log ∧ .restart ∈ l) := by
  rcases step_proxy cfg s ev with hg | ⟨imsi, res, e, he, hf, hp⟩ | ⟨c, he, hp⟩ | ⟨-, hp⟩
  · exact .inl (hg.kept x hx)
  · by_cases hi : x.data.imsi = imsi
    · exact .inr (.inl ⟨res, e, by rw [hi]; exact he, hf⟩)
    · refine .inl ⟨x, ?_, rfl, .inl rfl⟩
      rw [hp]
      clear hp
      generalize s.proxy = l at hx
      induction l with
      | nil => cases hx
      | cons y l ih =>
        unfold proxyRemove
        split
        · rename_i hy
          rcases List.mem_cons.1 hx with rfl | hx
          · exact absurd (by simpa using hy) hi
          · exact hx
        · rcases List.mem_cons.1 hx with rfl | hx
          · exact List.mem_cons_self ..
          · exact List.mem_cons_of_mem _ (ih hx)
  · by_cases hc : x.lastUpdate ≤ c ∧ c ≤ x.lastUpdate + 3600
    · by_cases hu : s.ub = true
      · refine .inl ⟨x, ?_, rfl, .inl rfl⟩
        unfold step
        rw [if_pos hu]
        exact hx
      · subst he
        exact .inl ⟨x, (c37_collected (by simpa using hu) c x).2 ⟨hx, hc⟩, rfl, .inl rfl⟩
    · exact .inr (.inr (.inl ⟨c, he, hc⟩))
  · exact .inr (.inr (.inr hp))

/-- A lookup that fails removes the entry of its subscriber. -/
theorem c37_failed {cfg : Cfg} {s : Sys} (h : Reach s) (hu : s.ub = false) {imsi : Bytes} {res : Option (Addr × Addr)}
    (hf : Failed res) (e : Env) : ∀ x ∈ (step cfg s (.lookup imsi res e)).proxy, x.data.imsi ≠ imsi := by
  have hn := c37_one_entry h
  have hs : (step cfg s (.lookup imsi res e)).proxy = proxyRemove imsi s.proxy := by
    unfold step
    rw [if_neg (by simp [hu])]
    have hd : (proxyDel cfg imsi s).proxy = proxyRemove imsi s.proxy := by
      unfold proxyDel; rw [deferredPop_eq]
    show (lookupResult cfg e imsi res s).proxy = _
    unfold lookupResult
    cases res with
    | none => exact hd
    | some v =>
      obtain ⟨h4, h6⟩ := hf v rfl
      dsimp only
      rw [if_pos (by simp [h4, h6])]
      exact hd
  rw [hs]
  generalize s.proxy = l at hn
  induction l with
  | nil => intro x hx; cases hx
  | cons y l ih =>
    rw [List.map_cons, List.nodup_cons] at hn
    intro x hx hi
    unfold proxyRemove at hx
    split at hx
    · rename_i hy
      have hy' : y.data.imsi = imsi := by simpa using hy
      exact hn.1 (List.mem_map.2 ⟨x, hx, hi.trans hy'.symm⟩)
    · rename_i hy
      rcases List.mem_cons.1 hx with h1 | h1
      · rw [h1] at hi; exact hy (by simpa using hi)
      · exact ih hn.2 x h1 hi

/-- The date of an entry is the time of the event that changed it last. -/
theorem c37_dated {cfg : Cfg} {s : Sys} (ev : Ev) {y : ProxyEntry} (hy : y ∈ (step cfg s ev).proxy) :
    y ∈ s.proxy ∨ y.lastUpdate = ev.clock := by
  rcases step_proxy cfg s ev with hg | ⟨imsi, res, e, he, hf, hp⟩ | ⟨c, he, hp⟩ | ⟨hp, -⟩
  · rcases hg.from_ y hy with h | h
    · exact .inl h
    · exact .inr h.1
  · rw [hp] at hy; exact .inl ((proxyRemove_sublist _ _).subset hy)
  · rw [hp] at hy; exact .inl (List.mem_filter.1 hy).1
  · rw [hp] at hy; cases hy

theorem mem_unique {l : List ProxyEntry} (hn : (l.map (·.data.imsi)).Nodup) {x y : ProxyEntry} (hx : x ∈ l) (hy : y ∈ l)
    (h : x.data.imsi = y.data.imsi) : x = y := by
  induction l with
  | nil => cases hx
  | cons z l ih =>
    rw [List.map_cons, List.nodup_cons] at hn
    have key : ∀ w ∈ l, w.data.imsi ≠ z.data.imsi := fun w hw he =>
      hn.1 (List.mem_map.2 ⟨w, hw, he⟩)
    rcases List.mem_cons.1 hx with hx1 | hx1 <;> rcases List.mem_cons.1 hy with hy1 | hy1
    · rw [hx1, hy1]
    · rw [hx1] at h; exact absurd h.symm (key y hy1)
    · rw [hy1] at h; exact absurd h (key x hx1)
    · exact ih hn.2 hx1 hy1

/-- Lookups return the stored entries and nothing else. -/
theorem c37_lookup {s : Sys} (h : Reach s) (v : Bytes) (d : ProxySub) :
    (proxyByImsi s.proxy v = some d ↔ d.imsi = v ∧ ∃ x ∈ s.proxy, x.data = d)
    ∧ (proxyByMsisdn s.proxy v = some d → d.msisdn = v ∧ ∃ x ∈ s.proxy, x.data = d)
    ∧ (proxyByMsisdn s.proxy v = none ↔ ∀ x ∈ s.proxy, x.data.msisdn ≠ v) := by
  refine ⟨⟨byImsi_some, ?_⟩, ?_, ?_⟩
  · rintro ⟨rfl, x, hx, rfl⟩
    cases hf : proxyByImsi s.proxy x.data.imsi with
    | none => exact absurd rfl (byImsi_none hf x hx)
    | some d =>
      obtain ⟨hi, y, hy, rfl⟩ := byImsi_some hf
      rw [mem_unique (c37_one_entry h) hy hx hi]
  · intro hf
    unfold proxyByMsisdn at hf
    obtain ⟨x, hx, rfl⟩ := Option.map_eq_some_iff.1 hf
    refine ⟨?_, x, List.mem_of_find?_eq_some hx, rfl⟩
    have := List.find?_some hx
    simpa using this
  · unfold proxyByMsisdn
    rw [Option.map_eq_none_iff, List.find?_eq_none]
    constructor
    · intro h x hx; simpa using h x hx
    · intro h x hx; simpa using h x hx

/-! ## C39: results of remote HLRs -/

/-- The message `m` from the remote HLR at `a` is passed on to a node connected here. -/
def PassedOn (cfg : Cfg) (s : Sys) (a : Addr) (m : Msg) (e : Env) : Prop :=
  ∃ c, (step cfg s (.remoteRx a m e)).log = .tx c m none :: .remoteRx a m :: s.log

/-- The name of the sender of `m`, received on the connection `k`. -/
def senderName (k : Conn) (m : Msg) : Bytes := if m.src = [] then k.name.name else m.src

/-- In the history `evs` the node named `n` has sent a Location Update for `imsi` in
the domain, and no result for it has been passed on since. -/
def Requested (d : Db) (evs : List (Cfg × Ev)) (imsi : Bytes) (cs : Bool) (n : Bytes) : Prop :=
  ∃ evs1 cfg c m e evs2 k, evs = evs1 ++ (cfg, .rx c (some m) e) :: evs2
    ∧ (run (init d) evs1).conn? c = some k
    ∧ m.typ = UPDATE_LOCATION ∧ m.imsi = imsi ∧ m.cnDomain = (if cs then 2 else 1) ∧ senderName k m = n
    ∧ ∀ x cfg' a m' e' y, evs2 = x ++ (cfg', .remoteRx a m' e') :: y → m'.typ = UPDATE_LOCATION + 2 → m'.imsi = imsi → m'.dst = n →
      ¬ PassedOn cfg' (run (init d) (evs1 ++ (cfg, .rx c (some m) e) :: x)) a m' e'

theorem mkReq_source {k : Conn} {nr : Nat} {m : Msg} (h : m.src ≠ [] → (ipaSet k.name m.src).1 = 0) :
    (mkReq k nr m).source.name = senderName k m := by
  unfold mkReq senderName
  by_cases c : m.src = []
  · rw [if_pos (by simp [c]), if_pos c]
  · rw [if_neg (by simpa using c), if_neg c]
    exact name_set (h c)

/-- A result that is passed on was accepted by the entry of the subscriber. -/
theorem passedOn_cases {cfg : Cfg} {s : Sys} {a : Addr} {m : Msg} {e : Env} (h : PassedOn cfg s a m e) :
    s.ub = false ∧ ∃ d k t, Passes cfg e m (s.emit (.remoteRx a m)) d k t ∧ cfg.enc m = true
      ∧ step cfg s (.remoteRx a m e) = t.emit (.tx k.id m none) := by
  obtain ⟨c, h⟩ := h
  have hlen : s.log.length + 2 = (step cfg s (.remoteRx a m e)).log.length := by rw [h]; rfl
  by_cases hu : s.ub = true
  · exfalso
    unfold step at hlen
    rw [if_pos hu] at hlen
    omega
  · have hs : step cfg s (.remoteRx a m e) = remoteRx cfg e a m s := by
      unfold step; rw [if_neg hu]
    refine ⟨by simpa using hu, ?_⟩
    rw [hs] at h hlen
    cases hr : s.remote? a with
    | none =>
      exfalso
      unfold remoteRx at hlen
      rw [hr] at hlen
      dsimp only at hlen
      omega
    | some r =>
      have nope : ∀ {t : Sys} {l}, t.log = l ++ .remoteRx a m :: s.log → OnlyReply a l →
          (remoteRx cfg e a m s).log = t.log → False := by
        intro t l h1 h2 h3
        rw [h3, h1] at h
        rcases h2 with rfl | ⟨m', rfl⟩
        · rw [h3, h1] at hlen; simp at hlen
        · simp at h
      rcases remoteRx_cases cfg e m hr with ⟨d, k, t, -, hp, ⟨h1, h2⟩ | ⟨h1, l, h2, h3⟩⟩ | ⟨-, l, h2, h3⟩
      · exact ⟨d, k, t, hp, h1, by rw [hs]; exact h2⟩
      · exfalso
        have ht : t.log = .remoteRx a m :: s.log := by
          rcases ackFromRemote_some hp.ack with ⟨rfl, -⟩ | ⟨x, -, rfl⟩ | ⟨y, -, -, rfl⟩ <;> rfl
        exact nope (t := { t with log := l ++ t.log }) (by rw [ht]) h3 (by rw [h2])
      · exact (nope (t := { s with log := l ++ .remoteRx a m :: s.log }) rfl h3 (by rw [h2])).elim

/-- The names of the nodes that ask are proper. -/
def PrelimWf (s : Sys) : Prop := ∀ x ∈ s.proxy, ∀ cs, (x.data.dom cs).prelim.WF

theorem prelimWf_step {cfg : Cfg} {s : Sys} (hd : Done s) (h : PrelimWf s) (ev : Ev) : PrelimWf (step cfg s ev) := by
  intro y hy cs
  rcases step_proxy cfg s ev with hg | ⟨imsi, res, e, he, hf, hp⟩ | ⟨c, he, hp⟩ | ⟨hp, -⟩
  · rcases hg.from_ y hy with h0 | ⟨-, h0⟩
    · exact h y h0 cs
    · rcases h0.prelim cs with h1 | ⟨x, hx, -, h1⟩ | ⟨c, m, e, k, -, hk, -, h1⟩
      · rw [h1]; exact ⟨List.length_replicate, Nat.zero_le _⟩
      · rw [← h1]; exact h x hx cs
      · rw [← h1.2.2.2]
        obtain ⟨P, hi, -⟩ := hd
        exact (mkReq_ok (hi.connWf k (conn?_some hk).1) s.nextReq m).1.src
  · rw [hp] at hy; exact h y ((proxyRemove_sublist _ _).subset hy) cs
  · rw [hp] at hy; exact h y (List.mem_filter.1 hy).1 cs
  · rw [hp] at hy; cases hy

theorem byImsi_mem {l : List ProxyEntry} (hn : (l.map (·.data.imsi)).Nodup) {y : ProxyEntry} {d : ProxySub} (hy : y ∈ l)
    (h : proxyByImsi l y.data.imsi = some d) : y.data = d := by
  obtain ⟨hi, x, hx, rfl⟩ := byImsi_some h
  rw [mem_unique hn hy hx hi.symm]

/-- After a result was passed on to the node `m.dst`, nothing is awaited for it. -/
theorem passed_clears {cfg : Cfg} {s : Sys} {a : Addr} {m : Msg} {e : Env} (h : PassedOn cfg s a m e)
    (hn : (s.proxy.map (·.data.imsi)).Nodup) (hw : PrelimWf s) (ht : m.typ = UPDATE_LOCATION + 2) (hne : m.dst ≠ [])
    {y : ProxyEntry} (hy : y ∈ (step cfg s (.remoteRx a m e)).proxy) (hi : y.data.imsi = m.imsi) (cs : Bool) :
    (y.data.dom cs).prelim.name ≠ m.dst := by
  have hn' := nodup_step (cfg := cfg) hn (.remoteRx a m e)
  obtain ⟨-, d, k, t, hp, -, hs⟩ := passedOn_cases h
  rw [hs] at hy hn'
  have hdst := name_set hp.dst
  rcases ackFromRemote_some hp.ack with ⟨-, h0⟩ | ⟨x, h0, -⟩ | ⟨z, -, hz, rfl⟩
  · exact absurd ht h0
  · rw [h0] at ht; exact absurd ht (by decide)
  · obtain ⟨h1, -, -, -, h3⟩ := ackLuResult_some hz
    obtain ⟨hdi, x, hx, rfl⟩ := byImsi_some hp.entry
    have hyz : y.data = z := by
      apply byImsi_mem hn' hy
      rw [hi, ← hdi, ← h1]
      exact byImsi_put e.clock z (s.emit (.remoteRx a m))
    rw [hyz]
    have wx := hw x hx cs
    by_cases c : ipaCmp (ipaSet {} m.dst).2 (x.data.dom cs).prelim = 0
    · rw [(h3 cs).1 c]
      intro h0
      exact hne h0.symm
    · rw [(h3 cs).2 c]
      intro h0
      apply c
      rw [Gsup.Props.c25_cmp_eq (ipaSet_wf ⟨List.length_replicate, Nat.zero_le _⟩ _) wx, hdst, h0]

theorem run_snoc (cfg : Cfg) (s : Sys) (l : List (Cfg × Ev)) (ev : Ev) :
    run s (l ++ [(cfg, ev)]) = step cfg (run s l) ev := by
  rw [run_append]; rfl

/-- A request stays unanswered by any event that does not pass on its result. -/
theorem Requested.snoc {cfg : Cfg} {d : Db} {evs : List (Cfg × Ev)} {imsi : Bytes} {cs : Bool} {n : Bytes}
    (h : Requested d evs imsi cs n) {ev : Ev}
    (hev : ∀ a m e, ev = .remoteRx a m e → m.typ = UPDATE_LOCATION + 2 → m.imsi = imsi → m.dst = n →
      ¬ PassedOn cfg (run (init d) evs) a m e) : Requested d (evs ++ [(cfg, ev)]) imsi cs n := by
  obtain ⟨evs1, cfg1, c, m, e, evs2, k, rfl, h1, h2, h3, h4, h5, h6⟩ := h
  refine ⟨evs1, cfg1, c, m, e, evs2 ++ [(cfg, ev)], k, by simp, h1, h2, h3, h4, h5, ?_⟩
  intro x cfg' a m' e' y hxy ht hi hd
  rcases List.eq_nil_or_concat y with rfl | ⟨y', z, hy⟩
  · have : evs2 = x ∧ cfg = cfg' ∧ ev = .remoteRx a m' e' := by
      have := List.append_inj' hxy rfl
      exact ⟨this.1, by simpa using this.2⟩
    obtain ⟨rfl, rfl, rfl⟩ := this
    exact hev a m' e' rfl ht hi hd
  · rw [List.concat_eq_append] at hy
    subst hy
    have : evs2 = x ++ (cfg', .remoteRx a m' e') :: y' := by
      have h0 : evs2 ++ [(cfg, ev)] = (x ++ (cfg', .remoteRx a m' e') :: y') ++ [z] := by rw [hxy]; simp
      exact (List.append_inj' h0 rfl).1
    exact h6 x cfg' a m' e' y' this ht hi hd

/-- What is recorded as asked for was asked for. -/
def Asked (d : Db) (evs : List (Cfg × Ev)) : Prop :=
  ∀ x ∈ (run (init d) evs).proxy, ∀ cs, (x.data.dom cs).prelim.name = []
    ∨ Requested d evs x.data.imsi cs (x.data.dom cs).prelim.name

theorem asked_step {cfg : Cfg} {d : Db} {evs : List (Cfg × Ev)} (h : Asked d evs)
    (hw : PrelimWf (run (init d) evs)) (ev : Ev) : Asked d (evs ++ [(cfg, ev)]) := by
  have hn := c37_one_entry (s := run (init d) evs) ⟨d, evs, rfl⟩
  intro y hy cs
  rw [run_snoc] at hy
  by_cases hne : (y.data.dom cs).prelim.name = []
  · exact .inl hne
  · refine .inr ?_
    have key : ∀ imsi n, imsi = y.data.imsi → n = (y.data.dom cs).prelim.name →
        Requested d evs imsi cs n → Requested d (evs ++ [(cfg, ev)]) imsi cs n := by
      rintro imsi n rfl rfl hr
      refine hr.snoc ?_
      rintro a m e rfl ht hi hd hp
      exact passed_clears hp hn hw ht (by rw [hd]; exact hne) hy hi.symm cs hd.symm
    have old : ∀ x ∈ (run (init d) evs).proxy, x.data.imsi = y.data.imsi →
        (x.data.dom cs).prelim = (y.data.dom cs).prelim →
        Requested d (evs ++ [(cfg, ev)]) y.data.imsi cs (y.data.dom cs).prelim.name := by
      intro x hx hi hp
      rcases h x hx cs with h0 | h0
      · rw [hp] at h0; exact absurd h0 hne
      · rw [hp, hi] at h0
        exact key _ _ rfl rfl h0
    rcases step_proxy cfg (run (init d) evs) ev with hg | ⟨imsi, res, e, he, hf, hp⟩ | ⟨c, he, hp⟩ | ⟨hp, -⟩
    · rcases hg.from_ y hy with h0 | ⟨-, h0⟩
      · exact old y h0 rfl rfl
      · rcases h0.prelim cs with h1 | ⟨x, hx, hi, h1⟩ | ⟨c, m, e, k, rfl, hk, hset, h1, h2, h3, h4⟩
        · rw [h1] at hne; exact absurd rfl hne
        · exact old x hx hi h1
        · rw [mkReq_gsup] at h1 h2 h3
          refine ⟨evs, cfg, c, m, e, [], k, rfl, hk, h1, h2, h3, ?_, ?_⟩
          · rw [← h4]; exact (mkReq_source hset).symm
          · intro x cfg' a m' e' y' h; cases x <;> cases h
    · rw [hp] at hy; exact old y ((proxyRemove_sublist _ _).subset hy) rfl rfl
    · rw [hp] at hy; exact old y (List.mem_filter.1 hy).1 rfl rfl
    · rw [hp] at hy; cases hy

theorem asked_run (d : Db) (evs : List (Cfg × Ev)) :
    Asked d evs ∧ PrelimWf (run (init d) evs) := by
  have gen : ∀ (l pre : List (Cfg × Ev)), Asked d pre ∧ PrelimWf (run (init d) pre) →
      Asked d (pre ++ l) ∧ PrelimWf (run (init d) (pre ++ l)) := by
    intro l
    induction l with
    | nil => intro pre h; rw [List.append_nil]; exact h
    | cons ev l ih =>
      intro pre h
      have e1 : pre ++ ev :: l = (pre ++ [ev]) ++ l := by simp
      rw [e1]
      refine ih _ ⟨asked_step (cfg := ev.1) h.1 h.2 ev.2, ?_⟩
      rw [show [ev] = [(ev.1, ev.2)] from rfl, run_snoc]
      exact prelimWf_step (reach_done ⟨d, pre, rfl⟩) h.2 ev.2
  exact gen evs [] ⟨fun x hx => (by cases hx), fun x hx => (by cases hx)⟩

/-- The node that is asked for in an entry is the destination of the message. -/
theorem cmp_prelim {s : Sys} (hw : PrelimWf s) {m : Msg} (hd : (ipaSet {} m.dst).1 = 0) {x : ProxyEntry} (hx : x ∈ s.proxy)
    (cs : Bool) : ipaCmp (ipaSet {} m.dst).2 (x.data.dom cs).prelim = 0 ↔ (x.data.dom cs).prelim.name = m.dst := by
  rw [Gsup.Props.c25_cmp_eq (ipaSet_wf ⟨List.length_replicate, Nat.zero_le _⟩ _) (hw x hx cs), name_set hd]
  exact eq_comm

/-- An Update Location Result of a remote HLR is passed on to a node (with a name) only if
that node sent a Location Update for the subscriber that has not been answered yet. The
node is then the serving node in the domain of that request, from now on; a domain in
which it did not ask is left alone. -/
theorem c39_passed_partial (cfg : Cfg) (d : Db) (evs : List (Cfg × Ev)) {a : Addr} {m : Msg} {e : Env}
    (h : PassedOn cfg (run (init d) evs) a m e) (ht : m.typ = UPDATE_LOCATION + 2) (hne : m.dst ≠ []) :
    (∃ cs, Requested d evs m.imsi cs m.dst)
    ∧ ∃ x ∈ (run (init d) evs).proxy, ∃ y ∈ (run (init d) (evs ++ [(cfg, .remoteRx a m e)])).proxy,
      x.data.imsi = m.imsi ∧ y.data.imsi = m.imsi ∧ y.lastUpdate = e.clock
      ∧ (∃ cs, (y.data.dom cs).vlr.name = m.dst)
      ∧ ∀ cs, y.data.dom cs = x.data.dom cs
        ∨ (Requested d evs m.imsi cs m.dst ∧ (y.data.dom cs).vlr.name = m.dst ∧ (y.data.dom cs).lastLu = e.clock) := by
  obtain ⟨ha, hw⟩ := asked_run d evs
  obtain ⟨-, d', k, t, hp, -, hs⟩ := passedOn_cases h
  have hdst := name_set hp.dst
  rw [run_snoc, hs]
  rcases ackFromRemote_some hp.ack with ⟨-, h0⟩ | ⟨x, h0, -⟩ | ⟨z, -, hz, rfl⟩
  · exact absurd ht h0
  · rw [h0] at ht; exact absurd ht (by decide)
  · obtain ⟨h1, -, -, h2, h3⟩ := ackLuResult_some hz
    obtain ⟨hdi, x, hx, rfl⟩ := byImsi_some hp.entry
    have hx' : x ∈ (run (init d) evs).proxy := hx
    have req : ∀ cs, ipaCmp (ipaSet {} m.dst).2 (x.data.dom cs).prelim = 0 →
        Requested d evs m.imsi cs m.dst := by
      intro cs c
      rw [cmp_prelim hw hp.dst hx'] at c
      rcases ha x hx' cs with h4 | h4
      · rw [h4] at c; exact absurd c.symm hne
      · rw [c, hdi] at h4; exact h4
    have hc : ∃ cs, ipaCmp (ipaSet {} m.dst).2 (x.data.dom cs).prelim = 0 :=
      h2.elim (fun c => ⟨true, c⟩) (fun c => ⟨false, c⟩)
    have hput := byImsi_put e.clock z ((run (init d) evs).emit (.remoteRx a m))
    obtain ⟨-, y, hy, hyz⟩ := byImsi_some hput
    have hyi : y.data.imsi = m.imsi := by rw [hyz, h1, hdi]
    refine ⟨hc.imp req, x, hx', y, hy, hdi, hyi, ?_, ?_, ?_⟩
    · rcases c37_dated (cfg := cfg) (s := run (init d) evs) (.remoteRx a m e) (y := y) (by rw [hs]; exact hy) with h5 | h5
      · have : y = x := mem_unique (c37_one_entry ⟨d, evs, rfl⟩) h5 hx' (hyi.trans hdi.symm)
        obtain ⟨cs, c⟩ := hc
        exfalso
        refine passed_clears (cfg := cfg) h (c37_one_entry ⟨d, evs, rfl⟩) hw ht hne (y := y) (by rw [hs]; exact hy) hyi cs ?_
        rw [this]; exact (cmp_prelim hw hp.dst hx' cs).1 c
      · exact h5
    · obtain ⟨cs, c⟩ := hc
      refine ⟨cs, ?_⟩
      rw [hyz, (h3 cs).1 c]
      exact hdst
    · intro cs
      rw [hyz]
      by_cases c : ipaCmp (ipaSet {} m.dst).2 (x.data.dom cs).prelim = 0
      · exact .inr ⟨req cs c, by rw [(h3 cs).1 c]; exact hdst, by rw [(h3 cs).1 c]⟩
      · exact .inl ((h3 cs).2 c)

theorem serving_run (d : Db) (evs : List (Cfg × Ev)) : ∀ y ∈ (run (init d) evs).proxy, ∀ cs,
    (y.data.dom cs).vlr.len = 0 ∨ ∃ evs1 cfg a m e evs2, evs = evs1 ++ (cfg, .remoteRx a m e) :: evs2
      ∧ m.typ = UPDATE_LOCATION + 2 ∧ m.imsi = y.data.imsi ∧ m.dst = (y.data.dom cs).vlr.name
      ∧ (y.data.dom cs).lastLu = e.clock ∧ Requested d evs1 y.data.imsi cs m.dst := by
  have gen : ∀ (n : Nat) (evs : List (Cfg × Ev)), evs.length = n → ∀ y ∈ (run (init d) evs).proxy, ∀ cs,
    (y.data.dom cs).vlr.len = 0 ∨ ∃ evs1 cfg a m e evs2, evs = evs1 ++ (cfg, .remoteRx a m e) :: evs2
      ∧ m.typ = UPDATE_LOCATION + 2 ∧ m.imsi = y.data.imsi ∧ m.dst = (y.data.dom cs).vlr.name
      ∧ (y.data.dom cs).lastLu = e.clock ∧ Requested d evs1 y.data.imsi cs m.dst := by
    intro n
    induction n with
    | zero =>
      intro evs h y hy
      cases List.length_eq_zero_iff.1 h
      cases hy
    | succ n ih =>
      intro evs hl y hy cs
      rcases List.eq_nil_or_concat evs with rfl | ⟨pre, ⟨cfg1, ev⟩, he⟩
      · cases hl
      rw [List.concat_eq_append] at he
      subst he
      have hl' : pre.length = n := by simpa using hl
      have old : ∀ x ∈ (run (init d) pre).proxy, x.data.imsi = y.data.imsi →
          (x.data.dom cs).served = (y.data.dom cs).served → (y.data.dom cs).vlr.len = 0 ∨
          ∃ evs1 cfg a m e evs2, pre ++ [(cfg1, ev)] = evs1 ++ (cfg, .remoteRx a m e) :: evs2
          ∧ m.typ = UPDATE_LOCATION + 2 ∧ m.imsi = y.data.imsi ∧ m.dst = (y.data.dom cs).vlr.name
          ∧ (y.data.dom cs).lastLu = e.clock ∧ Requested d evs1 y.data.imsi cs m.dst := by
        intro x hx hi hs
        have hv : (x.data.dom cs).vlr = (y.data.dom cs).vlr := congrArg Prod.fst hs
        have hl : (x.data.dom cs).lastLu = (y.data.dom cs).lastLu := congrArg (fun z => z.2.1) hs
        rw [← hv, ← hl, ← hi]
        rcases ih pre hl' x hx cs with h | ⟨evs1, cfg, a, m, e, evs2, h1, h2⟩
        · exact .inl h
        · exact .inr ⟨evs1, cfg, a, m, e, evs2 ++ [(cfg1, ev)], by rw [h1]; simp, h2⟩
      rw [run_snoc] at hy
      obtain ⟨ha, hw⟩ := asked_run d pre
      rcases step_proxy cfg1 (run (init d) pre) ev with hg | ⟨imsi, res, e, he, hf, hp⟩ | ⟨c, he, hp⟩ | ⟨hp, -⟩
      · rcases hg.from_ y hy with h0 | ⟨-, h0⟩
        · exact old y h0 rfl rfl
        · rcases h0.served cs with h1 | ⟨x, hx, hi, h1⟩ | ⟨a, m, e, rfl, ht, hi, hd, h1, h2, x, hx, hxi, hc⟩
          · refine .inl ?_
            have : (y.data.dom cs).vlr = {} := congrArg Prod.fst h1
            rw [this]
          · exact old x hx hi h1
          · have hv : (y.data.dom cs).vlr.name = m.dst := by
              have : (y.data.dom cs).vlr = (ipaSet {} m.dst).2 := h1
              rw [this]; exact name_set hd
            rw [cmp_prelim hw hd hx] at hc
            by_cases hne : m.dst = []
            · refine .inl ?_
              have : (y.data.dom cs).vlr = (ipaSet {} m.dst).2 := h1
              rw [this, hne]; rfl
            · refine .inr ⟨pre, cfg1, a, m, e, [], rfl, ht, hi, hv.symm, h2, ?_⟩
              rcases ha x hx cs with h4 | h4
              · rw [h4] at hc; exact absurd hc.symm hne
              · rw [hc, hxi] at h4; exact h4
      · rw [hp] at hy; exact old y ((proxyRemove_sublist _ _).subset hy) rfl rfl
      · rw [hp] at hy; exact old y (List.mem_filter.1 hy).1 rfl rfl
      · rw [hp] at hy; cases hy
  exact gen _ evs rfl

/-- Whoever an entry shows as serving node of a domain asked for it: the node had sent a
Location Update for the subscriber in that domain, not answered yet when the remote HLR's
result arrived; that is also the time shown. -/
theorem c39_serving_partial (d : Db) (evs : List (Cfg × Ev)) : ∀ y ∈ (run (init d) evs).proxy, ∀ cs,
    (y.data.dom cs).vlr.name = [] ∨ ∃ evs1 cfg a m e evs2, evs = evs1 ++ (cfg, .remoteRx a m e) :: evs2
      ∧ m.typ = UPDATE_LOCATION + 2 ∧ m.imsi = y.data.imsi ∧ m.dst = (y.data.dom cs).vlr.name
      ∧ (y.data.dom cs).lastLu = e.clock ∧ Requested d evs1 y.data.imsi cs m.dst := by
  intro y hy cs
  rcases serving_run d evs y hy cs with h | h
  · refine .inl ?_
    unfold IpaName.name
    rw [h]; rfl
  · exact .inr h

/-- A message for a subscriber who is not known to the proxy is not passed on; the remote
HLR may be sent an error, nothing else happens. -/
theorem c39_unknown (cfg : Cfg) {s : Sys} {a : Addr} {m : Msg} {e : Env} {r : Remote} (hu : s.ub = false)
    (hr : s.remote? a = some r) (hno : ∀ x ∈ s.proxy, x.data.imsi ≠ m.imsi) :
    ∃ l, step cfg s (.remoteRx a m e) = { s with log := l ++ .remoteRx a m :: s.log } ∧ OnlyReply a l := by
  have hs : step cfg s (.remoteRx a m e) = remoteRx cfg e a m s := by
    unfold step; rw [if_neg (by simp [hu])]
  rw [hs]
  rcases remoteRx_cases cfg e m hr with ⟨d, k, t, -, hp, -⟩ | ⟨-, h⟩
  · obtain ⟨hi, x, hx, rfl⟩ := byImsi_some hp.entry
    exact absurd hi (hno x hx)
  · exact h

/-- A request for an unknown subscriber is answered with an error, if the link is up. -/
theorem c39_unknown_told (cfg : Cfg) {s : Sys} {a : Addr} {m : Msg} {e : Env} {r : Remote} (hu : s.ub = false)
    (hr : s.remote? a = some r) (hup : r.up = true) (hreq : isRequest m.typ = true) (henc : ∀ m, cfg.enc m = true)
    (hno : ∀ x ∈ s.proxy, x.data.imsi ≠ m.imsi) :
    ∃ m', step cfg s (.remoteRx a m e) = { s with log := .remote a m' none :: .remoteRx a m :: s.log }
      ∧ m'.typ = toError m.typ ∧ m'.imsi = m.imsi ∧ m'.cause.isSome := by
  have ha : r.addr = a := by
    have := List.find?_some hr
    simpa using this
  have hs : step cfg s (.remoteRx a m e) = remoteRx cfg e a m s := by
    unfold step; rw [if_neg (by simp [hu])]
  have hn : proxyByImsi (s.emit (.remoteRx a m)).proxy m.imsi = none := by
    cases hf : proxyByImsi (s.emit (.remoteRx a m)).proxy m.imsi with
    | none => rfl
    | some d =>
      obtain ⟨hi, x, hx, rfl⟩ := byImsi_some hf
      exact absurd hi (hno x hx)
  have rep : ∀ c, ∃ m', errReply cfg (s.emit (.remoteRx a m)) r m c
      = { s with log := .remote a m' none :: .remoteRx a m :: s.log }
      ∧ m'.typ = toError m.typ ∧ m'.imsi = m.imsi ∧ m'.cause.isSome := by
    intro c
    unfold errReply
    rw [if_neg (by simp [hreq])]
    dsimp only
    rw [if_pos (by simp [hup, henc]), ha]
    exact ⟨_, rfl, rfl, rfl, rfl⟩
  rw [hs]
  unfold remoteRx
  rw [hr]
  dsimp only
  rw [hn]
  split
  · exact rep _
  · exact rep _

/-- An Update Location Result for a node which is not waiting for one is not passed on,
and nothing is recorded. -/
theorem c39_not_asked (cfg : Cfg) {s : Sys} (h : Reach s) {a : Addr} {m : Msg} {e : Env} {r : Remote} (hu : s.ub = false)
    (hr : s.remote? a = some r) (ht : m.typ = UPDATE_LOCATION + 2)
    (hno : ∀ x ∈ s.proxy, x.data.imsi = m.imsi → ∀ cs, (x.data.dom cs).prelim.name ≠ m.dst) :
    step cfg s (.remoteRx a m e) = { s with log := .remoteRx a m :: s.log } := by
  obtain ⟨d, evs, rfl⟩ := h
  obtain ⟨-, hw⟩ := asked_run d evs
  have hs : step cfg (run (init d) evs) (.remoteRx a m e) = remoteRx cfg e a m (run (init d) evs) := by
    unfold step; rw [if_neg (by simp [hu])]
  have er : ∀ s c, errReply cfg s r m c = s := by
    intro s c
    unfold errReply
    rw [if_pos (by rw [ht]; decide)]
  rw [hs]
  unfold remoteRx
  rw [hr]
  dsimp only
  split
  · exact er _ _
  · cases hf : proxyByImsi ((run (init d) evs).emit (.remoteRx a m)).proxy m.imsi with
    | none => exact er _ _
    | some d' =>
      dsimp only
      rcases forwardToVlr_cases cfg e d' m ((run (init d) evs).emit (.remoteRx a m)) hf with ⟨k, t, hp, -⟩ | ⟨-, h⟩
      · exfalso
        obtain ⟨hi, x, hx, rfl⟩ := byImsi_some hf
        rcases ackFromRemote_some hp.ack with ⟨-, h0⟩ | ⟨x, h0, -⟩ | ⟨z, -, hz, rfl⟩
        · exact absurd ht h0
        · rw [h0] at ht; exact absurd ht (by decide)
        · obtain ⟨-, -, -, h2, -⟩ := ackLuResult_some hz
          rcases h2 with c | c
          · exact hno x hx hi true ((cmp_prelim hw hp.dst hx true).1 c)
          · exact hno x hx hi false ((cmp_prelim hw hp.dst hx false).1 c)
      · rw [h]
        exact er _ _

/-- A result for the node that is waiting for it is passed on, if the node is connected. -/
theorem c39_accepted (cfg : Cfg) {s : Sys} (h : Reach s) {a : Addr} {m : Msg} {e : Env} {r : Remote} (hu : s.ub = false)
    (hr : s.remote? a = some r) (ht : m.typ = UPDATE_LOCATION + 2) (hv : imsiValid m.imsi = true)
    {x : ProxyEntry} (hx : x ∈ s.proxy) (hi : x.data.imsi = m.imsi) {cs : Bool} (hc : (x.data.dom cs).prelim.name = m.dst)
    {k : Conn} (hroute : routeFind s.routes m.dst = some k.id) (hk : s.conn? k.id = some k) (henc : cfg.enc m = true) :
    PassedOn cfg s a m e := by
  have hone := c37_one_entry h
  have hlk := (c37_lookup h m.imsi x.data).1.2 ⟨hi, x, hx, rfl⟩
  obtain ⟨d, evs, rfl⟩ := h
  obtain ⟨-, hw⟩ := asked_run d evs
  have hs : step cfg (run (init d) evs) (.remoteRx a m e) = remoteRx cfg e a m (run (init d) evs) := by
    unfold step; rw [if_neg (by simp [hu])]
  have hd : (ipaSet {} m.dst).1 = 0 := by
    rw [← hc]
    exact ipaSet_ok (by rw [(hw x hx cs).name_length]; exact (hw x hx cs).2)
  have hlk' : proxyByImsi ((run (init d) evs).emit (.remoteRx a m)).proxy m.imsi = some x.data := hlk
  have hack : ∃ t, Passes cfg e m ((run (init d) evs).emit (.remoteRx a m)) x.data k t := by
    have hcmp := (cmp_prelim hw hd hx cs).2 hc
    have : ∃ y, ackLuResult e.clock x.data (ipaSet {} m.dst).2 k.name = some y := by
      unfold ackLuResult
      dsimp only
      refine ⟨_, if_neg (fun h => h ?_)⟩
      cases cs
      · exact .inr hcmp
      · exact .inl hcmp
    obtain ⟨y, hy⟩ := this
    refine ⟨proxyPut e.clock y ((run (init d) evs).emit (.remoteRx a m)), hlk', hd, ?_, hk, ?_⟩
    · rw [name_set hd]; exact hroute
    · unfold ackFromRemote
      rw [if_neg (by rw [ht]; decide), if_pos ht, hy]
      rfl
  obtain ⟨t, hp⟩ := hack
  rcases remoteRx_cases cfg e m hr with ⟨d', k', t', -, hp', ⟨-, h1⟩ | ⟨h1, -⟩⟩ | ⟨h1, -⟩
  · refine ⟨k'.id, ?_⟩
    rw [hs, h1]
    have ht' : t'.log = .remoteRx a m :: (run (init d) evs).log := by
      rcases ackFromRemote_some hp'.ack with ⟨rfl, -⟩ | ⟨x, -, rfl⟩ | ⟨y, -, -, rfl⟩ <;> rfl
    show _ :: t'.log = _
    rw [ht']
  · rw [henc] at h1; cases h1
  · exact absurd hp (h1 hv _ _ _)

/-! ## Examples -/

def imsi9 : Bytes := b "262420000000009"
def hlr9 : Addr where
  ip := 0x0a000009
  port := 4222

/-- A Location Update for a subscriber who is not in the local database. -/
def ul9 : Msg where
  typ := UPDATE_LOCATION
  imsi := imsi9
  cnDomain := 2

def ulRes9 : Msg where
  typ := UPDATE_LOCATION + 2
  imsi := imsi9
  dst := msc1

def dgsmEnv : Env where
  lookup := true
  clock := 1000

/-- MSC-1 asks; the home HLR is found and the link to it comes up. -/
def exAsk : List Ev :=
  exTwo ++ [.rx 1 (some ul9) dgsmEnv, .lookup imsi9 (some (hlr9, {})) dgsmEnv, .remoteUp hlr9]

example : ((runWith exCfg (init {}) exAsk).proxy.map (fun x => (x.data.imsi, x.data.cs.prelim.name, x.lastUpdate)))
      = [(imsi9, msc1, 1000)]
    ∧ (runWith exCfg (init {}) exAsk).ub = false
    ∧ (runWith exCfg (init {}) exAsk).log.head? = some (.concl 1 .forwarded) := by decide +kernel

example : PassedOn exCfg (runWith exCfg (init {}) exAsk) hlr9 ulRes9 { clock := 1001 } := ⟨1, by decide +kernel⟩

/-- That result is recorded. -/
example : ((runWith exCfg (init {}) (exAsk ++ [.remoteRx hlr9 ulRes9 { clock := 1001 }])).proxy.map
      (fun x => (x.data.imsi, x.data.cs.vlr.name, x.data.cs.lastLu, x.data.cs.prelim.name, x.lastUpdate)))
    = [(imsi9, msc1, 1001, [], 1001)] := by decide +kernel

/-- The hypotheses of `c39_accepted` and of `c39_not_asked` (a result for MSC-2, which did
not ask). -/
example : (runWith exCfg (init {}) exAsk).remote? hlr9 = some { addr := hlr9, up := true }
    ∧ imsiValid ulRes9.imsi = true
    ∧ routeFind (runWith exCfg (init {}) exAsk).routes msc1 = some 1
    ∧ exCfg.enc ulRes9 = true
    ∧ (∀ x ∈ (runWith exCfg (init {}) exAsk).proxy, x.data.cs.prelim.name ≠ msc2 ∧ x.data.ps.prelim.name ≠ msc2) := by
  decide +kernel

/-- A second result is not passed on: the first one answered the request. -/
example : (runWith exCfg (init {}) (exAsk ++ [.remoteRx hlr9 ulRes9 { clock := 1001 }, .remoteRx hlr9 ulRes9 { clock := 1002 }])).log.take 3
    = [.remoteRx hlr9 ulRes9, .tx 1 ulRes9 none, .remoteRx hlr9 ulRes9] := by decide +kernel

/-- A request of the remote HLR for a subscriber without an entry is answered with an error
(`c39_unknown_told`). -/
example : (runWith exCfg (init {}) (exAsk ++ [.remoteRx hlr9 { typ := LOCATION_CANCEL, imsi := imsi1, dst := msc1 } {}])).log.take 1
    = [.remote hlr9 { typ := LOCATION_CANCEL + 1, imsi := imsi1, cause := some .netFail } none] := by decide +kernel

/-- A stale entry is collected, one that was changed within the hour is kept. -/
example : (step exCfg (runWith exCfg (init {}) exAsk) (.proxyGc 4601)).proxy = []
    ∧ ((step exCfg (runWith exCfg (init {}) exAsk) (.proxyGc 4600)).proxy.map (·.data.imsi)) = [imsi9] := by decide +kernel

/-- A query that fails removes the entry (`c37_dropped_only`). -/
example : (runWith exCfg (init {}) (exTwo ++ [.rx 1 (some ul9) dgsmEnv, .lookup imsi9 none dgsmEnv])).proxy = [] := by
  decide +kernel

/-- The full C39 does not hold: a result without a destination name is passed on to a
connection registered under the empty name (that is what a CCM name of more than 128 bytes
does), though no Location Update was ever received. -/
theorem c39_empty_violated : ∃ (cfg : Cfg) (d : Db) (evs : List Ev) (a : Addr) (m : Msg) (e : Env),
    PassedOn cfg (runWith cfg (init d) evs) a m e ∧ m.typ = UPDATE_LOCATION + 2
    ∧ ∀ c m' e', Ev.rx c (some m') e' ∈ evs → m'.typ ≠ UPDATE_LOCATION := by
  refine ⟨exCfg, {}, [.connect, .ccm 1 (some (List.replicate 129 65)),
    .rx 1 (some { typ := SEND_AUTH_INFO, imsi := imsi9 }) dgsmEnv, .lookup imsi9 (some (hlr9, {})) dgsmEnv, .remoteUp hlr9],
    hlr9, { ulRes9 with dst := [] }, {}, ⟨1, by decide +kernel⟩, rfl, ?_⟩
  intro c m' e' h
  simp only [List.mem_cons, reduceCtorEq, false_or, List.not_mem_nil, or_false, Ev.rx.injEq, Option.some.injEq] at h
  rw [h.2.1]
  decide

end Verif.Sys.Props
