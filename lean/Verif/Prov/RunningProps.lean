import Verif.Prov.Running
import Verif.Prov.VtyProps3
/-! # C56: commands given to the running HLR

`run2 (init d) l` ranges over all histories `l` of messages, timeouts, connections, kills and
VTY and CTRL commands, each with any configuration and any failures of the database. -/
namespace Verif.Prov.Running.Props
open Verif Verif.Db Verif.Gsup Verif.Sys Verif.Sys.Props Verif.Prov Verif.Prov.Running

/-! ## Commands are ordinary events -/

theorem linked_hist {d d' : Db} (h : Linked d d') : ∃ hist, d' = runHist d hist := by
  have app : ∀ (l l' : List (Op × Script)) (d : Db), runHist d (l ++ l') = runHist (runHist d l) l' := by
    intro l
    induction l with
    | nil => intro _ _; rfl
    | cons a l ih => intro l' d; exact ih l' _
  refine h (fun d d' => ∃ hist, d' = runHist d hist) ⟨fun d => ⟨[], rfl⟩, ?_⟩ ?_
  · rintro a b c ⟨l, rfl⟩ ⟨l', rfl⟩
    exact ⟨l ++ l', (app ..).symm⟩
  · intro op _ w
    exact ⟨[(op, w.script)], rfl⟩

/-- C56: whatever messages arrive and whatever commands are given, in any order and with any
failures, the database is one that calls of the database API lead to: all that is proved about
such databases (C01 – C25, C53 – C55) holds in the running HLR. -/
theorem c56_database (hist : List (Op × Script)) (l : List (Cfg × Ev2)) :
    ∃ hist', (run2 (init (runHist {} hist)) l).db = runHist {} hist' := by
  have hU := (reachable_good hist).unique
  obtain ⟨l1, h1⟩ := linked_hist (run2_linked (init (runHist {} hist)) hU l)
  refine ⟨hist ++ l1, ?_⟩
  rw [h1]
  show runHist (runHist {} hist) l1 = _
  generalize ({} : Db) = d
  clear h1 hU
  induction hist generalizing d with
  | nil => rfl
  | cons a hist ih => exact ih _

/-- C56: as long as no behaviour is undefined, the state of the HLR is one that the events of
`Verif.Sys` alone lead to: what is proved of all reachable states (C26 – C45) holds whatever
commands are given. -/
theorem c56_reach (d : Db) (hd : Unique d) (l : List (Cfg × Ev2)) (h : (run2 (init d) l).ub = false) :
    Reach (run2 (init d) l) := by
  obtain ⟨evs, he⟩ := run2_sim (init d) hd l h
  exact ⟨d, evs, he.run.symm⟩

/-- C56: for example, C27: a location update is granted only to a node that asked for it and
only after it has been recorded and the subscriber data has been acknowledged, whatever commands
are given in between. -/
theorem c56_granted (d : Db) (hd : Unique d) (l : List (Cfg × Ev2)) (hub : (run2 (init d) l).ub = false)
    {c' : ConnId} {m' : Gsup.Msg} {nr : Nat} (h : .tx c' m' (some nr) ∈ (run2 (init d) l).log)
    (ht : m'.typ = UPDATE_LOCATION + 2) :
    ∃ l1 cfg c m e l2 cfg' ca ack ea l3,
      l = l1 ++ (cfg, .sys (.rx c (some m) e)) :: l2 ++ (cfg', .sys (.rx ca (some ack) ea)) :: l3
      ∧ m.typ = UPDATE_LOCATION ∧ nr = (run2 (init d) l1).nextReq ∧ m'.dst = m.src ∧ m'.imsi = m.imsi
      ∧ ack.typ = INSERT_DATA + 2 ∧ ack.imsi = m.imsi
      ∧ ∃ q n via t, IsNew (run2 (init d) l1) c m q ∧ q.source.isEmpty = false
        ∧ q.source.cstr = some n ∧ viaName q.viaProxy = some via ∧ e.now = some t
        ∧ Recorded (run2 (init d) (l1 ++ [(cfg, .sys (.rx c (some m) e))])).db m.imsi (!m.isCs) n via t := by
  obtain ⟨evs, he⟩ := run2_sim (init d) hd l hub
  rw [← he.run] at h
  obtain ⟨e1, cfg, c, m, e, e2, cfg', ca, ack, ea, e3, rfl, h1, h2, hd, hd', h3, h4, q, n, via, t, h5, h6, h7, h8, h9, h10⟩ :=
    c27_granted d _ h ht
  rw [List.append_assoc] at he
  obtain ⟨l1, l', rfl, s1, s2⟩ := he.split rfl rfl
  obtain ⟨l2, l3, rfl, -, -⟩ := s2.split rfl rfl
  have snoc : ∀ (l : List (Cfg × Ev2)) (s : Sys) (x : Cfg × Ev2), run2 s (l ++ [x]) = step2 x.1 (run2 s l) x.2 := by
    intro l
    induction l with
    | nil => intro _ _; rfl
    | cons a l ih => intro s ev; exact ih _ ev
  refine ⟨l1, cfg, c, m, e, l2, cfg', ca, ack, ea, l3, by simp, h1, by rw [← s1.run]; exact h2, hd, hd', h3, h4, q, n, via, t,
    by rw [← s1.run]; exact h5, h6, h7, h8, h9, ?_⟩
  rw [snoc, ← s1.run]
  rw [run_append] at h10
  exact h10

/-! ## Telling the serving nodes -/

/-- C56: after `update msisdn` through the VTY the new number is stored and exactly the nodes
serving the subscriber are sent it.
Missing, as in C33: nodes that serve both domains, and connections whose name another has. -/
theorem c56_msisdn_partial (cfg : Cfg) (ck : Vty.Clock) (hist : List (Op × Script)) (s : Sys) (hs : s.db = runHist {} hist)
    (hu : s.ub = false) (sc sc1 sc2 : Script) (hsc : ∀ f ∈ sc, f = .ok) (t : Vty.IdType) (id m : Bytes) (r : SubRow)
    (h : Vty.Only s.db t id r) (hid : r.id < 2 ^ 63) (hm : Digits 1 15 m)
    (hfree : ∀ q ∈ s.db.subs, q.imsi ≠ r.imsi → q.msisdn ≠ some m)
    (hreg : ∀ k ∈ s.conns, ∀ peer, k.ccm = some peer → routeFind s.routes peer = some k.id)
    (hone : ∀ k ∈ s.conns, ¬ (k.supportsCs = true ∧ k.supportsPs = true)) :
    ∃ lg, vtyCmd cfg ck (.msisdn t id m) sc sc1 sc2 s
        = { s with db := withRow s.db r.imsi (fun q => { q with msisdn := some m }), log := lg ++ s.log }
      ∧ ∀ o, o ∈ lg ↔ ∃ k ∈ s.conns, ∃ isPs msg, Serves k (HlrSubscr.ofRow r) isPs
          ∧ isdMsg cfg r.imsi m isPs = some msg ∧ o = .tx k.id msg none := by
  rw [hs] at h hfree
  have hx := (Vty.Props.c55_msisdn ck hist sc hsc t id m r h hid hm).1 hfree
  have hG := reachable_good hist
  have hi := ofRow_imsi hG h.1
  have hm' : strlcpy 16 m = m := by
    unfold strlcpy
    exact List.take_of_length_le (by have := hm.2.1; omega)
  obtain ⟨lg, e1, e2⟩ := c33_notified_partial cfg (HlrSubscr.ofRow { r with msisdn := some m })
    { s with db := withRow (runHist {} hist) r.imsi fun q => { q with msisdn := some m } } hreg hone
  refine ⟨lg, ?_, fun o => ?_⟩
  · unfold vtyCmd
    rw [if_neg (by rw [hu]; simp)]
    dsimp only
    unfold withDb
    rw [hs, hx]
    exact e1
  · rw [e2 o]
    have h1 : (HlrSubscr.ofRow { r with msisdn := some m }).imsi = r.imsi := hi
    have h2 : (HlrSubscr.ofRow { r with msisdn := some m }).msisdn = m := hm'
    rw [h1, h2]
    rfl

/-- C56: `update msisdn none` through the VTY: the number is removed, and exactly the nodes
serving the subscriber are told, but what they are told is the number as it was before. -/
theorem c56_no_msisdn_partial (cfg : Cfg) (ck : Vty.Clock) (hist : List (Op × Script)) (s : Sys) (hs : s.db = runHist {} hist)
    (hu : s.ub = false) (sc sc1 sc2 : Script) (hsc : ∀ f ∈ sc, f = .ok) (t : Vty.IdType) (id : Bytes) (r : SubRow)
    (h : Vty.Only s.db t id r) (hid : r.id < 2 ^ 63)
    (hreg : ∀ k ∈ s.conns, ∀ peer, k.ccm = some peer → routeFind s.routes peer = some k.id)
    (hone : ∀ k ∈ s.conns, ¬ (k.supportsCs = true ∧ k.supportsPs = true)) :
    ∃ lg, vtyCmd cfg ck (.msisdn t id (b "none")) sc sc1 sc2 s
        = { s with db := withRow s.db r.imsi (fun q => { q with msisdn := none }), log := lg ++ s.log }
      ∧ ∀ o, o ∈ lg ↔ ∃ k ∈ s.conns, ∃ isPs msg, Serves k (HlrSubscr.ofRow r) isPs
          ∧ isdMsg cfg r.imsi (r.msisdn.getD []) isPs = some msg ∧ o = .tx k.id msg none := by
  rw [hs] at h
  have hx := Vty.Props.c55_no_msisdn ck hist sc hsc t id r h hid
  have hG := reachable_good hist
  have hi := ofRow_imsi hG h.1
  have hm : (HlrSubscr.ofRow r).msisdn = r.msisdn.getD [] := by
    have : strlcpy 16 (r.msisdn.getD []) = r.msisdn.getD [] := by
      cases hr : r.msisdn with
      | none => rfl
      | some m =>
        have := ((hG.idents r h.1).2.1 m hr).2.1
        unfold strlcpy
        exact List.take_of_length_le (by simp; omega)
    exact this
  obtain ⟨lg, e1, e2⟩ := c33_notified_partial cfg (HlrSubscr.ofRow r)
    { s with db := withRow (runHist {} hist) r.imsi fun q => { q with msisdn := none } } hreg hone
  refine ⟨lg, ?_, fun o => ?_⟩
  · unfold vtyCmd
    rw [if_neg (by rw [hu]; simp)]
    dsimp only
    unfold withDb
    rw [hs, hx]
    exact e1
  · rw [e2 o, hi, hm]

/-- C56: closing a domain through the VTY: both domains are as asked, and for each one that was
open and is closed the nodes recorded for the subscriber are told to delete their data.
Missing, as in C32: nodes that gave their name without NUL, or with more than 31 characters. -/
theorem c56_nam_partial (cfg : Cfg) (ck : Vty.Clock) (s : Sys) (hG : Good s.db) (hu : s.ub = false)
    (henc : ∀ m, cfg.enc m = true) (sc sc1 sc2 : Script) (hsc : ∀ f ∈ sc, f = .ok) (hsc1 : ∀ f ∈ sc1, f = .ok)
    (hsc2 : ∀ f ∈ sc2, f = .ok) (t : Vty.IdType) (id : Bytes) (r : SubRow) (h : Vty.Only s.db t id r)
    (hid : r.id < 2 ^ 63) (cs ps : Bool) (v : Bytes)
    (hv : v = match cs, ps with
      | false, false => b "none"
      | true, false => b "cs"
      | false, true => b "ps"
      | true, true => b "cs+ps") :
    let told := delData s r.imsi [r.sgsn.getD [] |>.take 31, r.vlr.getD [] |>.take 31]
    vtyCmd cfg ck (.nam t id v) sc sc1 sc2 s = { s with
      db := withRow s.db r.imsi (fun q => { q with namCs := cs, namPs := ps })
      log := (if r.namPs = true ∧ ps = false then told else []) ++ (if r.namCs = true ∧ cs = false then told else []) ++ s.log } := by
  intro told
  have hr := h.1
  have hd := (hG.idents r hr).1
  have hcs : Vty.contains (b "cs") v = cs := by rw [hv]; cases cs <;> cases ps <;> decide +kernel
  have hps : Vty.contains (b "ps") v = ps := by rw [hv]; cases cs <;> cases ps <;> decide +kernel
  have fate {sc : Script} (h : ∀ f ∈ sc, f = .ok) : firstFate sc = .ok := by
    cases sc with
    | nil => rfl
    | cons a l => exact h a (by simp)
  have hl : exec (Vty.lookup t id) s.db sc = (some (0, some r), s.db) := by
    rw [Vty.lookup_eq, (dbSel_uniform _).exec _ hsc]
    unfold exec
    rw [dbSel_nil, Vty.cond_names hG h hid]
  have h0 : vtyCmd cfg ck (.nam t id v) sc sc1 sc2 s
      = namCmd.second cfg v sc2 (HlrSubscr.ofRow r) (namCmd.first cfg v sc1 (HlrSubscr.ofRow r) s) := by
    unfold vtyCmd
    rw [if_neg (by rw [hu]; simp)]
    show namCmd cfg t id v sc sc1 sc2 s = _
    unfold namCmd withDb
    rw [hl]
  -- the CS domain
  have hf : namCmd.first cfg v sc1 (HlrSubscr.ofRow r) s = (some 0, { s with
      db := withRow s.db r.imsi (fun q => { q with namCs := cs })
      log := (if r.namCs = true ∧ cs = false then told else []) ++ s.log }) := by
    unfold namCmd.first
    rw [hcs]
    have hn : (HlrSubscr.ofRow r).namCs = r.namCs := rfl
    rw [hn]
    by_cases e : cs = r.namCs
    · rw [if_neg (fun h => h e), Vty.Props.withRow_self hG hr (by rw [e]), if_neg (by rw [e]; simp)]
      rfl
    · rw [if_pos e, ((c32_nam_partial cfg { sc := sc1 } s hG.unique hr hd henc cs false).2 (fun h => e h.symm)).1 (fate hsc1)]
      congr 2
      cases cs <;> cases hn : r.namCs <;> simp_all <;> rfl
  rw [h0, hf]
  unfold namCmd.second
  dsimp only
  rw [hps]
  have hn : (HlrSubscr.ofRow r).namPs = r.namPs := rfl
  rw [hn]
  have hw : ∀ g : SubRow → SubRow, (∀ q, (g q).imsi = q.imsi) → ∀ f : SubRow → SubRow,
      withRow (withRow s.db r.imsi g) r.imsi f = withRow s.db r.imsi (fun q => f (g q)) := by
    intro g hg f
    unfold withRow
    congr 1
    rw [List.map_map]
    apply List.map_congr_left
    intro q _
    show (if (if q.imsi = r.imsi then g q else q).imsi = r.imsi then f (if q.imsi = r.imsi then g q else q)
      else (if q.imsi = r.imsi then g q else q)) = _
    by_cases e : q.imsi = r.imsi
    · simp only [if_pos e, hg]
    · simp only [if_neg e]
  have hr1 : { r with namCs := cs } ∈ (withRow s.db r.imsi (fun q => { q with namCs := cs })).subs :=
    Vty.Props.withRow_mem hr (fun q => { q with namCs := cs })
  by_cases e : ps = r.namPs
  · have e0 : ¬ (r.namPs = true ∧ ps = false) := by rintro ⟨h1, h2⟩; rw [h1, h2] at e; cases e
    rw [if_neg (fun h => h e), if_neg e0, List.nil_append]
    congr 1
    unfold withRow
    congr 1
    apply List.map_congr_left
    intro q hq
    by_cases e1 : q.imsi = r.imsi
    · rw [if_pos e1, if_pos e1, eq_of_nodup_map hG.unique.imsis hq hr e1, e]
    · rw [if_neg e1, if_neg e1]
  · rw [if_pos e, snam_congr (sub := HlrSubscr.ofRow r) (sub' := HlrSubscr.ofRow { r with namCs := cs }) _ _ _ _ rfl rfl rfl rfl]
    have hU1 : Unique (withRow s.db r.imsi (fun q => { q with namCs := cs })) := by
      have := unique_op (.nam r.imsi cs false) { db := s.db, script := [] } hG.unique
      have hc := contract_nam s.db hG.unique [] r.imsi cs false
      have h0 := hc.success.mpr ⟨trivial, ⟨r, hr, rfl⟩, trivial, rfl⟩
      have := (show Unique (exec (Op.nam r.imsi cs false).run s.db []).2 from this)
      rw [show (exec (Op.nam r.imsi cs false).run s.db []).2 = _ from hc.effect h0] at this
      exact this
    rw [((c32_nam_partial cfg { sc := sc2 } { s with
        db := withRow s.db r.imsi (fun q => { q with namCs := cs })
        log := (if r.namCs = true ∧ cs = false then told else []) ++ s.log } hU1 hr1 hd henc ps true).2
          (fun h => e h.symm)).1 (fate hsc2)]
    dsimp only
    rw [hw (fun q => { q with namCs := cs }) (fun _ => rfl)]
    simp only [if_true]
    congr 1
    · rw [List.append_assoc]
      congr 1
      have he : r.namPs = !ps := by cases ps <;> cases hp : r.namPs <;> simp_all
      rw [he]
      cases ps <;> rfl

/-- C56: no other VTY command sends anything to a GSUP client (an MSISDN that is refused, an
unknown subscriber neither). -/
theorem c56_other (cfg : Cfg) (ck : Vty.Clock) (c : Vty.Cmd) (h1 : ∀ t id v, c ≠ .msisdn t id v)
    (h2 : ∀ t id v, c ≠ .nam t id v) (sc sc1 sc2 : Script) (s : Sys) :
    (vtyCmd cfg ck c sc sc1 sc2 s).log = s.log ∨ (vtyCmd cfg ck c sc sc1 sc2 s).log = .restart :: s.log := by
  by_cases hub : s.ub = true
  · unfold vtyCmd
    rw [if_pos hub]
    exact .inl rfl
  · have hv : vtyCmd cfg ck c sc sc1 sc2 s = withDb s sc (Vty.vty ck c) fun r s => match r with
        | .ub => { s with ub := true }
        | .done _ _ acts => acts.foldl (act cfg) s := by
      unfold vtyCmd
      rw [if_neg hub]
      cases c <;> first
        | rfl
        | exact absurd rfl (h2 _ _ _)
    rw [hv]
    unfold withDb
    rcases hx : exec (Vty.vty ck c) s.db sc with ⟨o, d⟩
    cases o with
    | none => exact .inr rfl
    | some res =>
      cases res with
      | ub => exact .inl rfl
      | done ok x acts =>
        have := quiet_vty ck c h1 h2 { db := s.db, script := sc } ok x acts (by
          have h9 : (exec (Vty.vty ck c) s.db sc).1 = some (.done ok x acts) := by rw [hx]
          exact h9)
        subst this
        exact .inl rfl

/-- C56: no CTRL command sends anything to a GSUP client: it changes the database and nothing
else, or the process dies. -/
theorem c56_ctrl (c : Cmd) (sc : Script) (s : Sys) : ∃ d, ctrlCmd c sc s = { s with db := d } ∨ ctrlCmd c sc s = Sys.crash { s with db := d } := by
  unfold ctrlCmd withDb
  split
  · exact ⟨s.db, .inl rfl⟩
  · rcases exec (ctrl c) s.db sc with ⟨o, d⟩
    cases o with
    | none => exact ⟨d, .inr rfl⟩
    | some r => exact ⟨d, .inl rfl⟩

/-! ## Concrete cases, and what goes wrong -/

/-- The subscriber of `exServed`, served by connections 1 (CS) and 2 (PS). -/
def served : List Ev2 := exServed.map .sys

/-- The messages sent unasked, with the numbers in them. -/
def sent (s : Sys) : List (ConnId × Nat × Bytes) :=
  s.log.filterMap fun | .tx c m none => some (c, m.typ, m.msisdn) | _ => none

/-- The commands of the theorems in that state. -/
example :
    notices (run2With exCfg (init {}) (served ++ [.vty Vty.Props.exClock (.msisdn .imsi imsi1 (b "77")) [] [] []]))
      = [(2, INSERT_DATA), (1, INSERT_DATA)]
    ∧ notices (run2With exCfg (init {}) (served ++ [.vty Vty.Props.exClock (.nam .imsi imsi1 (b "none")) [] [] []]))
      = [(2, DELETE_DATA), (1, DELETE_DATA), (2, DELETE_DATA), (1, DELETE_DATA)]
    ∧ notices (run2With exCfg (init {}) (served ++ [.vty Vty.Props.exClock (.nam .imsi imsi1 (b "ps")) [] [] []]))
      = [(2, DELETE_DATA), (1, DELETE_DATA)]
    ∧ notices (run2With exCfg (init {}) (served ++ [.vty Vty.Props.exClock (.nam .imsi imsi1 (b "cs+ps")) [] [] []])) = [] := by
  decide +kernel

/-- The hypotheses of `c56_msisdn_partial` and `c56_nam_partial` are met in it. -/
example :
    let s := run2With exCfg (init {}) served
    s.ub = false ∧ (∃ hist, s.db = runHist {} hist) ∧ (∃ r, Vty.Only s.db .imsi imsi1 r ∧ r.id < 2 ^ 63)
    ∧ (∀ k ∈ s.conns, ∀ peer ∈ k.ccm.toList, routeFind s.routes peer = some k.id)
    ∧ (∀ k ∈ s.conns, ¬ (k.supportsCs = true ∧ k.supportsPs = true))
    ∧ (∀ m, exCfg.enc m = true) := by
  obtain ⟨hist, hh⟩ := c56_database [] (served.map fun ev => (exCfg, ev))
  refine ⟨by decide +kernel, ⟨hist, hh⟩, ?_, by decide +kernel, by decide +kernel, fun _ => rfl⟩
  refine ⟨(run2With exCfg (init {}) served).db.subs.head (by decide +kernel), Vty.only_of ?_ (List.head_mem _) ?_ (by decide), by decide +kernel⟩
  · have hh : (run2With exCfg (init {}) served).db = runHist {} hist := hh
    rw [hh]
    exact reachable_good hist
  · show SubRow.imsi _ = _
    decide +kernel

/-- C56 fails: a serving node is told, after the MSISDN was removed, that it is what it was. -/
theorem c56_stale_violated : ∃ s, s = run2With exCfg (init {}) (served ++
      [.vty Vty.Props.exClock (.msisdn .imsi imsi1 (b "none")) [] [] []])
    ∧ s.ub = false ∧ s.db.subs.map (·.msisdn) = [none]
    ∧ ∃ m, exCfg.bcdEnc (b "1001") = some m ∧ m ≠ [] ∧ sent s = [(2, INSERT_DATA, m), (1, INSERT_DATA, m)] :=
  ⟨_, rfl, by decide +kernel, by decide +kernel, by decide +kernel⟩

/-- C56 fails: what is changed through the CTRL interface is not told to the serving nodes: the
subscriber loses access to the CS domain, and gets another number, and nobody is told. -/
theorem c56_ctrl_silent_violated : ∃ s, s = run2With exCfg (init {}) (served ++
      [.ctrl (.set (b "by-imsi-001010000000001") .cs (b "0")) [], .ctrl (.set (b "by-imsi-001010000000001") .msisdn (b "77")) []])
    ∧ s.ub = false ∧ s.db.subs.map (fun r => (r.imsi, r.namCs, r.msisdn)) = [(imsi1, false, some (b "77"))]
    ∧ notices s = [] :=
  ⟨_, rfl, by decide +kernel, by decide +kernel, by decide +kernel⟩

/-- C56 fails: nobody is told that a subscriber was deleted, and the nodes go on serving it. -/
theorem c56_delete_silent_violated : ∃ s, s = run2With exCfg (init {}) (served ++
      [.vty Vty.Props.exClock (.delete .imsi imsi1) [] [] []])
    ∧ s.ub = false ∧ s.db.subs = [] ∧ notices s = [] :=
  ⟨_, rfl, by decide +kernel, by decide +kernel, by decide +kernel⟩

end Verif.Prov.Running.Props
