import Verif.Sys.ProxyHist
import Verif.Sys.SessHist
import Verif.Sys.Props2
import Verif.Auc.Props
/-!
# Authentication in the running HLR

Every run of the HLR is a history of database operations and authentication requests as
in Verif.Auc, and the vectors sent out are the ones of that history.
-/
namespace Verif.Sys
open Verif Verif.Db Verif.Gsup Verif.Hlr Verif.Auc

/-- The sequence numbers in the Send Auth Info Results for `imsi` among the outputs `l`
(the last one first), in the order in which they were sent. -/
def sentSqns (imsi : Bytes) (l : List Out) : List Nat :=
  l.reverse.flatMap fun
    | .tx _ m (some _) => if m.typ = SEND_AUTH_INFO + 2 ∧ m.imsi = imsi then sqnsOf m.vecs else []
    | _ => []

theorem sentSqns_append (imsi : Bytes) (l l' : List Out) :
    sentSqns imsi (l ++ l') = sentSqns imsi l' ++ sentSqns imsi l := by
  unfold sentSqns
  rw [List.reverse_append, List.flatMap_append]

/-- The event neither re-provisions the 3G keys of subscriber `id`/`imsi` nor sets its
sequence number from outside, nor is a re-synchronisation of it. -/
def Ev.Plain (id : Int) (imsi : Bytes) : Ev → Prop
  | .db op sc => (Auc.Ev.db op sc).Plain id imsi
  | .rx _ (some m) _ => m.typ = SEND_AUTH_INFO → m.imsi = imsi → m.auts = none
  | _ => True

/-- The number of authentication requests in a history. -/
def numSai : List (Cfg × Ev) → Nat
  | [] => 0
  | (_, .rx _ (some m) _) :: l => numSai l + if m.typ = SEND_AUTH_INFO then 1 else 0
  | _ :: l => numSai l

/-! ## Database operations as histories -/

/-- An operation that leaves keys and sequence numbers alone. -/
def RoutineEv (h : Auc.Ev) : Prop := ∃ op sc, h = .db op sc ∧ Routine op

theorem runEvs_append (d : Db) (l l' : List Auc.Ev) : runEvs d (l ++ l') = runEvs (runEvs d l) l' := by
  induction l generalizing d with
  | nil => rfl
  | cons e l ih => exact ih _

theorem issued_append (imsi : Bytes) (d : Db) (l l' : List Auc.Ev) :
    issued imsi d (l ++ l') = issued imsi d l ++ issued imsi (runEvs d l) l' := by
  induction l generalizing d with
  | nil => rfl
  | cons e l ih =>
    have h : ∀ i, (e.exec i d).1 = (e.exec [] d).1 := by
      intro i
      cases e <;> rfl
    simp only [List.cons_append, issued, runEvs, h, ih, List.append_assoc]

theorem numSai_append (l l' : List Auc.Ev) : Auc.numSai (l ++ l') = Auc.numSai l + Auc.numSai l' := by
  induction l with
  | nil => simp [Auc.numSai]
  | cons e l ih => cases e <;> simp [Auc.numSai, ih] <;> omega

theorem linked_hist {P : Op → Prop} {d d' : Db} (h : LinkedBy P d d') :
    ∃ l : List Auc.Ev, runEvs d l = d' ∧ ∀ e ∈ l, ∃ op sc, e = .db op sc ∧ P op := by
  refine h (fun d d' => ∃ l : List Auc.Ev, runEvs d l = d' ∧ ∀ e ∈ l, ∃ op sc, e = .db op sc ∧ P op) ?_ ?_
  · refine ⟨fun d => ⟨[], rfl, fun _ h => by cases h⟩, ?_⟩
    rintro a b c ⟨l, h1, h2⟩ ⟨l', h3, h4⟩
    refine ⟨l ++ l', by rw [runEvs_append, h1, h3], ?_⟩
    intro e he
    rcases List.mem_append.1 he with he | he
    · exact h2 e he
    · exact h4 e he
  · intro op hop w
    refine ⟨[.db op w.script], rfl, ?_⟩
    intro e he
    exact ⟨op, w.script, List.mem_singleton.1 he, hop⟩

theorem routine_plain {h : Auc.Ev} (hr : RoutineEv h) (id : Int) (imsi : Bytes) : h.Plain id imsi := by
  obtain ⟨op, sc, rfl, ho⟩ := hr
  cases op <;> first | trivial | exact absurd ho (by simp [Routine])

theorem routine_numSai {l : List Auc.Ev} (h : ∀ e ∈ l, RoutineEv e) : Auc.numSai l = 0 := by
  induction l with
  | nil => rfl
  | cons e l ih =>
    obtain ⟨op, sc, rfl, -⟩ := h _ List.mem_cons_self
    exact ih fun e he => h e (List.mem_cons_of_mem _ he)

/-! ## Everything but authentication -/

/-- No vectors are sent and keys and sequence numbers stay. -/
structure AFr (s t : Sys) : Prop where
  log : ∃ l, t.log = l ++ s.log ∧ ∀ c m nr, .tx c m (some nr) ∈ l → m.typ ≠ SEND_AUTH_INFO + 2
  db : LinkedBy Routine s.db t.db

theorem AFr.same {s t : Sys} (h1 : t.log = s.log) (h2 : t.db = s.db) : AFr s t :=
  ⟨⟨[], h1, fun _ _ _ h => by cases h⟩, h2 ▸ LinkedBy.refl _⟩

theorem AFr.one {s t : Sys} (o : Out) (h1 : t.log = o :: s.log) (h2 : t.db = s.db)
    (h : ∀ c m nr, o = .tx c m (some nr) → m.typ ≠ SEND_AUTH_INFO + 2) : AFr s t :=
  ⟨⟨[o], h1, fun c m nr hm => h c m nr (List.mem_singleton.1 hm).symm⟩, h2 ▸ LinkedBy.refl _⟩

theorem AFr.trans {s t u : Sys} (h : AFr s t) (h' : AFr t u) : AFr s u := by
  obtain ⟨l, h1, h2⟩ := h.log
  obtain ⟨l', h3, h4⟩ := h'.log
  refine ⟨⟨l' ++ l, by rw [h3, h1, List.append_assoc], ?_⟩, h.db.trans h'.db⟩
  intro c m nr hm
  rcases List.mem_append.1 hm with hm | hm
  · exact h4 c m nr hm
  · exact h2 c m nr hm

theorem afr_prims (cfg : Cfg) : Prims cfg (fun _ => True) AFr Routine (fun t => t ≠ SEND_AUTH_INFO + 2) where
  refl _ := .same rfl rfl
  trans := AFr.trans
  quiet op h := by cases op <;> first | trivial | exact h
  db _ _ h := ⟨⟨[], rfl, fun _ _ _ h => by cases h⟩, h⟩
  ub _ := .same rfl rfl
  crash _ := .one .restart rfl rfl (by intros; simp_all)
  tx _ c m _ := .one (.tx c m none) rfl rfl (fun _ _ _ h => by cases h)
  concl _ q how _ := .one (.concl q.nr how) rfl rfl (fun _ _ _ h => by cases h)
  resp s q m _ ht := by
    unfold sendReqResponse
    split
    · exact .same rfl rfl
    · rename_i c _
      split
      · refine .one (.tx c m (some q.nr)) rfl rfl ?_
        intro c m nr h
        cases h
        exact ht
      · exact .same rfl rfl
  dg _ _ _ := .same rfl rfl
  pend _ _ _ := .same rfl rfl
  remote _ q a m _ := .one (.remote a m (some q.nr)) rfl rfl (fun _ _ _ h => by cases h)
  remoteTx _ a m _ := .one (.remote a m none) rfl rfl (fun _ _ _ h => by cases h)
  remoteRx _ a m := .one (.remoteRx a m) rfl rfl (fun _ _ _ h => by cases h)

theorem afr_dispatch (cfg : Cfg) (e : Env) (k : Conn) {q : Req} (s : Sys) (ht : q.gsup.typ ≠ SEND_AUTH_INFO) :
    AFr s (dispatch cfg e k q s) := by
  have pr := afr_prims cfg
  refine pr.dispatch' e k trivial (fun h => absurd h ht) ?_ ?_ ?_
  · intro _
    exact pr.updLoc e trivial k (.same rfl rfl) (fun _ _ _ => .same rfl rfl)
  · intro h
    exact pr.procSs (fun _ _ _ => .same rfl rfl) e trivial h (fun _ _ _ _ => trivial)
  · refine pr.luRx trivial (fun _ _ => trivial) (fun _ _ => .same rfl rfl) ?_
    intro t lu _ _ _ _
    exact pr.respondMsgt t trivial _ (by decide) (show UPDATE_LOCATION + 2 ≠ SEND_AUTH_INFO + 2 by decide)

/-- A message is either an authentication request that gets to its handler, or it has
nothing to do with vectors. -/
theorem readCb_auth (cfg : Cfg) (e : Env) (k : Conn) (q : Req) (s : Sys) :
    AFr s (readCb cfg e k q s)
    ∨ (q.gsup.typ = SEND_AUTH_INFO ∧ readCb cfg e k q s = rxSaiReq cfg e q s) := by
  have pr := afr_prims cfg
  have hd : AFr s (dispatch cfg e k q s)
      ∨ (q.gsup.typ = SEND_AUTH_INFO ∧ dispatch cfg e k q s = rxSaiReq cfg e q s) := by
    by_cases ht : q.gsup.typ = SEND_AUTH_INFO
    · refine .inr ⟨ht, ?_⟩
      unfold dispatch
      rw [if_pos ht]
    · exact .inl (afr_dispatch cfg e k s ht)
  rw [readCb_eq]
  split
  · exact .inl (pr.readCbForward s trivial)
  · split
    · split
      · exact .inl (pr.crash s)
      · split
        · exact hd
        · exact .inl (pr.proxied e trivial s (fun _ _ => trivial)).1
    · exact hd

theorem rx_auth (cfg : Cfg) (e : Env) (c : ConnId) (mo : Option Msg) (s : Sys) :
    AFr s (rx cfg e c mo s)
    ∨ ∃ m k rts, mo = some m ∧ m.typ = SEND_AUTH_INFO ∧ IsNew s c m (mkReq k s.nextReq m)
      ∧ rx cfg e c mo s = rxSaiReq cfg e (mkReq k s.nextReq m) (entered s c m rts) := by
  have pr := afr_prims cfg
  unfold rx
  split
  · exact .inl (pr.refl s)
  · rename_i k hk
    dsimp only
    split
    · exact .inl (AFr.trans (t := s.emit (.rx s.nextReq c none)) (.one (.rx s.nextReq c none) rfl rfl (fun _ _ _ h => by cases h))
        (.one (.concl s.nextReq .dropped) rfl rfl (fun _ _ _ h => by cases h)))
    · rename_i m
      have h1 : ∀ rts, AFr s (entered s c m rts) := fun rts =>
        .one (.rx s.nextReq c (some m)) rfl rfl (fun _ _ _ h => by cases h)
      split
      · exact .inl ((h1 s.routes).trans (pr.respondMsgt _ trivial _ (by decide) (pr.typ (by decide) (by decide))))
      · rename_i hs
        split
        · exact .inl ((h1 s.routes).trans (pr.respondErr _ trivial _))
        · have hn : IsNew s c m (mkReq k s.nextReq m) := ⟨k, hk, .inr ⟨hs, rfl⟩⟩
          have fin : ∀ rts, AFr s (readCb cfg e k (mkReq k s.nextReq m) (entered s c m rts))
              ∨ ∃ m' k' rts', some m = some m' ∧ m'.typ = SEND_AUTH_INFO ∧ IsNew s c m' (mkReq k' s.nextReq m')
                ∧ readCb cfg e k (mkReq k s.nextReq m) (entered s c m rts)
                  = rxSaiReq cfg e (mkReq k' s.nextReq m') (entered s c m' rts') := by
            intro rts
            rcases readCb_auth cfg e k (mkReq k s.nextReq m) (entered s c m rts) with h | ⟨h, h'⟩
            · exact .inl ((h1 rts).trans h)
            · rw [Props.mkReq_gsup] at h
              exact .inr ⟨m, k, rts, rfl, h, hn, h'⟩
          unfold connRx
          split
          · exact fin s.routes
          · dsimp only
            split
            · exact .inl ((h1 _).trans (pr.respondMsgt _ trivial _ (by decide) (pr.typ (by decide) (by decide))))
            · exact fin _

theorem step_auth (cfg : Cfg) (s : Sys) (ev : Ev) :
    AFr s (step cfg s ev)
    ∨ (∃ op sc l, ev = .db op sc ∧ (step cfg s ev).db = (exec op.run s.db sc).2 ∧ (step cfg s ev).log = l ++ s.log
        ∧ ∀ c m nr, .tx c m (some nr) ∉ l)
    ∨ ∃ c m e k rts, ev = .rx c (some m) e ∧ m.typ = SEND_AUTH_INFO ∧ IsNew s c m (mkReq k s.nextReq m)
      ∧ step cfg s ev = rxSaiReq cfg e (mkReq k s.nextReq m) (entered s c m rts) := by
  have pr := afr_prims cfg
  unfold step
  split
  · exact .inl (pr.refl s)
  · cases ev with
    | connect => exact .inl (.one _ rfl rfl (fun _ _ _ h => by cases h))
    | ccm c sernr =>
      refine .inl ?_
      dsimp only
      split
      · exact pr.refl s
      · unfold ccmCb
        split
        · exact .one (.closed _) rfl rfl (fun _ _ _ h => by cases h)
        · exact .one (.closed _) rfl rfl (fun _ _ _ h => by cases h)
        · exact .same rfl rfl
    | close c =>
      refine .inl ?_
      dsimp only
      split
      · exact pr.refl s
      · exact .one (.closed c) rfl rfl (fun _ _ _ h => by cases h)
    | rx c m e =>
      rcases rx_auth cfg e c m s with h | ⟨m', k, rts, rfl, h1, h2, h3⟩
      · exact .inl h
      · exact .inr (.inr ⟨c, m', e, k, rts, rfl, h1, h2, h3⟩)
    | luTimeout nr => exact .inl (pr.luTimeout nr (fun _ _ => trivial) (fun _ _ => .same rfl rfl))
    | ssTimeout imsi id => exact .inl (pr.ssTimeout (fun _ _ _ => .same rfl rfl) imsi id (fun _ _ _ _ => trivial))
    | db op sc =>
      refine .inr (.inl ?_)
      dsimp only
      unfold withDb
      split
      · exact ⟨op, sc, [.restart], rfl, rfl, rfl, by simp⟩
      · exact ⟨op, sc, [], rfl, rfl, rfl, by simp⟩
    | notify imsi sc =>
      refine .inl (pr.withDb (api_getByImsi _) (pr.refl s) (fun a d _ h => ?_))
      split
      · exact pr.trans h (pr.notify _ _ _)
      · exact h
    | nam imsi val isPs sc sc' =>
      refine .inl (pr.withDb (api_getByImsi _) (pr.refl s) (fun a d _ h => ?_))
      split
      · exact pr.trans h (pr.nam _ _ _ _ _)
      · exact h
    | remoteUp a => exact .inl (pr.remoteUp a s (fun _ _ => trivial)).1
    | remoteDown a => exact .inl (pr.remoteDown a s (fun _ _ => trivial)).1
    | remoteLost a => exact .inl (pr.remoteLost a s (fun _ _ => trivial)).1
    | remoteRx a m e => exact .inl (pr.rxRemote e a m s trivial (fun _ _ => trivial)).1
    | lookup imsi res e => exact .inl (pr.lookupResult e imsi res s (fun _ _ => trivial)).1
    | proxyGc clock => exact .inl (pr.setProxy s _ (fun _ _ => trivial)).1
    | kill => exact .inl (pr.crash s)

/-! ## Authentication -/

/-- The authentication request in a message. -/
def saiReq (q : Req) : SaiReq :=
  { imsi := q.gsup.imsi, source := q.source.name, num := q.gsup.numVectors,
    rand := q.gsup.rand, auts := q.gsup.auts, sgs := q.gsup.ratSgs }

/-- What an authentication request sends: the vectors made for it, or no vectors. -/
theorem sai_cases (cfg : Cfg) (e : Env) (q : Req) (s : Sys) :
    (rxSaiReq cfg e q s).db = (exec (rxSai cfg.hlr cfg.crypto e.rands e.rnd (saiReq q)) s.db e.sc).2
    ∧ ∃ l, (rxSaiReq cfg e q s).log = l ++ s.log
      ∧ ((∀ c m nr, .tx c m (some nr) ∈ l → m.typ ≠ SEND_AUTH_INFO + 2)
        ∨ ∃ c m v, l = [.concl q.nr .answered, .tx c m (some q.nr)] ∧ m.typ = SEND_AUTH_INFO + 2 ∧ m.imsi = q.gsup.imsi
          ∧ m.vecs = v ∧ (exec (rxSai cfg.hlr cfg.crypto e.rands e.rnd (saiReq q)) s.db e.sc).1 = some (.result v)) := by
  have pr := afr_prims cfg
  have e1 : rxSaiReq cfg e q s = withDb s e.sc (rxSai cfg.hlr cfg.crypto e.rands e.rnd (saiReq q))
      fun r s => match r with
        | .result v => (respond cfg s q { typ := SEND_AUTH_INFO + 2, vecs := v } false true).2
        | .error c => respondErr cfg s q c
        | .ub => { s with ub := true } := rfl
  rw [e1]
  unfold withDb
  generalize exec (rxSai cfg.hlr cfg.crypto e.rands e.rnd (saiReq q)) s.db e.sc = r
  obtain ⟨o, d⟩ := r
  cases o with
  | none => exact ⟨rfl, [.restart], rfl, .inl (by simp)⟩
  | some o =>
    cases o with
    | error c =>
      dsimp only
      refine ⟨by rw [respondErr_frame], ?_⟩
      obtain ⟨l, h1, h2⟩ := (pr.respondErr { s with db := d } (q := q) trivial c).log
      exact ⟨l, h1, .inl h2⟩
    | ub => exact ⟨rfl, [], rfl, .inl (by simp)⟩
    | result v =>
      dsimp only
      refine ⟨by rw [respond_frame], ?_⟩
      unfold respond
      dsimp only
      rw [if_pos rfl]
      split
      · exact ⟨[.concl q.nr .answered], rfl, .inl (by simp)⟩
      · unfold sendReqResponse
        split
        · exact ⟨[.concl q.nr .answered], rfl, .inl (by simp)⟩
        · rename_i c _
          split
          · refine ⟨[.concl q.nr .answered, .tx c _ (some q.nr)], rfl, .inr ⟨c, _, v, rfl, ?_, ?_, ?_, rfl⟩⟩
            · rfl
            · simp [makeResponse, fillResponse]
            · rfl
          · exact ⟨[.concl q.nr .answered], rfl, .inl (by simp)⟩

theorem sentSqns_nil {l : List Out} (h : ∀ c m nr, .tx c m (some nr) ∈ l → m.typ ≠ SEND_AUTH_INFO + 2) (imsi : Bytes) :
    sentSqns imsi l = [] := by
  unfold sentSqns
  rw [List.flatMap_eq_nil_iff]
  intro o ho
  split
  · rw [if_neg]
    exact fun hh => h _ _ _ (List.mem_reverse.1 ho) hh.1
  · rfl

/-- An event as a part of a history of Verif.Auc. -/
theorem step_auc (cfg : Cfg) (s : Sys) (ev : Ev) : ∃ hist l, (step cfg s ev).log = l ++ s.log
    ∧ runEvs s.db hist = (step cfg s ev).db ∧ (∀ imsi, (sentSqns imsi l).Sublist (issued imsi s.db hist))
    ∧ (∀ id imsi, ev.Plain id imsi → ∀ h ∈ hist, h.Plain id imsi) ∧ Auc.numSai hist ≤ numSai [(cfg, ev)] := by
  rcases step_auth cfg s ev with h | ⟨op, sc, l, rfl, h1, h2, h3⟩ | ⟨c, m, e, k, rts, rfl, h1, -, h3⟩
  · obtain ⟨l, h1, h2⟩ := h.log
    obtain ⟨hist, h3, h4⟩ := linked_hist h.db
    refine ⟨hist, l, h1, h3, ?_, fun id imsi _ e he => routine_plain (h4 e he) id imsi, ?_⟩
    · intro imsi
      rw [sentSqns_nil h2]
      exact List.nil_sublist _
    · rw [routine_numSai h4]
      exact Nat.zero_le _
  · refine ⟨[.db op sc], l, h2, h1.symm, ?_, ?_, Nat.zero_le _⟩
    · intro imsi
      rw [sentSqns_nil (fun c m nr h => absurd h (h3 c m nr))]
      exact List.nil_sublist _
    · intro id imsi hp h hh
      rw [List.mem_singleton.1 hh]
      exact hp
  · obtain ⟨hdb, l, hl, hc⟩ := sai_cases cfg e (mkReq k s.nextReq m) (entered s c m rts)
    rw [h3]
    refine ⟨[.sai cfg.hlr cfg.crypto e.rands e.rnd (saiReq (mkReq k s.nextReq m)) e.sc], l ++ [.rx s.nextReq c (some m)],
      by rw [hl]; simp [entered], hdb.symm, ?_, ?_, ?_⟩
    · intro imsi
      rw [sentSqns_append]
      rw [sentSqns_nil (l := [.rx s.nextReq c (some m)]) (fun _ _ _ h => by simp at h), List.nil_append]
      rcases hc with hc | ⟨c', m', v, rfl, h4, h5, h6, h7⟩
      · rw [sentSqns_nil hc]
        exact List.nil_sublist _
      · have e1 : sentSqns imsi [.concl (mkReq k s.nextReq m).nr .answered, .tx c' m' (some (mkReq k s.nextReq m).nr)]
            = if (saiReq (mkReq k s.nextReq m)).imsi = imsi then sqnsOf v else [] := by
          show (if m'.typ = SEND_AUTH_INFO + 2 ∧ m'.imsi = imsi then sqnsOf m'.vecs else []) ++ [] = _
          rw [h5, h6]
          simp [h4, saiReq, eq_comm]
        rw [e1]
        show List.Sublist _ ((match (exec (rxSai cfg.hlr cfg.crypto e.rands e.rnd (saiReq (mkReq k s.nextReq m)))
          s.db e.sc).1 with
          | some (.result vs) => if (saiReq (mkReq k s.nextReq m)).imsi = imsi then sqnsOf vs else []
          | _ => []) ++ [])
        have h7' : (exec (rxSai cfg.hlr cfg.crypto e.rands e.rnd (saiReq (mkReq k s.nextReq m)))
          s.db e.sc).1 = some (.result v) := h7
        rw [h7', List.append_nil]
        exact List.Sublist.refl _
    · intro id imsi hp h hh
      rw [List.mem_singleton.1 hh]
      intro hi
      have : (saiReq (mkReq k s.nextReq m)).imsi = m.imsi := by
        unfold saiReq
        rw [Props.mkReq_gsup]
      show (mkReq k s.nextReq m).gsup.auts = none
      rw [Props.mkReq_gsup]
      exact hp h1 (this.symm.trans hi)
    · simp [Auc.numSai, numSai, h1]

theorem numSai_cons (x : Cfg × Ev) (l : List (Cfg × Ev)) : numSai (x :: l) = numSai [x] + numSai l := by
  obtain ⟨cfg, ev⟩ := x
  cases ev with
  | rx c mo e =>
    cases mo with
    | none => simp [numSai]
    | some m => simp only [numSai]; omega
  | _ => simp [numSai]

/-- Every run is a history of Verif.Auc. -/
theorem run_auc (s : Sys) (evs : List (Cfg × Ev)) : ∃ hist l, (run s evs).log = l ++ s.log
    ∧ runEvs s.db hist = (run s evs).db ∧ (∀ imsi, (sentSqns imsi l).Sublist (issued imsi s.db hist))
    ∧ (∀ id imsi, (∀ x ∈ evs, x.2.Plain id imsi) → ∀ h ∈ hist, h.Plain id imsi) ∧ Auc.numSai hist ≤ numSai evs := by
  induction evs generalizing s with
  | nil => exact ⟨[], [], rfl, rfl, fun _ => List.Sublist.refl _, (fun _ _ _ _ h => (by cases h)), Nat.le_refl _⟩
  | cons x evs ih =>
    obtain ⟨cfg, ev⟩ := x
    obtain ⟨h1, l1, a1, a2, a3, a4, a5⟩ := step_auc cfg s ev
    obtain ⟨h2, l2, b1, b2, b3, b4, b5⟩ := ih (step cfg s ev)
    refine ⟨h1 ++ h2, l2 ++ l1, ?_, ?_, ?_, ?_, ?_⟩
    · show (run (step cfg s ev) evs).log = _
      rw [b1, a1, List.append_assoc]
    · rw [runEvs_append, a2, b2]
      rfl
    · intro imsi
      rw [sentSqns_append, issued_append, a2]
      exact (a3 imsi).append (b3 imsi)
    · intro id imsi hp h hh
      rcases List.mem_append.1 hh with hh | hh
      · exact a4 id imsi (hp _ List.mem_cons_self) h hh
      · exact b4 id imsi (fun x hx => hp x (List.mem_cons_of_mem _ hx)) h hh
    · rw [numSai_append, numSai_cons]
      omega

end Verif.Sys
