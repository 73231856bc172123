import Verif.Sys.Props8
import Verif.Sys.Props4
import Verif.Auc.Lemmas6
/-!
# No undefined behaviour

What an event must be like for the HLR to handle it without undefined behaviour.
-/
namespace Verif.Sys.Props
open Verif Verif.Db Verif.Gsup Verif.Hlr Verif.Sys

/-- From a state without undefined behaviour the HLR comes to another one. -/
def Safe (s t : Sys) : Prop := s.ub = false → t.ub = false

theorem Safe.same {s t : Sys} (h : t.ub = s.ub) : Safe s t := fun hu => h.trans hu

theorem safe_prims (cfg : Cfg) : PrimsD cfg (fun _ => True) Safe AnyOp (fun _ => True) where
  refl _ := .same rfl
  trans h h' hu := h' (h hu)
  types _ _ _ := trivial
  db _ _ _ := .same rfl
  crash _ := fun _ => rfl
  tx _ _ _ _ := .same rfl
  concl _ _ _ _ := .same rfl
  resp s q m _ _ := by rw [sendReqResponse_frame]; exact .same rfl
  dg _ _ _ := .same rfl
  pend _ _ _ := .same rfl
  remote _ _ _ _ _ := .same rfl
  remoteTx _ _ _ _ := .same rfl
  remoteRx _ _ _ := .same rfl

/-- A database program that never has this result. -/
def Never {α : Type} (bad : α) (m : DbM α) : Prop := ∀ w, (m w).1 ≠ some bad

theorem Never.pure {α : Type} {bad a : α} (h : a ≠ bad) : Never bad (pure a : DbM α) := by
  intro w e
  exact h (Option.some.inj e)

theorem Never.bind {α β : Type} {bad : β} {m : DbM α} {g : α → DbM β} (h : ∀ a, Never bad (g a)) : Never bad (m >>= g) := by
  intro w e
  rw [bind_run] at e
  rcases hx : m w with ⟨o, w'⟩
  rw [hx] at e
  cases o with
  | none => cases e
  | some a => exact h a w' e

theorem Never.ite {α : Type} {bad : α} {p : Prop} [Decidable p] {m m' : DbM α} (h : p → Never bad m) (h' : ¬ p → Never bad m') :
    Never bad (if p then m else m') := by
  split
  · exact h ‹_›
  · exact h' ‹_›

/-- The SMSCs that short messages are given to are configured ones. -/
def SmscOk (cfg : Cfg) : Prop :=
  (∀ rt ∈ cfg.smscRoutes, rt.2 ∈ cfg.smscs) ∧ ∀ n, cfg.smscDefault = some n → n ∈ cfg.smscs

theorem smsc_found {cfg : Cfg} (h : SmscOk cfg) {a : Bytes} {n : Ent} (hf : findSmscRoute cfg a = some n) : n ∈ cfg.smscs := by
  unfold findSmscRoute at hf
  split at hf
  · rename_i rt hrt
    cases hf
    exact h.1 _ (List.mem_of_find?_eq_some hrt)
  · exact h.2 _ hf

theorem moSms_safe {cfg : Cfg} (h : SmscOk cfg) (q : Req) (s : Sys) : Safe s (forwardMoSms cfg q s) := by
  have pr := safe_prims cfg
  unfold forwardMoSms
  dsimp only
  split
  · exact pr.respondErr _ trivial _
  · split
    · exact pr.respondErr _ trivial _
    · split
      · exact pr.respond _ trivial _ _ _ trivial
      · split
        · exact pr.respond _ trivial _ _ _ trivial
        · rename_i n hn
          rw [if_pos (smsc_found h hn)]
          exact pr.forwardToLocalPeer _ trivial _

theorem sai_safe (cfg : Cfg) (e : Env) (q : Req) {s : Sys} (hG : Auc.Good s.db) : Safe s (rxSaiReq cfg e q s) := by
  have pr := safe_prims cfg
  intro hu
  unfold rxSaiReq withDb
  have hp := (Auc.rxSai_saiPost cfg.hlr cfg.crypto e.rands e.rnd
    { imsi := q.gsup.imsi, source := q.source.name, num := q.gsup.numVectors,
      rand := q.gsup.rand, auts := q.gsup.auts, sgs := q.gsup.ratSgs }).exec s.db e.sc hG
  rcases hx : exec (rxSai cfg.hlr cfg.crypto e.rands e.rnd
    { imsi := q.gsup.imsi, source := q.source.name, num := q.gsup.numVectors,
      rand := q.gsup.rand, auts := q.gsup.auts, sgs := q.gsup.ratSgs }) s.db e.sc with ⟨o, d⟩
  rw [hx] at hp
  cases o with
  | none => rfl
  | some r =>
    dsimp only
    rcases hp with hp | ⟨d1, ind, x, hG1, -, hA, hr⟩
    · cases hp
    · cases x with
      | none => cases hr
      | some x =>
        have hr : r = Hlr.saiAnswer cfg.hlr x := Option.some.inj hr
        have hne : r ≠ .ub := by
          rw [hr]
          rcases Auc.aucPost_err hG1 hA with ⟨vs, rfl⟩ | rfl | rfl | ⟨rfl, -⟩ | ⟨rfl, -⟩
          · cases vs <;> simp [saiAnswer]
          all_goals
            unfold saiAnswer
            dsimp only
            repeat' split
            all_goals simp
        have h1 : Safe s { s with db := d } := .same rfl
        cases r with
        | result v => exact pr.trans h1 (pr.respond _ trivial _ _ _ trivial) hu
        | error c => exact pr.trans h1 (pr.respondErr _ trivial _) hu
        | ub => exact absurd rfl hne

/-! ## The names of peers -/

/-- A name that fills the 128 bytes of a name buffer and does not end with NUL, or one with a
percent sign (names from the database are used as formats of printf: db.h 199-203, hlr.c 281-283,
hlr_ussd.c 298). -/
def BadName (n : Bytes) : Prop := (n.length = 128 ∧ n.getLast? ≠ some 0) ∨ 37 ∈ n

instance (n : Bytes) : Decidable (BadName n) := inferInstanceAs (Decidable (_ ∨ _))

/-- The last byte of the name buffer is NUL, and there is no percent sign. -/
def Ended0 (n : IpaName) : Prop := n.val[127]? = some 0 ∧ 37 ∉ n.val

theorem ended_empty : Ended0 {} := by unfold Ended0; decide +kernel

theorem ended_cstr {n : IpaName} (h : Ended0 n) : ∃ v, n.cstr = some v := by
  unfold IpaName.cstr
  rw [if_pos (by simpa using List.mem_of_getElem? h.1)]
  exact ⟨_, rfl⟩

theorem cstr_plain {n : IpaName} (h : Ended0 n) {v : Bytes} (hv : n.cstr = some v) : 37 ∉ v := by
  unfold IpaName.cstr at hv
  split at hv
  · cases hv
    exact fun hm => h.2 ((List.takeWhile_sublist _).mem hm)
  · cases hv

theorem ended_set {n : IpaName} (h : Ended0 n) {v : Bytes} (hv : ¬ BadName v) : Ended0 (ipaSet n v).2 := by
  unfold ipaSet
  split
  · exact ended_empty
  · split
    · exact h
    · rename_i hl
      unfold Ended0
      dsimp only
      refine ⟨?_, fun hm => ?_⟩
      · by_cases he : v.length = 128
        · have : v.getLast? = some 0 := Decidable.byContradiction fun hc => hv (.inl ⟨he, hc⟩)
          rw [List.getElem?_append_left (by omega)]
          rw [List.getLast?_eq_getElem?, he] at this
          exact this
        · rw [List.getElem?_append_right (by omega), List.getElem?_drop]
          have : v.length + (127 - v.length) = 127 := by omega
          rw [this]
          exact h.1
      · rcases List.mem_append.1 hm with hm | hm
        · exact hv (.inr hm)
        · exact h.2 (List.mem_of_mem_drop hm)

/-- All names of connections are NUL-terminated. -/
def NamesOk (s : Sys) : Prop := ∀ k ∈ s.conns, Ended0 k.name

theorem mkReq_ended {k : Conn} (h : Ended0 k.name) {m : Msg} (hm : ¬ BadName m.src) (nr : Nat) :
    Ended0 (mkReq k nr m).source ∧ ∀ p, (mkReq k nr m).viaProxy = .ipa p → Ended0 p := by
  unfold mkReq
  split
  · exact ⟨h, fun p hp => by cases hp⟩
  · dsimp only
    refine ⟨ended_set h hm, fun p hp => ?_⟩
    split at hp
    · cases hp; exact h
    · cases hp

theorem updLoc_safe (cfg : Cfg) (e : Env) (k : Conn) {q : Req} (s : Sys) (h : Ended0 q.source)
    (hv : ∀ p, q.viaProxy = .ipa p → Ended0 p) : Safe s (rxUpdLocReq cfg e k q s) := by
  have pr := safe_prims cfg
  intro hu
  have hn : Never .ub (luStartDb cfg e q) := by
    unfold luStartDb
    refine .bind fun _ => .ite (fun _ => .pure (by simp)) fun _ => .bind fun a => ?_
    obtain ⟨rc, o⟩ := a
    cases o with
    | none => exact .pure (by simp)
    | some row =>
      dsimp only
      refine .ite (fun _ => .pure (by simp)) fun _ => .ite (fun _ => .pure (by simp)) fun _ => ?_
      obtain ⟨v, hv1⟩ := ended_cstr h
      rw [hv1]
      have fin : ∀ rc : Int, Never LuRes.ub (if rc ≠ 0 then pure (.fail .netFail) else pure (.wait (HlrSubscr.ofRow row))) :=
        fun rc => .ite (fun _ => .pure (by simp)) fun _ => .pure (by simp)
      cases hvp : q.viaProxy with
      | empty => exact .bind fin
      | ipa p =>
        dsimp only
        refine .ite (fun _ => .bind fin) fun _ => ?_
        obtain ⟨v', hv2⟩ := ended_cstr (hv p hvp)
        rw [hv2]
        exact .bind fin
  unfold rxUpdLocReq withDb
  dsimp only
  generalize hs1 : setConn s _ = s1
  have hu1 : s1.ub = false := by rw [← hs1]; exact hu
  have hnu := hn { db := s1.db, script := e.sc }
  rcases hx : exec (luStartDb cfg e q) s1.db e.sc with ⟨o, d⟩
  have hx1 : (luStartDb cfg e q { db := s1.db, script := e.sc }).1 = o := congrArg Prod.fst hx
  rw [hx1] at hnu
  cases o with
  | none => rfl
  | some r =>
    dsimp only
    have h1 : Safe s1 { s1 with db := d } := .same rfl
    cases r with
    | fail c => exact pr.trans h1 (pr.respondErr _ trivial _) hu1
    | wait sub =>
      refine pr.trans h1 ?_ hu1
      dsimp only
      generalize hL : ({ req := q, isPs := !q.gsup.isCs, subscr := sub } : Lu) = lu
      unfold luOnenter
      generalize isdMsg cfg _ _ _ = m
      cases m with
      | none => exact pr.respondErr _ trivial _
      | some m =>
        dsimp only
        have h2 := pr.respond { s1 with db := d } (q := lu.req) trivial m false false trivial
        by_cases hc : (respond cfg { s1 with db := d } lu.req m false false).1 ≠ 0
        · rw [if_pos hc]; exact pr.trans h2 (pr.respondErr _ trivial _)
        · rw [if_neg hc]; exact pr.trans h2 (.same rfl)
    | ub => exact absurd rfl hnu

/-! ## Events -/

/-- What the next event must not be. -/
def Sane (cfg : Cfg) (s : Sys) : Ev → Prop
  | .ccm _ (some n) => ¬ BadName n
  | .rx c (some m) _ => ¬ BadName m.src ∧ ∀ k, s.conn? c = some k → IsSs m.typ → ¬ Misread cfg s k m
  | .db op _ => NotLu op
  | _ => True

theorem readCb_safe {cfg : Cfg} (hE : EuseOk cfg) (hS : SmscOk cfg) (e : Env) (k : Conn) {q : Req} {s : Sys} (hG : Auc.Good s.db)
    (hiu : IuOk s) (h : Ended0 q.source) (hv : ∀ p, q.viaProxy = .ipa p → Ended0 p)
    (hmis : IsSs q.gsup.typ → ¬ (nameIsEuse q.source = false ∧ ∃ x ∈ s.sess, x.imsi = q.gsup.imsi ∧ x.id = q.gsup.sessId
      ∧ ∃ n, x.u = .euse n ∧ (x.isExternal = false ∨ n ∉ cfg.euses))) : Safe s (readCb cfg e k q s) := by
  have pr := safe_prims cfg
  refine pr.readCb2 e k trivial (fun _ => sai_safe cfg e q hG) (fun _ => updLoc_safe cfg e k s h hv)
    (fun hm hu => procSs_safe hE e hiu hu q (hmis hm)) ?_ (fun _ => moSms_safe hS q s) (fun _ _ => trivial)
  exact pr.luRx trivial (fun _ _ => trivial) (fun _ _ => .same rfl) (fun t lu _ _ _ _ => by
    rw [respondMsgt_frame]; exact .same rfl)

theorem rx_safe {cfg : Cfg} (hE : EuseOk cfg) (hS : SmscOk cfg) (e : Env) (c : ConnId) (mo : Option Msg) {s : Sys} (hG : Auc.Good s.db)
    (hiu : IuOk s) (hn : NamesOk s) (h : Sane cfg s (.rx c mo e)) : Safe s (rx cfg e c mo s) := by
  have pr := safe_prims cfg
  unfold rx
  split
  · exact .same rfl
  · rename_i k hk
    dsimp only
    split
    · exact .same rfl
    · rename_i m
      split
      · rw [respondMsgt_frame]; exact .same rfl
      · split
        · rw [respondErr_frame]; exact .same rfl
        · obtain ⟨h1, h2⟩ := h
          obtain ⟨e1, e2⟩ := mkReq_ended (hn k (conn?_some hk).1) h1 s.nextReq
          have h3 : IsSs (mkReq k s.nextReq m).gsup.typ → ¬ (nameIsEuse (mkReq k s.nextReq m).source = false ∧ ∃ x ∈ s.sess,
              x.imsi = (mkReq k s.nextReq m).gsup.imsi ∧ x.id = (mkReq k s.nextReq m).gsup.sessId
              ∧ ∃ n, x.u = .euse n ∧ (x.isExternal = false ∨ n ∉ cfg.euses)) := by
            rw [mkReq_gsup]
            exact h2 k hk
          unfold connRx
          split
          · exact readCb_safe (s := { s with nextReq := s.nextReq + 1, log := .rx s.nextReq c (some _) :: s.log })
              hE hS e k hG hiu e1 e2 h3
          · dsimp only
            split
            · rw [respondMsgt_frame]; exact .same rfl
            · exact readCb_safe (s := { s with nextReq := s.nextReq + 1, routes := _, log := .rx s.nextReq c (some _) :: s.log })
                hE hS e k hG hiu e1 e2 h3

theorem step_safe0 (cfg : Cfg) {s : Sys} (ev : Ev) (h : ∀ c m e, ev = .rx c m e → Safe s (rx cfg e c m s)) :
    Safe s (step cfg s ev) := by
  have pr := safe_prims cfg
  have hsess : SessOp (fun _ => True) Safe := fun _ _ _ => .same rfl
  unfold step
  split
  · exact .same rfl
  · cases ev with
    | connect => exact .same rfl
    | ccm c sernr =>
      dsimp only
      split
      · exact .same rfl
      · unfold ccmCb
        split <;> exact .same rfl
    | close c => dsimp only; split <;> exact .same rfl
    | rx c m e => exact h c m e rfl
    | luTimeout nr => exact pr.luTimeout nr (fun _ _ => trivial) (fun _ _ => .same rfl)
    | ssTimeout imsi id => exact pr.ssTimeout hsess imsi id (fun _ _ _ _ => trivial)
    | db op sc => exact pr.withDb (api_op trivial) (pr.refl s) (fun a d _ h => h)
    | notify imsi sc =>
      refine pr.withDb (api_getByImsi _) (pr.refl s) (fun a d _ h => ?_)
      split
      · exact pr.trans h (pr.notify _ _ _)
      · exact h
    | nam imsi val isPs sc sc' =>
      refine pr.withDb (api_getByImsi _) (pr.refl s) (fun a d _ h => ?_)
      split
      · exact pr.trans h (pr.nam _ _ _ _ _)
      · exact h
    | remoteUp a => exact (pr.remoteUp a s (fun _ _ => trivial)).1
    | remoteDown a => exact (pr.remoteDown a s (fun _ _ => trivial)).1
    | remoteLost a => exact (pr.remoteLost a s (fun _ _ => trivial)).1
    | remoteRx a m e => exact (pr.rxRemote e a m s trivial (fun _ _ => trivial)).1
    | lookup imsi res e => exact (pr.lookupResult e imsi res s (fun _ _ => trivial)).1
    | proxyGc clock => exact (pr.setProxy s _ (fun _ _ => trivial)).1
    | kill => exact pr.crash s

/-- One event. -/
theorem step_safe {cfg : Cfg} (hE : EuseOk cfg) (hS : SmscOk cfg) {s : Sys} (hG : Auc.Good s.db)
    (hiu : IuOk s) (hn : NamesOk s) (ev : Ev) (h : Sane cfg s ev) : Safe s (step cfg s ev) :=
  step_safe0 cfg ev fun c m e he => rx_safe hE hS e c m hG hiu hn (he ▸ h)

/-! ## Names in a run -/

/-- The names of connections stay NUL-terminated. -/
def NFr (s t : Sys) : Prop := NamesOk s → NamesOk t

theorem NFr.same {s t : Sys} (h : t.conns = s.conns) : NFr s t := fun hn k hk => hn k (h ▸ hk)

theorem nfr_prims (cfg : Cfg) : Prims cfg (fun _ => True) NFr where
  refl _ := .same rfl
  trans h h' hu := h' (h hu)
  db _ _ _ := .same rfl
  ub _ := .same rfl
  crash _ := fun _ k hk => by cases hk
  tx _ _ _ _ := .same rfl
  concl _ _ _ _ := .same rfl
  resp s q m _ _ := by rw [sendReqResponse_frame]; exact .same rfl
  dg _ _ _ := .same rfl
  pend _ _ _ := .same rfl
  remote _ _ _ _ _ := .same rfl
  remoteTx _ _ _ _ := .same rfl
  remoteRx _ _ _ := .same rfl

theorem nfr_setConn {s : Sys} {k : Conn} (h : NamesOk s → Ended0 k.name) : NFr s (setConn s k) := by
  intro hn x hx
  obtain ⟨y, hy, e⟩ := List.mem_map.1 hx
  split at e
  · rw [← e]; exact h hn
  · rw [← e]; exact hn y hy

theorem nfr_readCb (cfg : Cfg) (e : Env) {k : Conn} (q : Req) {s : Sys} (hk : k ∈ s.conns) : NFr s (readCb cfg e k q s) := by
  have pr := nfr_prims cfg
  have hsess : SessOp (fun _ => True) NFr := fun _ _ _ => .same rfl
  refine pr.readCb e k trivial ?_ ?_ ?_ (fun _ _ => trivial)
  · intro _
    refine pr.updLoc e trivial k (nfr_setConn fun hn => ?_) (fun _ _ _ => .same rfl)
    have := hn k hk
    split <;> exact this
  · intro h
    exact pr.procSs hsess e trivial h (fun _ _ _ _ => trivial)
  · refine pr.luRx trivial (fun _ _ => trivial) (fun _ _ => .same rfl) ?_
    intro t lu _ _ _ _
    rw [respondMsgt_frame]
    exact .same rfl

theorem nfr_rx (cfg : Cfg) (e : Env) (c : ConnId) (mo : Option Msg) (s : Sys) : NFr s (rx cfg e c mo s) := by
  unfold rx
  split
  · exact .same rfl
  · rename_i k hk
    have hk := (conn?_some hk).1
    dsimp only
    split
    · exact .same rfl
    · split
      · rw [respondMsgt_frame]; exact .same rfl
      · split
        · rw [respondErr_frame]; exact .same rfl
        · unfold connRx
          split
          · exact nfr_readCb cfg e _ (s := { s with nextReq := s.nextReq + 1, log := .rx s.nextReq c (some _) :: s.log }) hk
          · dsimp only
            split
            · rw [respondMsgt_frame]; exact .same rfl
            · exact nfr_readCb cfg e _
                (s := { s with nextReq := s.nextReq + 1, routes := _, log := .rx s.nextReq c (some _) :: s.log }) hk

theorem nfr_step (cfg : Cfg) (s : Sys) (ev : Ev) (h : Sane cfg s ev) : NFr s (step cfg s ev) := by
  have pr := nfr_prims cfg
  have hsess : SessOp (fun _ => True) NFr := fun _ _ _ => .same rfl
  have hclose : ∀ c, NFr s (close s c) := fun c hn k hk => hn k (List.mem_filter.1 hk).1
  unfold step
  split
  · exact .same rfl
  · cases ev with
    | connect =>
      intro hn k hk
      rcases List.mem_append.1 hk with hk | hk
      · exact hn k hk
      · rw [List.mem_singleton.1 hk]; exact ended_empty
    | ccm c sernr =>
      dsimp only
      split
      · exact .same rfl
      · rename_i k hk
        unfold ccmCb
        split
        · exact hclose _
        · exact hclose _
        · exact nfr_setConn fun hn => ended_set (hn k (conn?_some hk).1) h
    | close c =>
      dsimp only
      split
      · exact .same rfl
      · exact hclose _
    | rx c m e => exact nfr_rx cfg e c m s
    | luTimeout nr => exact pr.luTimeout nr (fun _ _ => trivial) (fun _ _ => .same rfl)
    | ssTimeout imsi id => exact pr.ssTimeout hsess imsi id (fun _ _ _ _ => trivial)
    | db op sc => exact pr.withDb (api_op trivial) (pr.refl s) (fun a d _ h => h)
    | notify imsi sc =>
      refine pr.withDb (api_getByImsi _) (pr.refl s) (fun a d _ h => ?_)
      split
      · exact pr.trans h (pr.notify _ _ _)
      · exact h
    | nam imsi val isPs sc sc' =>
      refine pr.withDb (api_getByImsi _) (pr.refl s) (fun a d _ h => ?_)
      split
      · exact pr.trans h (pr.nam _ _ _ _ _)
      · exact h
    | remoteUp a => exact (pr.remoteUp a s (fun _ _ => trivial)).1
    | remoteDown a => exact (pr.remoteDown a s (fun _ _ => trivial)).1
    | remoteLost a => exact (pr.remoteLost a s (fun _ _ => trivial)).1
    | remoteRx a m e => exact (pr.rxRemote e a m s trivial (fun _ _ => trivial)).1
    | lookup imsi res e => exact (pr.lookupResult e imsi res s (fun _ _ => trivial)).1
    | proxyGc clock => exact (pr.setProxy s _ (fun _ _ => trivial)).1
    | kill => exact pr.crash s

/-! ## Stored names in a run -/

/-- The names stored for a subscriber have no percent sign. -/
def PlainRow (r : SubRow) : Prop := ∀ ps, (∀ n, nodeOf r ps = some n → 37 ∉ n) ∧ ∀ n, viaOf r ps = some n → 37 ∉ n

/-- So for all subscribers. -/
def PlainDb (d : Db) : Prop := ∀ r ∈ d.subs, PlainRow r

theorem PlainRow.same {r r' : SubRow} (h : PlainRow r) (e : SamePlace r r') : PlainRow r' := fun ps => by
  rw [(e.2 ps).1, (e.2 ps).2.1]
  exact h ps

theorem PlainRow.unlocated {r : SubRow} (h : Unlocated r) : PlainRow r := fun ps => by
  rw [(h ps).1, (h ps).2.1]
  exact ⟨fun n e => (by cases e), fun n e => (by cases e)⟩

theorem plain_keep {d : Db} (hd : PlainDb d) {r' : SubRow} (h : Unlocated r' ∨ ∃ r ∈ d.subs, SamePlace r r') : PlainRow r' := by
  rcases h with h | ⟨r, hr, e⟩
  · exact .unlocated h
  · exact (hd r hr).same e

theorem plain_step (cfg : Cfg) {s : Sys} (hU : Unique s.db) (hd : PlainDb s.db) (hn : NamesOk s) (ev : Ev) (h : Sane cfg s ev) :
    PlainDb (step cfg s ev).db := by
  have hnp : ev.NoPlace := by
    cases ev with
    | db op sc => exact h
    | _ => trivial
  rcases step_place cfg s ev hnp with h1 | ⟨c, m, e, q, rfl, -, ⟨k, hk, hq⟩, h3⟩
  · exact fun r hr => plain_keep hd (linked_noNewPlace h1 r hr)
  · rw [h3]
    have hq : Ended0 q.source ∧ ∀ p, q.viaProxy = .ipa p → Ended0 p := by
      have hkn := hn k (conn?_some hk).1
      rcases hq with ⟨-, -, rfl⟩ | ⟨-, rfl⟩
      · exact ⟨hkn, fun p hp => by cases hp⟩
      · exact mkReq_ended hkn h.1 _
    intro r' hr'
    have hp := luStart_place cfg e q s.db hU
    rcases hp { db := s.db, script := e.sc } rfl r' hr' with h4 | ⟨n, via, hn1, hn2, h5 | ⟨-, e1, e2, -, e3⟩⟩
    · exact plain_keep hd h4
    · exact plain_keep hd h5
    · have hself : (∀ x, nodeOf r' (!q.gsup.isCs) = some x → 37 ∉ x) ∧ ∀ x, viaOf r' (!q.gsup.isCs) = some x → 37 ∉ x := by
        rw [e1, e2]
        refine ⟨fun x hx => ?_, fun x hx => ?_⟩
        · cases hx; exact cstr_plain hq.1 hn1
        · subst hx
          unfold viaName at hn2
          split at hn2
          · cases hn2
          · rename_i p hp
            split at hn2
            · cases hn2
            · obtain ⟨y, hy, hy2⟩ := Option.map_eq_some_iff.1 hn2
              cases hy2
              exact cstr_plain (hq.2 p hp) hy
      have hother : (∀ x, nodeOf r' (!!q.gsup.isCs) = some x → 37 ∉ x) ∧ ∀ x, viaOf r' (!!q.gsup.isCs) = some x → 37 ∉ x := by
        rcases e3 with ⟨e4, e5, -⟩ | ⟨r, hr, -, e4, e5, -⟩
        · rw [e4, e5]
          exact ⟨fun n e => (by cases e), fun n e => (by cases e)⟩
        · rw [e4, e5]
          exact hd r hr _
      intro ps
      by_cases hps : ps = !q.gsup.isCs
      · rw [hps]; exact hself
      · have : ps = !!q.gsup.isCs := by
          revert hps
          cases ps <;> cases q.gsup.isCs <;> simp
        rw [this]; exact hother

end Verif.Sys.Props
