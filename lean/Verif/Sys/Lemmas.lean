import Verif.Sys.Spec
import Verif.Db.Invariants
namespace Verif.Sys
open Verif Verif.Db Verif.Gsup Verif.Hlr

/-- Well formed request. -/
structure ReqOk (q : Req) : Prop where
  src : q.source.WF
  prox : ∀ n, q.viaProxy = .ipa n → n.WF

/-- The requests of a session are supplementary service messages with its IMSI and id. -/
def SessReqOk (x : Sess) : Prop :=
  ∀ q ∈ x.reqs, IsSs q.gsup.typ ∧ q.gsup.imsi = x.imsi ∧ q.gsup.sessId = x.id

/-- The invariant of the running HLR while the requests `P` are in the hands of a
handler. -/
structure Inv (P : List Req) (s : Sys) : Prop where
  good : GoodLog s.log
  nodup : ((P ++ waiting s).map (·.nr)).Nodup
  isopen : ∀ nr, isOpen nr s.log = true ↔ nr ∈ (P ++ waiting s).map (·.nr)
  fresh : ∀ nr c m, Out.rx nr c m ∈ s.log → nr < s.nextReq
  keys : (s.sess.map Sess.key).Nodup
  routesNodup : (s.routes.map (·.1)).Nodup
  routesLive : ∀ r ∈ s.routes, ∃ k ∈ s.conns, k.id = r.2
  connNodup : (s.conns.map (·.id)).Nodup
  connFresh : ∀ k ∈ s.conns, k.id < s.nextConn
  connWf : ∀ k ∈ s.conns, k.name.WF
  reqOk : ∀ q ∈ P ++ waiting s, ReqOk q
  logged : ∀ q ∈ P ++ waiting s, Out.rx q.nr q.conn (some q.gsup) ∈ s.log
  lus : ∀ lu ∈ s.lus, lu.req.gsup.typ = UPDATE_LOCATION ∧ lu.isPs = !lu.req.gsup.isCs
  sessReq : ∀ x ∈ s.sess, SessReqOk x
  prov : ∀ q ∈ P ++ waiting s, ∀ c m, Out.tx c m (some q.nr) ∈ s.log → Provisional q.gsup m
  norem : ∀ q ∈ P ++ waiting s, ∀ a m, Out.remote a m (some q.nr) ∉ s.log

/-- A finished event: no request is left behind. -/
def Done (s : Sys) : Prop := ∃ P, Inv P s ∧ (s.ub = false → P = [])

theorem Inv.done {s : Sys} (h : Inv [] s) : Done s := ⟨[], h, fun _ => rfl⟩

/-! ## The log -/

theorem isOpen_rx {nr : Nat} {l : List Out} (h : isOpen nr l = true) : ∃ c m, Out.rx nr c m ∈ l := by
  induction l with
  | nil => simp [isOpen] at h
  | cons o l ih =>
    cases o with
    | rx n c m =>
      simp only [isOpen, Bool.or_eq_true, beq_iff_eq] at h
      rcases h with h | h
      · subst h; exact ⟨c, m, List.mem_cons_self ..⟩
      · obtain ⟨c', m', hm⟩ := ih h
        exact ⟨c', m', List.mem_cons_of_mem _ hm⟩
    | concl n how =>
      simp only [isOpen, Bool.and_eq_true] at h
      obtain ⟨c', m', hm⟩ := ih h.2
      exact ⟨c', m', List.mem_cons_of_mem _ hm⟩
    | restart => simp [isOpen] at h
    | tx c m re =>
      obtain ⟨c', m', hm⟩ := ih h
      exact ⟨c', m', List.mem_cons_of_mem _ hm⟩
    | connected c =>
      obtain ⟨c', m', hm⟩ := ih h
      exact ⟨c', m', List.mem_cons_of_mem _ hm⟩
    | closed c =>
      obtain ⟨c', m', hm⟩ := ih h
      exact ⟨c', m', List.mem_cons_of_mem _ hm⟩
    | remote a m re =>
      obtain ⟨c', m', hm⟩ := ih h
      exact ⟨c', m', List.mem_cons_of_mem _ hm⟩
    | remoteRx a m =>
      obtain ⟨c', m', hm⟩ := ih h
      exact ⟨c', m', List.mem_cons_of_mem _ hm⟩

/-- A state that differs from `s` only in its log and database and that has the same
open requests. -/
theorem Inv.sameLog {P : List Req} {s t : Sys} (h : Inv P s)
    (e1 : t.lus = s.lus) (e2 : t.sess = s.sess) (e3 : t.routes = s.routes)
    (e4 : t.conns = s.conns) (e5 : t.nextReq = s.nextReq) (e6 : t.nextConn = s.nextConn)
    (e7 : t.pending = s.pending)
    (g : GoodLog t.log) (o : ∀ nr, isOpen nr t.log = isOpen nr s.log)
    (sub : ∀ x ∈ s.log, x ∈ t.log) (rxs : ∀ nr c m, Out.rx nr c m ∈ t.log → Out.rx nr c m ∈ s.log)
    (txs : ∀ nr c m, Out.tx c m (some nr) ∈ t.log → Out.tx c m (some nr) ∈ s.log
      ∨ ∀ q ∈ P ++ waiting s, q.nr = nr → Provisional q.gsup m)
    (rems : ∀ nr a m, Out.remote a m (some nr) ∈ t.log → Out.remote a m (some nr) ∈ s.log
      ∨ ∀ q ∈ P ++ waiting s, q.nr ≠ nr) :
    Inv P t := by
  have w : waiting t = waiting s := by simp [waiting, e1, e2, e7]
  exact
    { good := g
      nodup := by rw [w]; exact h.nodup
      isopen := fun nr => by rw [w, o]; exact h.isopen nr
      fresh := fun nr c m hm => by rw [e5]; exact h.fresh nr c m (rxs nr c m hm)
      keys := by rw [e2]; exact h.keys
      routesNodup := by rw [e3]; exact h.routesNodup
      routesLive := by rw [e3, e4]; exact h.routesLive
      connNodup := by rw [e4]; exact h.connNodup
      connFresh := by rw [e4, e6]; exact h.connFresh
      connWf := by rw [e4]; exact h.connWf
      reqOk := by rw [w]; exact h.reqOk
      logged := by rw [w]; exact fun q hq => sub _ (h.logged q hq)
      lus := by rw [e1]; exact h.lus
      sessReq := by rw [e2]; exact h.sessReq
      prov := by
        rw [w]
        intro q hq c m hm
        rcases txs _ _ _ hm with hm | hm
        · exact h.prov q hq c m hm
        · exact hm q hq rfl
      norem := by
        rw [w]
        intro q hq a m hm
        rcases rems _ _ _ hm with hm | hm
        · exact h.norem q hq a m hm
        · exact hm q hq rfl }

theorem Inv.tx {P : List Req} {s : Sys} (h : Inv P s) (c : ConnId) (m : Msg) :
    Inv P (s.emit (.tx c m none)) :=
  h.sameLog rfl rfl rfl rfl rfl rfl rfl ⟨trivial, h.good⟩ (fun _ => rfl)
    (fun _ hx => List.mem_cons_of_mem _ hx)
    (fun _ _ _ hx => by rcases List.mem_cons.1 hx with hx | hx; cases hx; exact hx)
    (fun _ _ _ hx => by rcases List.mem_cons.1 hx with hx | hx; cases hx; exact .inl hx)
    (fun _ _ _ hx => by rcases List.mem_cons.1 hx with hx | hx; cases hx; exact .inl hx)

theorem Inv.remoteTx {P : List Req} {s : Sys} (h : Inv P s) (a : Addr) (m : Msg) :
    Inv P (s.emit (.remote a m none)) :=
  h.sameLog rfl rfl rfl rfl rfl rfl rfl ⟨trivial, h.good⟩ (fun _ => rfl)
    (fun _ hx => List.mem_cons_of_mem _ hx)
    (fun _ _ _ hx => by rcases List.mem_cons.1 hx with hx | hx; cases hx; exact hx)
    (fun _ _ _ hx => by rcases List.mem_cons.1 hx with hx | hx; cases hx; exact .inl hx)
    (fun _ _ _ hx => by rcases List.mem_cons.1 hx with hx | hx; cases hx; exact .inl hx)

theorem Inv.remoteIn {P : List Req} {s : Sys} (h : Inv P s) (a : Addr) (m : Msg) :
    Inv P (s.emit (.remoteRx a m)) :=
  h.sameLog rfl rfl rfl rfl rfl rfl rfl ⟨trivial, h.good⟩ (fun _ => rfl)
    (fun _ hx => List.mem_cons_of_mem _ hx)
    (fun _ _ _ hx => by rcases List.mem_cons.1 hx with hx | hx; cases hx; exact hx)
    (fun _ _ _ hx => by rcases List.mem_cons.1 hx with hx | hx; cases hx; exact .inl hx)
    (fun _ _ _ hx => by rcases List.mem_cons.1 hx with hx | hx; cases hx; exact .inl hx)

theorem Inv.txRe {P : List Req} {s : Sys} (h : Inv P s) {q : Req} (hq : q ∈ P ++ waiting s)
    (c : ConnId) (m : Msg) (hc : Correlated m q.gsup) (hp : Provisional q.gsup m) :
    Inv P (s.emit (.tx c m (some q.nr))) :=
  h.sameLog rfl rfl rfl rfl rfl rfl rfl
    ⟨⟨(h.isopen q.nr).2 (List.mem_map_of_mem hq), _, _, h.logged q hq, hc, h.prov q hq, h.norem q hq⟩,
      h.good⟩ (fun _ => rfl)
    (fun _ hx => List.mem_cons_of_mem _ hx)
    (fun _ _ _ hx => by rcases List.mem_cons.1 hx with hx | hx; cases hx; exact hx)
    (fun _ _ _ hx => by
      rcases List.mem_cons.1 hx with hx | hx
      · cases hx
        right
        intro q' hq' e
        rw [eq_of_nodup_map h.nodup hq' hq e]
        exact hp
      · exact .inl hx)
    (fun _ _ _ hx => by rcases List.mem_cons.1 hx with hx | hx; cases hx; exact .inl hx)

theorem Inv.setDb {P : List Req} {s : Sys} (h : Inv P s) (d : Db) : Inv P { s with db := d } :=
  h.sameLog rfl rfl rfl rfl rfl rfl rfl h.good (fun _ => rfl) (fun _ hx => hx) (fun _ _ _ hx => hx)
    (fun _ _ _ hx => .inl hx) (fun _ _ _ hx => .inl hx)

theorem Inv.setUb {P : List Req} {s : Sys} (h : Inv P s) : Inv P { s with ub := true } :=
  h.sameLog rfl rfl rfl rfl rfl rfl rfl h.good (fun _ => rfl) (fun _ hx => hx) (fun _ _ _ hx => hx)
    (fun _ _ _ hx => .inl hx) (fun _ _ _ hx => .inl hx)

theorem Inv.ub {P : List Req} {s : Sys} (h : Inv P s) : Done { s with ub := true } :=
  ⟨P, h.setUb, fun e => by cases e⟩

theorem Inv.concl {P : List Req} {q : Req} {s : Sys} (h : Inv (q :: P) s) (how : How)
    (ok : HowOk q.gsup.typ how) : Inv P (s.emit (.concl q.nr how)) := by
  have nd := h.nodup
  simp only [List.cons_append, List.map_cons, List.nodup_cons] at nd
  exact
    { good := ⟨⟨(h.isopen q.nr).2 (by simp), _, _, h.logged q (by simp),
        fun m hm => by cases hm; exact ok⟩, h.good⟩
      nodup := nd.2
      isopen := fun nr => by
        show (q.nr != nr && isOpen nr s.log) = true ↔ _
        rw [Bool.and_eq_true, h.isopen nr]
        simp only [List.cons_append, List.map_cons, List.mem_cons, bne_iff_ne, ne_eq]
        constructor
        · rintro ⟨h1, h2 | h2⟩
          · exact absurd h2.symm h1
          · exact h2
        · intro h2
          refine ⟨?_, .inr h2⟩
          intro e; exact nd.1 (e ▸ h2)
      fresh := fun nr c m hm => h.fresh nr c m (by
        rcases List.mem_cons.1 hm with hx | hx; cases hx; exact hx)
      keys := h.keys
      routesNodup := h.routesNodup
      routesLive := h.routesLive
      connNodup := h.connNodup
      connFresh := h.connFresh
      connWf := h.connWf
      reqOk := fun q' hq => h.reqOk q' (List.mem_cons_of_mem _ hq)
      logged := fun q' hq => List.mem_cons_of_mem _ (h.logged q' (List.mem_cons_of_mem _ hq))
      lus := h.lus, sessReq := h.sessReq
      prov := fun q' hq c m hm => h.prov q' (List.mem_cons_of_mem _ hq) c m (by
        rcases List.mem_cons.1 hm with hx | hx; cases hx; exact hx)
      norem := fun q' hq c m hm => h.norem q' (List.mem_cons_of_mem _ hq) c m (by
        rcases List.mem_cons.1 hm with hx | hx; cases hx; exact hx) }

/-- Moving requests between the handler and the waiting procedures. -/
theorem Inv.move' {P P' : List Req} {s : Sys} (h : Inv P s) (lus : List Lu) (sess : List Sess)
    (pend : List Req)
    (hp : (P' ++ (lus.map (·.req) ++ sess.flatMap Sess.reqs ++ pend)).Perm (P ++ waiting s))
    (hk : (sess.map Sess.key).Nodup)
    (hl : ∀ lu ∈ lus, lu.req.gsup.typ = UPDATE_LOCATION ∧ lu.isPs = !lu.req.gsup.isCs)
    (hs : ∀ x ∈ sess, SessReqOk x) :
    Inv P' { s with lus := lus, sess := sess, pending := pend } := by
  have hw : waiting { s with lus := lus, sess := sess, pending := pend }
    = lus.map (·.req) ++ sess.flatMap Sess.reqs ++ pend := rfl
  exact
    { good := h.good
      nodup := by rw [hw]; exact (hp.map _).nodup_iff.2 h.nodup
      isopen := fun nr => by rw [hw, (hp.map _).mem_iff]; exact h.isopen nr
      fresh := h.fresh
      keys := hk
      routesNodup := h.routesNodup
      routesLive := h.routesLive
      connNodup := h.connNodup
      connFresh := h.connFresh
      connWf := h.connWf
      reqOk := fun q hq => h.reqOk q (hp.mem_iff.1 (by rw [hw] at hq; exact hq))
      logged := fun q hq => h.logged q (hp.mem_iff.1 (by rw [hw] at hq; exact hq))
      lus := hl, sessReq := hs
      prov := fun q hq => h.prov q (hp.mem_iff.1 (by rw [hw] at hq; exact hq))
      norem := fun q hq => h.norem q (hp.mem_iff.1 (by rw [hw] at hq; exact hq)) }

theorem Inv.move {P P' : List Req} {s : Sys} (h : Inv P s) (lus : List Lu) (sess : List Sess)
    (hp : (P' ++ (lus.map (·.req) ++ sess.flatMap Sess.reqs)).Perm
      (P ++ (s.lus.map (·.req) ++ s.sess.flatMap Sess.reqs)))
    (hk : (sess.map Sess.key).Nodup)
    (hl : ∀ lu ∈ lus, lu.req.gsup.typ = UPDATE_LOCATION ∧ lu.isPs = !lu.req.gsup.isCs)
    (hs : ∀ x ∈ sess, SessReqOk x) :
    Inv P' { s with lus := lus, sess := sess } := by
  refine h.move' lus sess s.pending ?_ hk hl hs
  have := hp.append_right s.pending
  simpa only [waiting, List.append_assoc] using this

theorem Inv.crash {P : List Req} {s : Sys} (h : Inv P s) : Inv [] s.crash :=
  { good := ⟨trivial, h.good⟩
    nodup := by simp [waiting, Sys.crash]
    isopen := fun nr => by simp [waiting, Sys.crash, isOpen]
    fresh := fun nr c m hm => h.fresh nr c m (by
        rcases List.mem_cons.1 hm with hx | hx; cases hx; exact hx)
    keys := by simp [Sys.crash]
    routesNodup := by simp [Sys.crash]
    routesLive := by simp [Sys.crash]
    connNodup := by simp [Sys.crash]
    connFresh := by simp [Sys.crash]
    connWf := by simp [Sys.crash]
    reqOk := by simp [Sys.crash, waiting]
    logged := by simp [Sys.crash, waiting]
    lus := by simp [Sys.crash]
    sessReq := by simp [Sys.crash]
    prov := by simp [Sys.crash, waiting]
    norem := by simp [Sys.crash, waiting] }

theorem Inv.withDb {P : List Req} {s : Sys} {α : Type} {m : DbM α} {sc : Script} {k : α → Sys → Sys}
    (h : Inv P s) (hk : ∀ a d, (exec m s.db sc) = (some a, d) → Done (k a { s with db := d })) :
    Done (withDb s sc m k) := by
  unfold Verif.Sys.withDb
  split
  · exact ((h.setDb _).crash).done
  · rename_i a ha
    exact hk a _ (Prod.ext ha rfl)

/-! ## Responses -/

theorem Inv.sendReqResponse {P : List Req} {s : Sys} (cfg : Cfg) (h : Inv P s) {q : Req}
    (hq : q ∈ P ++ waiting s) (m : Msg) (hc : Correlated m q.gsup) (hp : Provisional q.gsup m) :
    Inv P (sendReqResponse cfg s q m) := by
  unfold Verif.Sys.sendReqResponse
  split
  · exact h
  · split
    · exact h.txRe hq _ _ hc hp
    · exact h

/-- A response is sent only if it can be recognised. -/
theorem makeResponse_correlated {reply rx : Msg} {error final : Bool}
    (h : ¬ (makeResponse reply rx error final).1 ≠ 0) :
    Correlated (makeResponse reply rx error final).2 rx := by
  have h : responseRc (fillResponse reply rx error final) rx = 0 := by
    simpa [makeResponse] using h
  unfold responseRc at h
  constructor
  · by_cases c : (fillResponse reply rx error final).imsi = rx.imsi
    · exact c
    · rw [if_pos c] at h; omega
  · by_cases c : (fillResponse reply rx error final).cls = rx.cls
    · exact c
    · rw [if_pos (c := _ ≠ rx.cls) c] at h; omega
  · by_cases c : (fillResponse reply rx error final).sessId = rx.sessId
    · exact c
    · rw [if_pos (c := _ ≠ rx.sessId) c] at h; omega
  · intro hs
    by_cases c : (fillResponse reply rx error final).smRpMr = rx.smRpMr
    · exact c
    · rw [if_pos (c := _ ∧ _) ⟨hs, c⟩] at h; omega

/-- A response that leaves the request open. -/
theorem Inv.respond0 {P : List Req} {s : Sys} (cfg : Cfg) (h : Inv P s) {q : Req}
    (hq : q ∈ P ++ waiting s) (reply : Msg) (error : Bool)
    (hp : Provisional q.gsup (makeResponse reply q.gsup error false).2) :
    Inv P (respond cfg s q reply error false).2 := by
  simp only [respond, Bool.false_eq_true, if_false]
  split
  · exact h
  · rename_i hr
    exact h.sendReqResponse cfg hq _ (makeResponse_correlated hr) hp

/-- The response that concludes a request. -/
theorem Inv.finish {P : List Req} {s : Sys} {q : Req} (h : Inv (q :: P) s) (c : ConnId) (m : Msg)
    (hc : Correlated m q.gsup) :
    Inv P ((s.emit (.tx c m (some q.nr))).emit (.concl q.nr .answered)) := by
  have h1 := h.concl .answered trivial
  have nd := h.nodup
  simp only [List.cons_append, List.map_cons, List.nodup_cons] at nd
  refine h1.sameLog rfl rfl rfl rfl rfl rfl rfl ⟨h1.good.1.imp ?_ ?_, ?_, h.good⟩ (fun _ => rfl) ?_ ?_ ?_
    (fun _ _ _ hx => .inl (by simpa [Sys.emit] using hx))
  · exact fun h => h
  · rintro ⟨c, mo, h2, h3⟩; exact ⟨c, mo, List.mem_cons_of_mem _ h2, h3⟩
  · exact ⟨(h.isopen q.nr).2 (by simp), _, _, h.logged q (by simp), hc, h.prov q (by simp),
      h.norem q (by simp)⟩
  · intro x hx
    rcases List.mem_cons.1 hx with rfl | hx
    · exact List.mem_cons_self ..
    · exact List.mem_cons_of_mem _ (List.mem_cons_of_mem _ hx)
  · intro nr c m hx
    rcases List.mem_cons.1 hx with hx | hx
    · cases hx
    · rcases List.mem_cons.1 hx with hx | hx
      · cases hx
      · exact List.mem_cons_of_mem _ hx
  · intro nr c m hx
    rcases List.mem_cons.1 hx with hx | hx
    · cases hx
    · rcases List.mem_cons.1 hx with hx | hx
      · cases hx
        right
        intro q' hq' e
        exact absurd (List.mem_map.2 ⟨q', hq', e⟩) nd.1
      · exact .inl (List.mem_cons_of_mem _ hx)

/-- A request passed on to a remote HLR. -/
theorem Inv.finishRemote {P : List Req} {s : Sys} {q : Req} (h : Inv (q :: P) s) (a : Addr) (n : Bytes) :
    Inv P ((s.emit (.remote a { q.gsup with src := n } (some q.nr))).emit (.concl q.nr .forwarded)) := by
  have h1 := h.concl .forwarded trivial
  have nd := h.nodup
  simp only [List.cons_append, List.map_cons, List.nodup_cons] at nd
  refine h1.sameLog rfl rfl rfl rfl rfl rfl rfl ⟨h1.good.1.imp ?_ ?_, ?_, h.good⟩ (fun _ => rfl) ?_ ?_
    (fun _ _ _ hx => .inl (by simpa [Sys.emit] using hx)) ?_
  · exact fun h => h
  · rintro ⟨c, mo, h2, h3⟩; exact ⟨c, mo, List.mem_cons_of_mem _ h2, h3⟩
  · exact ⟨(h.isopen q.nr).2 (by simp), _, _, h.logged q (by simp), ⟨n, rfl⟩, h.prov q (by simp),
      h.norem q (by simp)⟩
  · intro x hx
    rcases List.mem_cons.1 hx with rfl | hx
    · exact List.mem_cons_self ..
    · exact List.mem_cons_of_mem _ (List.mem_cons_of_mem _ hx)
  · intro nr c m hx
    simpa [Sys.emit] using hx
  · intro nr c m hx
    rcases List.mem_cons.1 hx with hx | hx
    · cases hx
    · rcases List.mem_cons.1 hx with hx | hx
      · cases hx
        right
        intro q' hq' e
        exact nd.1 (List.mem_map.2 ⟨q', hq', e⟩)
      · exact .inl (List.mem_cons_of_mem _ hx)

/-- A final response. -/
theorem Inv.respond1 {P : List Req} {s : Sys} (cfg : Cfg) {q : Req} (h : Inv (q :: P) s)
    (reply : Msg) (error : Bool) : Inv P (respond cfg s q reply error true).2 := by
  simp only [respond, if_true]
  split
  · exact h.concl _ trivial
  · rename_i hr
    unfold Verif.Sys.sendReqResponse
    split
    · exact h.concl _ trivial
    · split
      · exact h.finish _ _ (makeResponse_correlated hr)
      · exact h.concl _ trivial

theorem Inv.respondMsgt {P : List Req} {s : Sys} (cfg : Cfg) {q : Req} (h : Inv (q :: P) s)
    (t : Nat) : Inv P (respondMsgt cfg s q t) := h.respond1 cfg _ _

theorem Inv.respondErr {P : List Req} {s : Sys} (cfg : Cfg) {q : Req} (h : Inv (q :: P) s)
    (c : Cause) : Inv P (respondErr cfg s q c) := by
  unfold Verif.Sys.respondErr
  split
  · rename_i hr
    refine h.concl _ ?_
    rintro (e | e | e | e | e | e | e) <;> rw [e] at hr <;> exact absurd hr (by decide)
  · exact h.respond1 cfg _ _

theorem Inv.addrSend {P : List Req} {s : Sys} (h : Inv P s) (addr : Bytes) (m : Msg) :
    Inv P (addrSend s addr m).2 := by
  unfold Verif.Sys.addrSend
  split
  · exact h
  · exact h.tx _ _

theorem Inv.sendToIpa {P : List Req} {s : Sys} (h : Inv P s) (n : IpaName) (m : Msg) :
    Inv P (sendToIpa s n m).2 := by
  unfold Verif.Sys.sendToIpa
  split
  · exact h.addrSend _ _
  · split
    · split
      · exact h
      · exact h.addrSend _ _
    · exact h.addrSend _ _

theorem Inv.encSendToIpa {P : List Req} {s : Sys} (cfg : Cfg) (h : Inv P s) (n : IpaName) (m : Msg) :
    Inv P (encSendToIpa cfg s n m).2 := by
  unfold Verif.Sys.encSendToIpa
  split
  · exact h.sendToIpa _ _
  · exact h

theorem Inv.forwardToLocalPeer {P : List Req} {s : Sys} (cfg : Cfg) {q : Req} (h : Inv (q :: P) s)
    (n : IpaName) : Inv P (forwardToLocalPeer cfg s n q) := by
  unfold Verif.Sys.forwardToLocalPeer
  dsimp only
  split
  · exact (h.encSendToIpa cfg _ _).respondMsgt cfg _
  · exact (h.encSendToIpa cfg _ _).concl _ trivial

end Verif.Sys
