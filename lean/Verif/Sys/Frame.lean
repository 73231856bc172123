import Verif.Sys.Api
/-!
# One walk through all handlers

A relation between the states before and after that every elementary action respects is
respected by every handler.
-/
namespace Verif.Sys
open Verif Verif.Db Verif.Gsup Verif.Hlr

/-- `R` is respected by the elementary actions of a handler that deals with requests in
`Q`, makes database calls in `P`, sends responses of types in `T` and other messages in `U`,
except the lists of procedures and sessions, and undefined behaviour. -/
structure Prims00 (cfg : Cfg) (Q : Req → Prop) (R : Sys → Sys → Prop) (P : Op → Prop := AnyOp)
    (T : Nat → Prop := fun t => t ≠ UPDATE_LOCATION + 2) (U : Msg → Prop := fun _ => True) : Prop where
  refl : ∀ s, R s s
  trans : ∀ {s t u}, R s t → R t u → R s u
  quiet : ∀ op, Quiet op → P op := by intros; trivial
  types : ∀ t, t ≠ UPDATE_LOCATION + 2 → t ≠ SEND_AUTH_INFO + 2 → T t := by intros; assumption
  db : ∀ s d, LinkedBy P s.db d → R s { s with db := d }
  crash : ∀ s, R s s.crash
  tx : ∀ s c m, U m → R s (s.emit (.tx c m none))
  own : ∀ m : Msg, m.typ ≠ UPDATE_LOCATION + 2 → m.typ ≠ SEND_AUTH_INFO + 2 → U m := by intros; trivial
  fwd : ∀ (q : Req) (m : Msg), Q q → m.typ = q.gsup.typ → U m := by intros; trivial
  concl : ∀ s q how, Q q → R s (s.emit (.concl q.nr how))
  resp : ∀ s q m, Q q → T m.typ → R s (sendReqResponse cfg s q m)

/-- The same with undefined behaviour. -/
structure Prims0 (cfg : Cfg) (Q : Req → Prop) (R : Sys → Sys → Prop) (P : Op → Prop := AnyOp)
    (T : Nat → Prop := fun t => t ≠ UPDATE_LOCATION + 2) (U : Msg → Prop := fun _ => True) : Prop extends Prims00 cfg Q R P T U where
  ub : ∀ s, R s { s with ub := true }

/-- The elementary actions with those of distributed GSM. -/
structure PrimsD (cfg : Cfg) (Q : Req → Prop) (R : Sys → Sys → Prop) (P : Op → Prop := AnyOp)
    (T : Nat → Prop := fun t => t ≠ UPDATE_LOCATION + 2) (U : Msg → Prop := fun _ => True) : Prop extends Prims00 cfg Q R P T U where
  dg : ∀ s p r, R s { s with proxy := p, remotes := r }
  pend : ∀ s l, (∀ q ∈ l, q ∈ s.pending ∨ Q q) → R s { s with pending := l }
  remote : ∀ s q a m, Q q → R s (s.emit (.remote a m (some q.nr)))
  remoteTx : ∀ s a (m : Msg), (∃ t, m.typ = toError t) → R s (s.emit (.remote a m none))
  remoteRx : ∀ s a m, R s (s.emit (.remoteRx a m))

/-- All elementary actions. -/
structure Prims (cfg : Cfg) (Q : Req → Prop) (R : Sys → Sys → Prop) (P : Op → Prop := AnyOp)
    (T : Nat → Prop := fun t => t ≠ UPDATE_LOCATION + 2) (U : Msg → Prop := fun _ => True) : Prop extends Prims0 cfg Q R P T U, PrimsD cfg Q R P T U

section
variable {cfg : Cfg} {Q : Req → Prop} {R : Sys → Sys → Prop} {P : Op → Prop} {T : Nat → Prop} {U : Msg → Prop}

theorem Prims00.respond (pr : Prims00 cfg Q R P T U) (s : Sys) {q : Req} (hq : Q q) (reply : Msg) (error final : Bool)
    (ht : T (makeResponse reply q.gsup error final).2.typ) :
    R s (Sys.respond cfg s q reply error final).2 := by
  unfold Verif.Sys.respond
  dsimp only
  have h1 : R s (if (makeResponse reply q.gsup error final).1 ≠ 0 then s
      else sendReqResponse cfg s q (makeResponse reply q.gsup error final).2) := by
    split
    · exact pr.refl s
    · exact pr.resp s q _ hq ht
  split
  · exact pr.trans h1 (pr.concl _ q _ hq)
  · exact h1

theorem Prims00.typErr (pr : Prims00 cfg Q R P T U) (reply rx : Msg) (final : Bool) (h : reply.typ = 0) :
    T (makeResponse reply rx true final).2.typ := by
  have e : (makeResponse reply rx true final).2.typ = toError rx.typ := by
    show (if reply.typ = 0 then _ else _) = _
    rw [if_pos h, if_pos rfl]
  rw [e]
  apply pr.types <;> simp only [toError, UPDATE_LOCATION, SEND_AUTH_INFO] <;> omega

theorem Prims00.typ (pr : Prims00 cfg Q R P T U) {t : Nat} (h : t ≠ UPDATE_LOCATION + 2) (h' : t ≠ SEND_AUTH_INFO + 2) : T t :=
  pr.types t h h'

theorem typ_set (reply rx : Msg) (error final : Bool) (h : reply.typ ≠ 0) :
    (makeResponse reply rx error final).2.typ = reply.typ := by
  show (if reply.typ = 0 then _ else _) = _
  rw [if_neg h]

theorem Prims00.respondSet (pr : Prims00 cfg Q R P T U) (s : Sys) {q : Req} (hq : Q q) (reply : Msg) (error final : Bool)
    (h0 : reply.typ ≠ 0) (ht : T reply.typ) :
    R s (Sys.respond cfg s q reply error final).2 := by
  refine pr.respond s hq _ _ _ ?_
  rw [typ_set _ _ _ _ h0]; exact ht

theorem Prims00.respondMsgt (pr : Prims00 cfg Q R P T U) (s : Sys) {q : Req} (hq : Q q) (t : Nat)
    (h0 : t ≠ 0) (ht : T t) : R s (respondMsgt cfg s q t) :=
  pr.respondSet s hq { typ := t } _ _ h0 ht

theorem Prims00.reqFree (pr : Prims00 cfg Q R P T U) (s : Sys) {q : Req} (hq : Q q) (how : How) :
    R s (reqFree s q how) := pr.concl s q how hq

theorem Prims00.respondErr (pr : Prims00 cfg Q R P T U) (s : Sys) {q : Req} (hq : Q q) (c : Cause) :
    R s (respondErr cfg s q c) := by
  unfold Verif.Sys.respondErr
  split
  · exact pr.reqFree s hq _
  · exact pr.respond s hq _ _ _ (pr.typErr _ _ _ rfl)

theorem Prims00.withDb (pr : Prims00 cfg Q R P T U) {s : Sys} {α : Type} {m : DbM α} {sc : Script}
    {k : α → Sys → Sys} {s0 : Sys} (hm : Api P m) (h : R s0 s)
    (hk : ∀ a d, exec m s.db sc = (some a, d) → R s0 { s with db := d } → R s0 (k a { s with db := d })) :
    R s0 (withDb s sc m k) := by
  unfold Verif.Sys.withDb
  split
  · exact pr.trans (pr.trans h (pr.db s _ (hm.linked _ _))) (pr.crash _)
  · rename_i a ha
    exact hk a _ (Prod.ext ha rfl) (pr.trans h (pr.db s _ (hm.linked _ _)))

theorem Prims00.addrSend (pr : Prims00 cfg Q R P T U) (s : Sys) (a : Bytes) {m : Msg} (hm : U m) : R s (addrSend s a m).2 := by
  unfold Verif.Sys.addrSend
  split
  · exact pr.refl s
  · exact pr.tx s _ _ hm

theorem Prims00.sendToIpa (pr : Prims00 cfg Q R P T U) (s : Sys) (n : IpaName) {m : Msg} (hm : U m) : R s (sendToIpa s n m).2 := by
  unfold Verif.Sys.sendToIpa
  split
  · exact pr.addrSend _ _ hm
  · split
    · split
      · exact pr.refl s
      · exact pr.addrSend _ _ hm
    · exact pr.addrSend _ _ hm

theorem Prims00.encSendToIpa (pr : Prims00 cfg Q R P T U) (s : Sys) (n : IpaName) {m : Msg} (hm : U m) :
    R s (encSendToIpa cfg s n m).2 := by
  unfold Verif.Sys.encSendToIpa
  split
  · exact pr.sendToIpa _ _ hm
  · exact pr.refl s

theorem Prims00.forwardToLocalPeer (pr : Prims00 cfg Q R P T U) (s : Sys) {q : Req} (hq : Q q) (n : IpaName) :
    R s (forwardToLocalPeer cfg s n q) := by
  unfold Verif.Sys.forwardToLocalPeer
  dsimp only
  split
  · exact pr.trans (pr.encSendToIpa _ _ (pr.fwd q { q.gsup with src := q.source.name } hq rfl)) (pr.respondMsgt _ hq _ (by decide) (pr.typ (by decide) (by decide)))
  · exact pr.trans (pr.encSendToIpa _ _ (pr.fwd q { q.gsup with src := q.source.name } hq rfl)) (pr.reqFree _ hq _)

theorem Prims0.sai (pr : Prims0 cfg Q R P T U) (hS : ∀ id q, P (.sqn id q)) (hT : T (SEND_AUTH_INFO + 2))
    (s : Sys) (e : Env) {q : Req} (hq : Q q) : R s (rxSaiReq cfg e q s) := by
  unfold rxSaiReq
  apply pr.withDb (api_sai pr.quiet hS _ _ _ _ _) (pr.refl s)
  intro a d _ h
  split
  · exact pr.trans h (pr.respondSet _ hq _ _ _ (show SEND_AUTH_INFO + 2 ≠ 0 by decide) hT)
  · exact pr.trans h (pr.respondErr _ hq _)
  · exact pr.trans h (pr.ub _)

theorem Prims00.purge (pr : Prims00 cfg Q R P T U) (s : Sys) (e : Env) {q : Req} (hq : Q q) :
    R s (rxPurgeReq cfg e q s) := by
  unfold rxPurgeReq
  apply pr.withDb (api_purge pr.quiet _ _) (pr.refl s)
  intro a d _ h
  split
  · exact pr.trans h (pr.respondMsgt _ hq _ (by decide) (pr.typ (by decide) (by decide)))
  · exact pr.trans h (pr.respondErr _ hq _)

theorem Prims00.checkImei (pr : Prims00 cfg Q R P T U) (s : Sys) (e : Env) {q : Req} (hq : Q q) :
    R s (rxCheckImeiReq cfg e q s) := by
  unfold rxCheckImeiReq
  apply pr.withDb (api_checkImei pr.quiet _ _ _ _) (pr.refl s)
  intro a d _ h
  split
  · exact pr.trans h (pr.respondSet _ hq _ _ _ (by decide) (pr.typ (by decide) (by decide)))
  · exact pr.trans h (pr.respondErr _ hq _)

theorem Prims0.moSms (pr : Prims0 cfg Q R P T U) (s : Sys) {q : Req} (hq : Q q) :
    R s (forwardMoSms cfg q s) := by
  unfold forwardMoSms
  dsimp only
  split
  · exact pr.respondErr _ hq _
  · split
    · exact pr.respondErr _ hq _
    · split
      · exact pr.respond _ hq _ _ _ (pr.typErr _ _ _ rfl)
      · split
        · exact pr.respond _ hq _ _ _ (pr.typErr _ _ _ rfl)
        · split
          · exact pr.forwardToLocalPeer _ hq _
          · exact pr.ub _

theorem Prims00.mtSms (pr : Prims00 cfg Q R P T U) (s : Sys) (e : Env) {q : Req} (hq : Q q) :
    R s (forwardMtSms cfg e q s) := by
  unfold forwardMtSms
  apply pr.withDb (api_getByImsi _) (pr.refl s)
  intro a d _ h
  split
  · exact pr.trans h (pr.respondErr _ hq _)
  · split
    · exact pr.trans h (pr.respondErr _ hq _)
    · exact pr.trans h (pr.forwardToLocalPeer _ hq _)

theorem Prims00.copies (pr : Prims00 cfg Q R P T U) (s : Sys) {q : Req} (hq : Q q) (l : List Ent) :
    R s (l.foldl (copyToSmsc cfg q) s) := by
  induction l generalizing s with
  | nil => exact pr.refl s
  | cons a l ih => exact pr.trans (pr.encSendToIpa s _ (pr.fwd q { q.gsup with src := cfg.myName ++ [0] } hq rfl)) (ih _)

theorem Prims00.readyForSm (pr : Prims00 cfg Q R P T U) (s : Sys) {q : Req} (hq : Q q) :
    R s (rxReadyForSm cfg q s) :=
  pr.trans (pr.copies s hq _) (pr.respondMsgt _ hq _ (by decide) (pr.typ (by decide) (by decide)))

theorem Prims00.readCbForward (pr : Prims00 cfg Q R P T U) (s : Sys) {q : Req} (hq : Q q) :
    R s (readCbForward cfg q s) := by
  have h1 : ∀ s, R s (Sys.respond cfg s q { typ := ROUTING_ERROR, src := q.gsup.dst } true true).2 :=
    fun s => pr.respondSet s hq _ _ _ (show ROUTING_ERROR ≠ 0 by decide)
      (pr.typ (t := ROUTING_ERROR) (by decide) (by decide))
  unfold Verif.Sys.readCbForward
  dsimp only
  split
  · exact h1 _
  · split
    · exact h1 _
    · split
      · exact pr.trans (pr.sendToIpa _ _ (pr.fwd q _ hq rfl)) (h1 _)
      · exact pr.trans (pr.sendToIpa _ _ (pr.fwd q _ hq rfl)) (pr.reqFree _ hq _)

/-- Location update requests, for relations that tolerate changes of the connection's
domains and of the list of procedures. -/
theorem Prims0.updLoc (pr : Prims0 cfg Q R P T U) {s : Sys} (e : Env) {q : Req} (hq : Q q) (k : Conn)
    (hconn : R s (setConn s (if q.gsup.isCs then { k with supportsCs := true }
                       else { k with supportsPs := true })))
    (hlus : ∀ t lu, lu.req = q → R t { t with lus := lu :: t.lus })
    (hlu : ∀ id n ps via now, P (.lu id n ps via now) := by intros; trivial) : R s (rxUpdLocReq cfg e k q s) := by
  unfold rxUpdLocReq
  dsimp only
  generalize (if q.gsup.isCs = true then ({ k with supportsCs := true } : Conn)
    else { k with supportsPs := true }) = k' at hconn ⊢
  apply pr.withDb (api_luStart pr.quiet hlu _ _ _) hconn
  intro a d _ h
  split
  · exact pr.trans h (pr.respondErr _ hq _)
  · refine pr.trans h ?_
    unfold luOnenter
    split
    · exact pr.respondErr _ hq _
    · rename_i m hm
      have ht : m.typ = INSERT_DATA := by
        unfold isdMsg at hm
        obtain ⟨x, -, rfl⟩ := Option.map_eq_some_iff.1 hm
        rfl
      have h1 := fun s => pr.respondSet s hq m false false (by rw [ht]; decide)
        (pr.typ (by rw [ht]; decide) (by rw [ht]; decide))
      dsimp only
      split
      · exact pr.trans (h1 _) (pr.respondErr _ hq _)
      · exact pr.trans (h1 _) (hlus _ _ rfl)
  · exact pr.trans h (pr.ub _)

/-- Subscriber data acknowledgements, for relations that also tolerate Update Location
Results. -/
theorem Prims00.luRx (pr : Prims00 cfg Q R P T U) {s : Sys} {q : Req} (hq : Q q) (hQ : ∀ lu ∈ s.lus, Q lu.req)
    (hlus : ∀ t lu, R t { t with lus := t.lus.erase lu })
    (hres : ∀ t lu, lu ∈ s.lus → q.gsup.typ = INSERT_DATA + 2 → lu.subscr.imsi = q.gsup.imsi →
      t.routes = s.routes → R t (Sys.respondMsgt cfg t lu.req (UPDATE_LOCATION + 2))) :
    R s (luRxGsup cfg q s) := by
  unfold luRxGsup
  split
  · exact pr.respondErr _ hq _
  · rename_i lu hf
    have hl : lu ∈ s.lus := List.mem_of_find?_eq_some hf
    have hi : lu.subscr.imsi = q.gsup.imsi := by
      have : (lu.subscr.imsi == q.gsup.imsi) = true := by
        have := List.find?_some hf; exact this
      simpa using this
    split
    · rename_i ht
      exact pr.trans (pr.trans (pr.reqFree s hq _) (hres _ lu hl ht hi rfl)) (hlus _ _)
    · split
      · exact pr.trans (pr.trans (pr.respondErr s (hQ lu hl) _) (hlus _ _)) (pr.reqFree _ hq _)
      · exact pr.respondErr _ hq _

theorem Prims00.luTimeout (pr : Prims00 cfg Q R P T U) {s : Sys} (nr : Nat) (hQ : ∀ lu ∈ s.lus, Q lu.req)
    (hlus : ∀ t lu, R t { t with lus := t.lus.erase lu }) :
    R s (luTimeout cfg nr s) := by
  unfold Verif.Sys.luTimeout
  split
  · exact pr.refl s
  · rename_i lu hf
    exact pr.trans (pr.respondErr s (hQ lu (List.mem_of_find?_eq_some hf)) _) (hlus _ _)

/-! ## Sessions -/

/-- What the rest of a handler must do. -/
def KOk (R : Sys → Sys → Prop) (s0 : Sys) (x : Sess) (k : Sess → Sys → Sys) : Prop :=
  ∀ y t, SameSess x y → R s0 t → R s0 (k y t)

theorem KOk.same {s0 : Sys} {x y : Sess} {k : Sess → Sys → Sys} (h : KOk R s0 x k)
    (e : SameSess x y) : KOk R s0 y k := fun z s e' hi => h z s (e.trans e') hi

/-- `R` tolerates new lists of sessions made of old ones and ones with requests in `Q`. -/
def SessOp (Q : Req → Prop) (R : Sys → Sys → Prop) : Prop :=
  ∀ (t : Sys) (l : List Sess), (∀ x ∈ l, x ∈ t.sess ∨ ∀ r ∈ x.reqs, Q r) → R t { t with sess := l }

/-- The same, but there are no sessions where there were none. -/
def SessOp' (Q : Req → Prop) (R : Sys → Sys → Prop) : Prop :=
  ∀ (t : Sys) (l : List Sess), (∀ x ∈ l, x ∈ t.sess ∨ ∀ r ∈ x.reqs, Q r) → (t.sess = [] → l = []) → R t { t with sess := l }

theorem SessOp.weak (h : SessOp Q R) : SessOp' Q R := fun t l hl _ => h t l hl

theorem SessOp'.set (h : SessOp' Q R) (t : Sys) {x : Sess} (hx : ∀ r ∈ x.reqs, Q r) : R t (ssSet t x) := by
  refine h t _ ?_ (fun e => by rw [e]; rfl)
  intro y hy
  obtain ⟨z, hz, e⟩ := List.mem_map.1 hy
  split at e
  · rw [← e]; exact .inr hx
  · rw [← e]; exact .inl hz

theorem Prims00.sendToVlr (pr : Prims00 cfg Q R P T U) (s : Sys) (n : IpaName) {m : Msg} (hm : U m) : R s (sendToVlr s n m) := by
  unfold Verif.Sys.sendToVlr
  split
  · exact pr.refl s
  · exact pr.sendToIpa s _ hm

theorem Prims00.sendToMs (pr : Prims00 cfg Q R P T U) (hsess : SessOp' Q R) {s0 s : Sys}
    (e : Env) {x : Sess} (m : Msg) {k : Sess → Sys → Sys} (h : R s0 s) (hx : ∀ q ∈ x.reqs, Q q)
    (h0 : m.typ ≠ 0) (ht : T m.typ) (hu : U m) (hk : KOk R s0 x k) :
    R s0 (ssSendToMs cfg e s x m k) := by
  unfold ssSendToMs
  split
  · rename_i q hq
    exact hk _ _ (SameSess.refl x) (pr.trans h (pr.respondSet s (hx q (by simp [Sess.reqs, hq])) m _ _ h0 ht))
  · split
    · exact hk _ _ (SameSess.refl x) h
    · split
      · apply pr.withDb (api_getByImsi _) h
        intro a d _ h
        split
        · exact hk _ _ (SameSess.refl x) h
        · refine hk _ _ ⟨rfl, rfl, rfl⟩ (pr.trans h (pr.trans ?_ (pr.sendToVlr _ _ hu)))
          exact hsess.set _ hx
      · exact hk _ _ (SameSess.refl x) (pr.trans h (pr.sendToVlr _ _ hu))

theorem Prims00.txToMs (pr : Prims00 cfg Q R P T U) (hsess : SessOp' Q R) {s0 s : Sys}
    (e : Env) {x : Sess} (info : Bytes) {k : Sess → Sys → Sys} (h : R s0 s)
    (hx : ∀ q ∈ x.reqs, Q q) (hk : KOk R s0 x k) :
    R s0 (ssTxToMs cfg e s x info k) :=
  pr.sendToMs hsess e _ h hx (show PROC_SS + 2 ≠ 0 by decide) (pr.typ (t := PROC_SS + 2) (by decide) (by decide))
    (pr.own _ (show PROC_SS + 2 ≠ _ by decide) (show PROC_SS + 2 ≠ _ by decide)) hk

theorem Prims00.txErr (pr : Prims00 cfg Q R P T U) (hsess : SessOp' Q R) {s0 s : Sys}
    (e : Env) {x : Sess} (i c : Nat) {k : Sess → Sys → Sys} (h : R s0 s)
    (hx : ∀ q ∈ x.reqs, Q q) (hk : KOk R s0 x k) :
    R s0 (ssTxErr cfg e s x i c k) := by
  unfold ssTxErr
  have e1 : SameSess x { x with state := .end_ } := ⟨rfl, rfl, rfl⟩
  exact pr.txToMs hsess e _ (pr.trans h (hsess.set _ hx)) hx (hk.same e1)

theorem Prims00.iuse (pr : Prims00 cfg Q R P T U) (hsess : SessOp' Q R) {s0 s : Sys}
    (e : Env) {x : Sess} (r : SsReq) (i : Iuse) {k : Sess → Sys → Sys} (h : R s0 s)
    (hx : ∀ q ∈ x.reqs, Q q) (hk : KOk R s0 x k) :
    R s0 (iuseHandle cfg e s x r i k) := by
  have e1 : SameSess x { x with state := .end_ } := ⟨rfl, rfl, rfl⟩
  have e2 : SameSess x { x with state := .continue_ } := ⟨rfl, rfl, rfl⟩
  unfold iuseHandle
  split
  · dsimp only
    apply pr.withDb (api_getByImsi _) (pr.trans h (hsess.set _ (x := { x with state := .end_ }) hx))
    intro a d _ h
    split
    · exact pr.txToMs hsess _ _ h hx (hk.same e1)
    · exact pr.txErr hsess _ _ _ h hx (hk.same e1)
  · exact pr.txToMs hsess _ _ (pr.trans h (hsess.set _ hx)) hx (hk.same e1)
  · exact pr.txToMs hsess _ _ (pr.trans h (hsess.set _ hx)) hx (hk.same e2)

theorem Prims00.freeOpt (pr : Prims00 cfg Q R P T U) (s : Sys) (o : Option Req) (h : ∀ q, o = some q → Q q) :
    R s (freeOpt s o) := by
  cases o with
  | none => exact pr.refl s
  | some q => exact pr.reqFree s (h q rfl) _

theorem Prims00.ssFree (pr : Prims00 cfg Q R P T U) (hsess : SessOp' Q R) (s : Sys) {x : Sess}
    (hx : ∀ q ∈ x.reqs, Q q) : R s (ssFree s x) := by
  unfold Verif.Sys.ssFree
  have h1 : ∀ q, x.reqMs = some q → Q q := fun q hq => hx q (by simp [Sess.reqs, hq])
  have h2 : ∀ q, x.reqEuse = some q → Q q := fun q hq => hx q (by simp [Sess.reqs, hq])
  refine pr.trans (pr.trans (pr.freeOpt s _ h1) (pr.freeOpt _ _ h2)) (hsess _ _ ?_ ?_)
  · exact fun y hy => .inl (List.mem_filter.1 hy).1
  · intro e
    exact List.filter_eq_nil_iff.2 (fun y hy => by rw [e] at hy; cases hy)

theorem SameSess.reqs {x y : Sess} (h : SameSess x y) : y.reqs = x.reqs := by
  simp [Sess.reqs, h.ms, h.euse]

theorem Prims0.handleSsAny (pr : Prims0 cfg Q R P T U) (hsess : SessOp' Q R) {s0 s : Sys}
    (e : Env) {x : Sess} (eo : Bool) (m : Msg) (r : SsReq) {k : Sess → Sys → Sys} (h : R s0 s)
    (hx : ∀ q ∈ x.reqs, Q q) (hm : IsSs m.typ) (hk : KOk R s0 x k) :
    R s0 (handleSsAny cfg e s x eo m r k) := by
  have t0 : m.typ ≠ 0 := by rcases hm with e | e <;> rw [e] <;> decide
  have t1 : T m.typ := by rcases hm with e | e <;> rw [e] <;> exact pr.typ (by decide) (by decide)
  have t2 : U m := by rcases hm with e | e <;> exact pr.own m (by rw [e]; decide) (by rw [e]; decide)
  unfold Verif.Sys.handleSsAny
  split
  · unfold handleUssd
    split
    · exact pr.txErr hsess _ _ _ h hx hk
    · split
      · exact pr.sendToMs hsess _ _ h hx t0 t1 t2 hk
      · split
        · split
          · exact pr.txErr hsess _ _ _ h hx hk
          · exact hk _ _ (SameSess.refl x) (pr.trans h (pr.tx _ _ _ t2))
        · exact pr.trans h (pr.ub _)
    · split
      · exact pr.sendToMs hsess _ _ h hx t0 t1 t2 hk
      · apply pr.iuse hsess _ _ _ h hx
        intro y t ey ht
        dsimp only
        split
        · refine hk _ _ ey (pr.trans ht (pr.ssFree hsess _ ?_))
          rw [ey.reqs]; exact hx
        · exact hk _ _ ey ht
  · exact pr.txErr hsess _ _ _ h hx hk

theorem Prims0.procSs (pr : Prims0 cfg Q R P T U) (hsess : SessOp Q R) {s : Sys}
    (e : Env) {q : Req} (hq : Q q) (hm : IsSs q.gsup.typ) (hQ : ∀ x ∈ s.sess, ∀ r ∈ x.reqs, Q r) :
    R s (rxProcSs cfg e q s) := by
  unfold rxProcSs
  dsimp only
  split
  · exact pr.respondErr _ hq _
  · split
    · exact pr.respondErr _ hq _
    · rename_i r _
      split
      · split
        · exact pr.respondErr _ hq _
        · have hn : ∀ q' ∈ (ssNew cfg q r).reqs, Q q' := by
            rw [(ssNew_key cfg q r).2.2]
            intro q' h'
            rw [List.mem_singleton.1 h']; exact hq
          refine pr.handleSsAny hsess.weak e _ _ _ (hsess _ _ ?_) hn hm (fun _ _ _ h => h)
          intro y hy
          rcases List.mem_append.1 hy with hy | hy
          · exact .inl hy
          · rw [List.mem_singleton.1 hy]; exact .inr hn
      · split
        · exact pr.respondErr _ hq _
        · rename_i x hx
          have hxQ : ∀ r ∈ (rearm cfg x).reqs, Q r := by
            rw [(rearm_same cfg x).reqs]; exact hQ x (ssFind_some hx).1
          exact pr.handleSsAny hsess.weak e _ _ _ (hsess.weak.set s hxQ) hxQ hm
            (fun _ _ _ h => pr.trans h (pr.reqFree _ hq _))
      · split
        · exact pr.respondErr _ hq _
        · rename_i x hx
          have hxQ := hQ x (ssFind_some hx).1
          split
          · exact pr.trans (pr.ssFree hsess.weak s hxQ) (pr.reqFree _ hq _)
          · refine pr.handleSsAny hsess.weak e _ _ _ (pr.refl s) hxQ hm ?_
            intro y t ey ht
            dsimp only
            split
            · exact pr.trans ht (pr.ub _)
            · refine pr.trans ht (pr.trans (pr.ssFree hsess.weak _ ?_) (pr.reqFree _ hq _))
              rw [ey.reqs]; exact hxQ
      · exact pr.reqFree s hq _

theorem Prims00.ssTimeout (pr : Prims00 cfg Q R P T U) (hsess : SessOp Q R) {s : Sys}
    (imsi : Bytes) (id : Nat) (hQ : ∀ x ∈ s.sess, ∀ r ∈ x.reqs, Q r) : R s (ssTimeout imsi id s) := by
  unfold Verif.Sys.ssTimeout
  split
  · exact pr.refl s
  · rename_i x hx
    split
    · exact pr.ssFree hsess.weak s (hQ x (ssFind_some hx).1)
    · exact pr.refl s

/-! ## Distributed GSM -/

/-- What the handlers of distributed GSM do: they respect `R`, and all that waits for a
remote HLR is in `Q`. -/
def Walk (Q : Req → Prop) (R : Sys → Sys → Prop) (s t : Sys) : Prop :=
  (∀ q ∈ s.pending, Q q) → R s t ∧ ∀ q ∈ t.pending, Q q

theorem PrimsD.walkRefl (pr : PrimsD cfg Q R P T U) (s : Sys) : Walk Q R s s := fun h => ⟨pr.refl s, h⟩

theorem PrimsD.walkTrans (pr : PrimsD cfg Q R P T U) {s t u : Sys} (h : Walk Q R s t) (h' : Walk Q R t u) :
    Walk Q R s u := fun hq =>
  ⟨pr.trans (h hq).1 (h' (h hq).2).1, (h' (h hq).2).2⟩

theorem PrimsD.setProxy (pr : PrimsD cfg Q R P T U) (s : Sys) (p : List ProxyEntry) :
    Walk Q R s { s with proxy := p } := fun h => ⟨pr.dg s p s.remotes, h⟩

theorem PrimsD.setRemotes (pr : PrimsD cfg Q R P T U) (s : Sys) (r : List Remote) :
    Walk Q R s { s with remotes := r } := fun h => ⟨pr.dg s s.proxy r, h⟩

theorem PrimsD.connectResult (pr : PrimsD cfg Q R P T U) (a : Option Addr) (s : Sys) {q : Req} (hq : Q q) :
    Walk Q R s (connectResult cfg a s q) := by
  intro h
  unfold Verif.Sys.connectResult
  split
  · unfold forwardToRemote
    dsimp only
    split
    · exact ⟨pr.trans (pr.remote s q _ _ hq) (pr.reqFree _ hq _), h⟩
    · refine ⟨pr.respondErr s hq _, ?_⟩
      rw [respondErr_frame]; exact h
  · split
    · refine ⟨pr.respondSet s hq _ _ _ (show CHECK_IMEI + 2 ≠ 0 by decide)
        (pr.typ (by decide) (by decide)), ?_⟩
      rw [respond_frame]; exact h
    · refine ⟨pr.respondErr s hq _, ?_⟩
      rw [respondErr_frame]; exact h

theorem PrimsD.deferredPop (pr : PrimsD cfg Q R P T U) (imsi : Bytes) (a : Option Addr) (s : Sys) :
    Walk Q R s (deferredPop cfg imsi a s) := by
  intro h
  unfold Verif.Sys.deferredPop
  have h1 : ∀ q ∈ s.pending.filter (·.gsup.imsi == imsi), Q q := fun q hq => h q (List.mem_filter.1 hq).1
  have h2 : Walk Q R s { s with pending := s.pending.filter (fun q => !(q.gsup.imsi == imsi)) } :=
    fun _ => ⟨pr.pend s _ (fun q hq => .inl (List.mem_filter.1 hq).1), fun q hq => h q (List.mem_filter.1 hq).1⟩
  refine pr.walkTrans h2 ?_ h
  generalize s.pending.filter (fun q => !(q.gsup.imsi == imsi)) = l2
  generalize s.pending.filter (fun q : Req => q.gsup.imsi == imsi) = l at h1
  generalize ({ s with pending := l2 } : Sys) = t
  clear h h2
  induction l generalizing t with
  | nil => exact pr.walkRefl t
  | cons q l ih =>
    exact pr.walkTrans (pr.connectResult a t (h1 q List.mem_cons_self))
      (ih (fun q hq => h1 q (List.mem_cons_of_mem _ hq)) _)

theorem PrimsD.proxyDel (pr : PrimsD cfg Q R P T U) (imsi : Bytes) (s : Sys) :
    Walk Q R s (proxyDel cfg imsi s) :=
  pr.walkTrans (pr.deferredPop imsi none s) (pr.setProxy _ _)

theorem PrimsD.connectResultCb (pr : PrimsD cfg Q R P T U) (a : Addr) (up : Bool) (s : Sys) :
    Walk Q R s (connectResultCb cfg a up s) := by
  unfold Verif.Sys.connectResultCb
  generalize s.proxy = l
  induction l generalizing s with
  | nil => exact pr.walkRefl s
  | cons x l ih =>
    refine pr.walkTrans ?_ (ih _)
    by_cases c : x.data.addr = a
    · simp only [c, ↓reduceIte]
      exact pr.deferredPop _ _ s
    · simp only [c, ↓reduceIte]
      exact pr.walkRefl s

theorem PrimsD.connectRemote (pr : PrimsD cfg Q R P T U) (e : Env) (a : Addr) (s : Sys) :
    Walk Q R s (connectRemote cfg e a s) := by
  unfold Verif.Sys.connectRemote
  split
  · split
    · exact pr.connectResultCb _ _ s
    · exact pr.setRemotes s _
  · split
    · exact pr.setRemotes s _
    · exact pr.connectResultCb _ _ s

theorem PrimsD.remoteResolved (pr : PrimsD cfg Q R P T U) (e : Env) (d : ProxySub) (a : Addr) (s : Sys) :
    Walk Q R s (remoteResolved cfg e d a s) := by
  unfold Verif.Sys.remoteResolved
  split
  · exact pr.walkRefl s
  · dsimp only
    split
    · exact pr.walkTrans (pr.setProxy s _) (pr.connectRemote e a _)
    · exact pr.setProxy s _

theorem PrimsD.ackToRemote (pr : PrimsD cfg Q R P T U) (e : Env) (d : ProxySub) (q : Req) (s : Sys) :
    Walk Q R s (ackToRemote e d q s) := by
  unfold Verif.Sys.ackToRemote
  split
  · dsimp only
    split
    · exact pr.setProxy s _
    · exact pr.walkRefl s
  · exact pr.walkRefl s

theorem PrimsD.deferReq (pr : PrimsD cfg Q R P T U) {q : Req} (hq : Q q) (s : Sys) : Walk Q R s (deferReq q s) := by
  intro h
  refine ⟨pr.pend s _ fun q' h' => ?_, fun q' h' => ?_⟩
  · rcases List.mem_append.1 h' with h' | h'
    · exact .inl h'
    · rw [List.mem_singleton.1 h']; exact .inr hq
  · rcases List.mem_append.1 h' with h' | h'
    · exact h q' h'
    · rw [List.mem_singleton.1 h']; exact hq

theorem PrimsD.forwardToRemoteHlr (pr : PrimsD cfg Q R P T U) (e : Env) (d : ProxySub) {q : Req} (hq : Q q) (s : Sys) :
    Walk Q R s (forwardToRemoteHlr cfg e d q s) := by
  unfold Verif.Sys.forwardToRemoteHlr
  dsimp only
  refine pr.walkTrans (pr.ackToRemote e d q s) ?_
  generalize Verif.Sys.ackToRemote e d q s = t
  split
  · exact pr.deferReq hq t
  · split
    · split
      · exact pr.connectResult _ t hq
      · exact pr.walkTrans (pr.deferReq hq t) (pr.connectRemote e _ _)
    · exact pr.walkTrans (pr.deferReq hq t) (pr.connectRemote e _ _)

theorem PrimsD.walkOf (_ : PrimsD cfg Q R P T U) {s t : Sys} (h : R s t) (hp : t.pending = s.pending) : Walk Q R s t :=
  fun hq => ⟨h, hp ▸ hq⟩

theorem PrimsD.errReply (pr : PrimsD cfg Q R P T U) (r : Remote) (m : Msg) (c : Cause) (s : Sys) :
    Walk Q R s (errReply cfg s r m c) := by
  unfold Verif.Sys.errReply
  split
  · exact pr.walkRefl s
  · have key : ∀ x : Msg, (∃ t, x.typ = toError t) →
        Walk Q R s (if (r.up && cfg.enc x) = true then s.emit (.remote r.addr x none) else s) := by
      intro x hx
      split
      · exact pr.walkOf (pr.remoteTx s _ _ hx) rfl
      · exact pr.walkRefl s
    exact key _ ⟨_, rfl⟩

theorem PrimsD.forwardToVlr (pr : PrimsD cfg Q R P T U) (e : Env) (d : ProxySub) {m : Msg} (hm : U m) (s : Sys) :
    Walk Q R s (forwardToVlr cfg e d m s).2 := by
  unfold Verif.Sys.forwardToVlr
  dsimp only
  split
  · exact pr.walkRefl s
  · split
    · exact pr.walkRefl s
    · split
      · exact pr.walkRefl s
      · split
        · exact pr.walkRefl s
        · rename_i t ht
          obtain ⟨l, rfl⟩ := ackFromRemote_frame ht
          split
          · exact pr.walkTrans (pr.setProxy s l) (pr.walkOf (pr.tx _ _ _ hm) rfl)
          · exact pr.setProxy s l

theorem PrimsD.rxRemote (pr : PrimsD cfg Q R P T U) (e : Env) (a : Addr) (m : Msg) (s : Sys) (hm : U m) :
    Walk Q R s (Sys.remoteRx cfg e a m s) := by
  unfold Verif.Sys.remoteRx
  split
  · exact pr.walkRefl s
  · dsimp only
    refine pr.walkTrans (pr.walkOf (pr.remoteRx s a m) rfl) ?_
    generalize s.emit (.remoteRx a m) = s
    split
    · exact pr.errReply _ _ _ s
    · split
      · exact pr.errReply _ _ _ s
      · split
        · exact pr.forwardToVlr e _ hm s
        · exact pr.walkTrans (pr.forwardToVlr e _ hm s) (pr.errReply _ _ _ _)

theorem PrimsD.repeatCb (pr : PrimsD cfg Q R P T U) (a : Addr) (n : Nat) (s : Sys) :
    Walk Q R s (repeatN n (Verif.Sys.connectResultCb cfg a true) s) := by
  induction n generalizing s with
  | zero => exact pr.walkRefl s
  | succ n ih => exact pr.walkTrans (pr.connectResultCb a true s) (ih _)

theorem PrimsD.remoteUp (pr : PrimsD cfg Q R P T U) (a : Addr) (s : Sys) : Walk Q R s (remoteUp cfg a s) := by
  unfold Verif.Sys.remoteUp
  split
  · exact pr.walkRefl s
  · exact pr.walkTrans (pr.setRemotes s _) (pr.repeatCb a _ _)

theorem PrimsD.remoteDown (pr : PrimsD cfg Q R P T U) (a : Addr) (s : Sys) : Walk Q R s (remoteDown a s) :=
  pr.setRemotes s _

theorem PrimsD.remoteLost (pr : PrimsD cfg Q R P T U) (a : Addr) (s : Sys) : Walk Q R s (remoteLost a s) := by
  unfold Verif.Sys.remoteLost
  split
  · exact pr.walkRefl s
  · exact pr.setRemotes s _

theorem PrimsD.lookupResult (pr : PrimsD cfg Q R P T U) (e : Env) (imsi : Bytes) (res : Option (Addr × Addr)) (s : Sys) :
    Walk Q R s (lookupResult cfg e imsi res s) := by
  unfold Verif.Sys.lookupResult
  split
  · exact pr.proxyDel imsi s
  · split
    · exact pr.proxyDel imsi s
    · split
      · exact pr.walkRefl s
      · exact pr.remoteResolved e _ _ s

/-- What happens to a message of a subscriber that is not in the local database
(dgsm.c 97-163), distributed GSM being switched on. -/
def proxied (cfg : Cfg) (e : Env) (q : Req) (s : Sys) : Sys :=
  match proxyByImsi s.proxy q.gsup.imsi with
  | some d => forwardToRemoteHlr cfg e d q s
  | none =>
    if e.gateway.nonzero then
      match proxyByImsi (remoteResolved cfg e { imsi := q.gsup.imsi } e.gateway
          (proxyPut e.clock { imsi := q.gsup.imsi } s)).proxy q.gsup.imsi with
      | none => respondErr cfg (remoteResolved cfg e { imsi := q.gsup.imsi } e.gateway
          (proxyPut e.clock { imsi := q.gsup.imsi } s)) q .netFail
      | some d => forwardToRemoteHlr cfg e d q (remoteResolved cfg e { imsi := q.gsup.imsi } e.gateway
          (proxyPut e.clock { imsi := q.gsup.imsi } s))
    else forwardToRemoteHlr cfg e { imsi := q.gsup.imsi } q (proxyPut e.clock { imsi := q.gsup.imsi } s)

theorem PrimsD.proxied (pr : PrimsD cfg Q R P T U) (e : Env) {q : Req} (hq : Q q) (s : Sys) :
    Walk Q R s (proxied cfg e q s) := by
  unfold Verif.Sys.proxied
  split
  · exact pr.forwardToRemoteHlr e _ hq s
  · have h1 : Walk Q R s (proxyPut e.clock { imsi := q.gsup.imsi } s) := pr.setProxy s _
    split
    · have h2 := pr.walkTrans h1 (pr.remoteResolved e { imsi := q.gsup.imsi } e.gateway _)
      split
      · exact pr.walkTrans h2 (pr.walkOf (pr.respondErr _ hq _) (by rw [respondErr_frame]))
      · exact pr.walkTrans h2 (pr.forwardToRemoteHlr e _ hq _)
    · exact pr.walkTrans h1 (pr.forwardToRemoteHlr e _ hq _)

/-- Looking whether a subscriber exists does not change the database. -/
theorem exec_exists (imsi : Bytes) (d : Db) (sc : Script) : (exec (existsByImsi imsi) d sc).2 = d :=
  (existsByImsi_post d imsi { db := d, script := sc } rfl).1

/-- The answer of the existence test that decides whether a message is handled here:
`none` if the process dies. -/
def known (e : Env) (m : Msg) (s : Sys) : Option Int := (exec (existsByImsi m.imsi) s.db e.sc0).1

/-- What becomes of a message for this HLR. -/
theorem readCb_eq (cfg : Cfg) (e : Env) (k : Conn) (q : Req) (s : Sys) :
    readCb cfg e k q s =
      if forOther cfg q.gsup then readCbForward cfg q s
      else if e.dgsm then
        match known e q.gsup s with
        | none => s.crash
        | some rc => if rc = 0 then dispatch cfg e k q s else proxied cfg e q s
      else dispatch cfg e k q s := by
  unfold readCb
  by_cases hf : forOther cfg q.gsup = true
  · rw [if_pos hf, if_pos hf]
  · rw [if_neg hf, if_neg hf]
    by_cases hd : e.dgsm = true
    · rw [if_pos hd, if_pos hd]
      unfold dgsmCheck withDb known
      rw [exec_exists]
      cases (exec (existsByImsi q.gsup.imsi) s.db e.sc0).1 with
      | none => rfl
      | some rc =>
        dsimp only
        by_cases hrc : rc = 0
        · rw [if_pos hrc, if_pos hrc]
        · rw [if_neg hrc, if_neg hrc]
          unfold Verif.Sys.proxied
          cases proxyByImsi s.proxy q.gsup.imsi with
          | some d => rfl
          | none =>
            dsimp only
            by_cases hg : e.gateway.nonzero = true
            · rw [if_pos hg, if_pos hg]
              cases proxyByImsi (remoteResolved cfg e { imsi := q.gsup.imsi } e.gateway
                (proxyPut e.clock { imsi := q.gsup.imsi } s)).proxy q.gsup.imsi <;> rfl
            · rw [if_neg hg, if_neg hg]
              have : e.lookup = true := by
                simp only [Env.dgsm, Bool.or_eq_true] at hd
                exact hd.resolve_right hg
              rw [if_neg (by simp [this])]
    · rw [if_neg hd, if_neg hd]

/-- The message is handled by this HLR itself: distributed GSM is switched off, or the
subscriber is found in the local database. -/
def Local (e : Env) (m : Msg) (s : Sys) : Prop := e.dgsm = false ∨ known e m s = some 0

instance (e : Env) (m : Msg) (s : Sys) : Decidable (Local e m s) := inferInstanceAs (Decidable (_ ∨ _))

theorem readCb_local {cfg : Cfg} {e : Env} {k : Conn} {q : Req} {s : Sys} (h : Local e q.gsup s)
    (hf : forOther cfg q.gsup = false) : readCb cfg e k q s = dispatch cfg e k q s := by
  rw [readCb_eq, if_neg (by simp [hf])]
  rcases h with h | h
  · rw [if_neg (by simp [h])]
  · rw [h]
    simp

/-! ## Dispatch -/

theorem ite_R {c : Prop} [Decidable c] {s a b : Sys} (h1 : c → R s a) (h2 : ¬ c → R s b) :
    R s (if c then a else b) := by
  by_cases hc : c
  · rw [if_pos hc]; exact h1 hc
  · rw [if_neg hc]; exact h2 hc

theorem Prims00.dispatch2 (pr : Prims00 cfg Q R P T U) {s : Sys} (e : Env) (k : Conn) {q : Req} (hq : Q q)
    (hsai : q.gsup.typ = SEND_AUTH_INFO → R s (rxSaiReq cfg e q s))
    (hul : q.gsup.typ = UPDATE_LOCATION → R s (rxUpdLocReq cfg e k q s))
    (hss : IsSs q.gsup.typ → R s (rxProcSs cfg e q s))
    (hlu : R s (luRxGsup cfg q s)) (hmo : q.gsup.typ = MO_FORWARD_SM → R s (forwardMoSms cfg q s)) :
    R s (dispatch cfg e k q s) := by
  unfold Verif.Sys.dispatch
  refine ite_R hsai fun _ => ?_
  refine ite_R hul fun _ => ?_
  refine ite_R (fun _ => pr.purge s e hq) fun _ => ?_
  refine ite_R (fun _ => pr.reqFree s hq _) fun _ => ?_
  refine ite_R (fun _ => pr.reqFree s hq _) fun _ => ?_
  refine ite_R (fun h => hss h) fun _ => ?_
  refine ite_R (fun _ => pr.reqFree s hq _) fun _ => ?_
  refine ite_R (fun _ => hlu) fun _ => ?_
  refine ite_R (fun _ => pr.checkImei s e hq) fun _ => ?_
  refine ite_R hmo fun _ => ?_
  refine ite_R (fun _ => pr.mtSms s e hq) fun _ => ?_
  refine ite_R (fun _ => pr.readyForSm s hq) fun _ => ?_
  exact pr.reqFree s hq _

theorem Prims0.dispatch' (pr : Prims0 cfg Q R P T U) {s : Sys} (e : Env) (k : Conn) {q : Req} (hq : Q q)
    (hsai : q.gsup.typ = SEND_AUTH_INFO → R s (rxSaiReq cfg e q s))
    (hul : q.gsup.typ = UPDATE_LOCATION → R s (rxUpdLocReq cfg e k q s))
    (hss : IsSs q.gsup.typ → R s (rxProcSs cfg e q s))
    (hlu : R s (luRxGsup cfg q s)) :
    R s (dispatch cfg e k q s) :=
  pr.dispatch2 e k hq hsai hul hss hlu (fun _ => pr.moSms s hq)

theorem Prims0.dispatch (pr : Prims0 cfg Q R) {s : Sys} (e : Env) (k : Conn) {q : Req} (hq : Q q)
    (hul : q.gsup.typ = UPDATE_LOCATION → R s (rxUpdLocReq cfg e k q s))
    (hss : IsSs q.gsup.typ → R s (rxProcSs cfg e q s))
    (hlu : R s (luRxGsup cfg q s)) :
    R s (Verif.Sys.dispatch cfg e k q s) :=
  pr.dispatch' e k hq (fun _ => pr.sai (fun _ _ => trivial) (show SEND_AUTH_INFO + 2 ≠ UPDATE_LOCATION + 2 by decide) s e hq)
    hul hss hlu

theorem PrimsD.readCb2 (pr : PrimsD cfg Q R P T U) {s : Sys} (e : Env) (k : Conn) {q : Req} (hq : Q q)
    (hsai : q.gsup.typ = SEND_AUTH_INFO → R s (rxSaiReq cfg e q s))
    (hul : q.gsup.typ = UPDATE_LOCATION → R s (rxUpdLocReq cfg e k q s))
    (hss : IsSs q.gsup.typ → R s (rxProcSs cfg e q s))
    (hlu : R s (luRxGsup cfg q s)) (hmo : q.gsup.typ = MO_FORWARD_SM → R s (forwardMoSms cfg q s)) (hp : ∀ r ∈ s.pending, Q r) :
    R s (readCb cfg e k q s) := by
  rw [readCb_eq]
  split
  · exact pr.readCbForward s hq
  · split
    · split
      · exact pr.crash s
      · split
        · exact pr.dispatch2 e k hq hsai hul hss hlu hmo
        · exact (pr.proxied e hq s hp).1
    · exact pr.dispatch2 e k hq hsai hul hss hlu hmo

theorem Prims.readCb' (pr : Prims cfg Q R P T U) {s : Sys} (e : Env) (k : Conn) {q : Req} (hq : Q q)
    (hsai : q.gsup.typ = SEND_AUTH_INFO → R s (rxSaiReq cfg e q s))
    (hul : q.gsup.typ = UPDATE_LOCATION → R s (rxUpdLocReq cfg e k q s))
    (hss : IsSs q.gsup.typ → R s (rxProcSs cfg e q s))
    (hlu : R s (luRxGsup cfg q s)) (hp : ∀ r ∈ s.pending, Q r) :
    R s (readCb cfg e k q s) :=
  pr.readCb2 e k hq hsai hul hss hlu (fun _ => pr.moSms s hq) hp

theorem Prims.readCb (pr : Prims cfg Q R) {s : Sys} (e : Env) (k : Conn) {q : Req} (hq : Q q)
    (hul : q.gsup.typ = UPDATE_LOCATION → R s (rxUpdLocReq cfg e k q s))
    (hss : IsSs q.gsup.typ → R s (rxProcSs cfg e q s))
    (hlu : R s (luRxGsup cfg q s)) (hp : ∀ r ∈ s.pending, Q r) :
    R s (Verif.Sys.readCb cfg e k q s) :=
  pr.readCb' e k hq (fun _ => pr.sai (fun _ _ => trivial) (show SEND_AUTH_INFO + 2 ≠ UPDATE_LOCATION + 2 by decide) s e hq)
    hul hss hlu hp

theorem Prims00.notify (pr : Prims00 cfg Q R P T U) (sub : HlrSubscr) (s : Sys) (l : List Conn) :
    R s (l.foldl (notifyConn cfg sub) s) := by
  induction l generalizing s with
  | nil => exact pr.refl s
  | cons a l ih =>
    refine pr.trans ?_ (ih _)
    unfold notifyConn
    split
    · exact pr.refl s
    · split
      · exact pr.refl s
      · dsimp only
        generalize (if a.supportsPs = true then sub.sgsnNumber else sub.vlrNumber) = cmp
        split
        · exact pr.refl s
        · split
          · exact pr.refl s
          · rename_i m hm
            have ht : m.typ = INSERT_DATA := by
              unfold isdMsg at hm
              obtain ⟨x, -, rfl⟩ := Option.map_eq_some_iff.1 hm
              rfl
            exact pr.addrSend s _ (pr.own m (by rw [ht]; decide) (by rw [ht]; decide))

theorem Prims00.delData (pr : Prims00 cfg Q R P T U) (s : Sys) (i n : Bytes) : R s (sendDelData cfg s i n) := by
  unfold sendDelData
  split
  · exact pr.refl s
  · exact pr.encSendToIpa _ _ (pr.own _ (show DELETE_DATA ≠ _ by decide) (show DELETE_DATA ≠ _ by decide))

theorem Prims00.nam (pr : Prims00 cfg Q R P T U) (s : Sys) (e : Env) (sub : HlrSubscr) (v p : Bool) :
    R s (subscrNam cfg e sub v p s).2 := by
  unfold subscrNam
  generalize (if p = true then sub.namPs else sub.namCs) = cur
  by_cases hc : cur = v
  · rw [if_pos hc]; exact pr.refl s
  · rw [if_neg hc]
    have hl := (api_op (pr.quiet (.nam sub.imsi v p) trivial)).linked s.db e.sc
    rw [show (Op.nam sub.imsi v p).run = Db.subscrNam sub.imsi v p from rfl] at hl
    generalize exec (Db.subscrNam sub.imsi v p) s.db e.sc = res at hl ⊢
    obtain ⟨rc, d⟩ := res
    cases rc with
    | none => exact pr.trans (pr.db s d hl) (pr.crash _)
    | some rc =>
      dsimp only
      by_cases h1 : rc ≠ 0
      · rw [if_pos h1]; exact pr.db s d hl
      · rw [if_neg h1]
        split
        · exact pr.db s d hl
        · exact pr.trans (pr.db s d hl) (pr.trans (pr.delData _ _ _) (pr.delData _ _ _))

end
end Verif.Sys
