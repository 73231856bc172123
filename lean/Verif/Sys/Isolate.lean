import Verif.Db.Isolate
import Verif.Sys.Linking
import Verif.Sys.Props4
/-!
# One walk through all handlers: what is done for others does not touch a subscriber
-/
namespace Verif.Sys.Props
open Verif Verif.Db Verif.Gsup Verif.Hlr

/-- The IMSI in a message that was sent. -/
def Out.about : Out → Option Bytes
  | .tx _ m _ => some m.imsi
  | .remote _ m _ => some m.imsi
  | _ => none

/-- Everything the process holds about a subscriber: the location updates under way, the USSD sessions, the entry
of the proxy and the requests that wait for the home HLR. -/
structure SubState where
  lus : List Lu
  sess : List Sess
  proxy : List ProxyEntry
  pending : List Req
deriving DecidableEq

/-- What the process holds about the subscriber. -/
def stateOf (imsi : Bytes) (s : Sys) : SubState where
  lus := s.lus.filter (·.subscr.imsi == imsi)
  sess := s.sess.filter (·.imsi == imsi)
  proxy := s.proxy.filter (·.data.imsi == imsi)
  pending := s.pending.filter (·.gsup.imsi == imsi)

/-- From `s` to `t` the subscriber `B` is left alone. -/
structure Iso (B : Bytes) (s t : Sys) : Prop where
  db : ∀ v, Held B v s.db → Held B v t.db
  log : ∃ l, t.log = l ++ s.log ∧ (∀ o ∈ l, Out.about o ≠ some B) ∧ (.restart ∈ l ∨ stateOf B t = stateOf B s)

theorem Iso.refl {B : Bytes} (s : Sys) : Iso B s s := ⟨fun _ h => h, [], rfl, fun _ h => (by cases h), .inr rfl⟩

theorem Iso.trans {B : Bytes} {s t u : Sys} (h : Iso B s t) (h' : Iso B t u) : Iso B s u := by
  refine ⟨fun v hv => h'.db v (h.db v hv), ?_⟩
  obtain ⟨l, e, a, c⟩ := h.log
  obtain ⟨l', e', a', c'⟩ := h'.log
  refine ⟨l' ++ l, by rw [e', e, List.append_assoc], fun o ho => ?_, ?_⟩
  · rcases List.mem_append.1 ho with ho | ho
    · exact a' o ho
    · exact a o ho
  · rcases c with c | c
    · exact .inl (List.mem_append_right _ c)
    · rcases c' with c' | c'
      · exact .inl (List.mem_append_left _ c')
      · exact .inr (c'.trans c)

section
variable {B : Bytes} {cfg : Cfg}

/-- A change of what is not the subscriber's, without a message. -/
theorem Iso.of {s t : Sys} (h1 : t.db = s.db) (h2 : t.log = s.log) (h3 : stateOf B t = stateOf B s) : Iso B s t :=
  ⟨fun v h => by rw [h1]; exact h, [], by rw [h2]; rfl, fun _ h => (by cases h), .inr h3⟩

theorem iso_emit (s : Sys) {o : Out} (h : Out.about o ≠ some B) : Iso B s (s.emit o) :=
  ⟨fun _ h => h, [o], rfl, fun x hx => by rw [List.mem_singleton.1 hx]; exact h, .inr rfl⟩

theorem iso_crash (s : Sys) : Iso B s s.crash :=
  ⟨fun _ h => h, [.restart], rfl, fun x hx => by rw [List.mem_singleton.1 hx]; simp [Out.about], .inl (by simp)⟩

theorem iso_ub (s : Sys) : Iso B s { s with ub := true } := .of rfl rfl rfl

theorem iso_concl (s : Sys) (q : Req) (how : How) : Iso B s (reqFree s q how) := iso_emit s (by simp [Out.about])

theorem iso_tx (s : Sys) (c : ConnId) (re : Option Nat) {m : Msg} (h : m.imsi ≠ B) : Iso B s (s.emit (.tx c m re)) :=
  iso_emit s (by simpa [Out.about] using h)

theorem iso_respond (s : Sys) {q : Req} (hq : q.gsup.imsi ≠ B) {reply : Msg} (hr : reply.imsi = [] ∨ reply.imsi ≠ B) (error final : Bool) :
    Iso B s (respond cfg s q reply error final).2 := by
  have hi : (makeResponse reply q.gsup error final).2.imsi ≠ B := by
    show (if reply.imsi.isEmpty = true then q.gsup.imsi else reply.imsi) ≠ B
    split
    · exact hq
    · rename_i h
      rcases hr with hr | hr
      · rw [hr] at h; exact absurd rfl h
      · exact hr
  unfold respond
  dsimp only
  have h1 : Iso B s (if (makeResponse reply q.gsup error final).1 ≠ 0 then s
      else sendReqResponse cfg s q (makeResponse reply q.gsup error final).2) := by
    split
    · exact .refl s
    · unfold sendReqResponse
      split
      · exact .refl s
      · split
        · exact iso_tx s _ _ hi
        · exact .refl s
  split
  · exact h1.trans (iso_emit _ (by simp [Out.about]))
  · exact h1

theorem iso_respondMsgt (s : Sys) {q : Req} (hq : q.gsup.imsi ≠ B) (t : Nat) : Iso B s (respondMsgt cfg s q t) :=
  iso_respond s hq (.inl rfl) _ _

theorem iso_respondErr (s : Sys) {q : Req} (hq : q.gsup.imsi ≠ B) (c : Cause) : Iso B s (respondErr cfg s q c) := by
  unfold respondErr
  split
  · exact iso_concl s q _
  · exact iso_respond s hq (.inl rfl) _ _

theorem iso_addrSend (s : Sys) (a : Bytes) {m : Msg} (h : m.imsi ≠ B) : Iso B s (addrSend s a m).2 := by
  unfold addrSend
  split
  · exact .refl s
  · exact iso_tx s _ _ h

theorem iso_sendToIpa (s : Sys) (n : IpaName) {m : Msg} (h : m.imsi ≠ B) : Iso B s (sendToIpa s n m).2 := by
  unfold sendToIpa
  split
  · exact iso_addrSend _ _ h
  · split
    · split
      · exact .refl s
      · exact iso_addrSend _ _ h
    · exact iso_addrSend _ _ h

theorem iso_encSendToIpa (s : Sys) (n : IpaName) {m : Msg} (h : m.imsi ≠ B) : Iso B s (encSendToIpa cfg s n m).2 := by
  unfold encSendToIpa
  split
  · exact iso_sendToIpa _ _ h
  · exact .refl s

theorem iso_forwardToLocalPeer (s : Sys) {q : Req} (hq : q.gsup.imsi ≠ B) (n : IpaName) : Iso B s (forwardToLocalPeer cfg s n q) := by
  unfold forwardToLocalPeer
  dsimp only
  have h := iso_encSendToIpa (cfg := cfg) s n (m := { q.gsup with src := q.source.name }) hq
  split
  · exact h.trans (iso_respondMsgt _ hq _)
  · exact h.trans (iso_concl _ _ _)

theorem iso_db (s : Sys) {α : Type} {m : DbM α} (hm : ∀ v, Sat (Keeps (Held B v)) m) (sc : Script) :
    Iso B s { s with db := (exec m s.db sc).2 } :=
  ⟨fun v h => (hm v).exec _ _ h, [], rfl, fun _ h => (by cases h), .inr rfl⟩

theorem iso_withDb {s0 s : Sys} {α : Type} {m : DbM α} {sc : Script} {k : α → Sys → Sys}
    (hm : ∀ v, Sat (Keeps (Held B v)) m) (h : Iso B s0 s)
    (hk : ∀ a d, exec m s.db sc = (some a, d) → Iso B s0 { s with db := d } → Iso B s0 (k a { s with db := d })) :
    Iso B s0 (withDb s sc m k) := by
  unfold withDb
  split
  · exact (h.trans (iso_db s hm sc)).trans (iso_crash _)
  · rename_i a ha
    exact hk a _ (Prod.ext ha rfl) (h.trans (iso_db s hm sc))

/-! ## Handlers with one response -/

theorem iso_sai (s : Sys) (e : Env) {q : Req} (hq : q.gsup.imsi ≠ B) : Iso B s (rxSaiReq cfg e q s) := by
  refine iso_withDb (fun v => held_sai (by exact hq) _ _ _ _) (.refl s) fun a d _ h => ?_
  split
  · exact h.trans (iso_respond _ hq (.inl rfl) _ _)
  · exact h.trans (iso_respondErr _ hq _)
  · exact h.trans (iso_ub _)

theorem iso_purge (s : Sys) (e : Env) {q : Req} (hq : q.gsup.imsi ≠ B) : Iso B s (rxPurgeReq cfg e q s) := by
  refine iso_withDb (fun v => held_purge hq _) (.refl s) fun a d _ h => ?_
  split
  · exact h.trans (iso_respondMsgt _ hq _)
  · exact h.trans (iso_respondErr _ hq _)

theorem iso_checkImei (s : Sys) (e : Env) {q : Req} (hq : q.gsup.imsi ≠ B) : Iso B s (rxCheckImeiReq cfg e q s) := by
  refine iso_withDb (fun v => held_imei hq _ _ _) (.refl s) fun a d _ h => ?_
  split
  · exact h.trans (iso_respond _ hq (.inl rfl) _ _)
  · exact h.trans (iso_respondErr _ hq _)

theorem held_getByImsi (i : Bytes) (v : SubData) : Sat (Keeps (Held B v)) (getByImsi i) := dbSel_sat (Keeps.pre _) _

theorem iso_moSms (s : Sys) {q : Req} (hq : q.gsup.imsi ≠ B) : Iso B s (forwardMoSms cfg q s) := by
  unfold forwardMoSms
  dsimp only
  split
  · exact iso_respondErr _ hq _
  · split
    · exact iso_respondErr _ hq _
    · split
      · exact iso_respond _ hq (.inl rfl) _ _
      · split
        · exact iso_respond _ hq (.inl rfl) _ _
        · split
          · exact iso_forwardToLocalPeer _ hq _
          · exact iso_ub _

theorem iso_mtSms (s : Sys) (e : Env) {q : Req} (hq : q.gsup.imsi ≠ B) : Iso B s (forwardMtSms cfg e q s) := by
  refine iso_withDb (held_getByImsi _) (.refl s) fun a d _ h => ?_
  split
  · exact h.trans (iso_respondErr _ hq _)
  · split
    · exact h.trans (iso_respondErr _ hq _)
    · exact h.trans (iso_forwardToLocalPeer _ hq _)

theorem iso_copies (s : Sys) {q : Req} (hq : q.gsup.imsi ≠ B) (l : List Ent) : Iso B s (l.foldl (copyToSmsc cfg q) s) := by
  induction l generalizing s with
  | nil => exact .refl s
  | cons a l ih => exact (iso_encSendToIpa s _ (m := { q.gsup with src := cfg.myName ++ [0] }) hq).trans (ih _)

theorem iso_readyForSm (s : Sys) {q : Req} (hq : q.gsup.imsi ≠ B) : Iso B s (rxReadyForSm cfg q s) :=
  (iso_copies s hq _).trans (iso_respondMsgt _ hq _)

theorem iso_readCbForward (s : Sys) {q : Req} (hq : q.gsup.imsi ≠ B) : Iso B s (readCbForward cfg q s) := by
  have h1 : ∀ s, Iso B s (respond cfg s q { typ := ROUTING_ERROR, src := q.gsup.dst } true true).2 :=
    fun s => iso_respond s hq (.inl rfl) _ _
  unfold readCbForward
  dsimp only
  split
  · exact h1 _
  · split
    · exact h1 _
    · split
      · exact (iso_sendToIpa _ _ hq).trans (h1 _)
      · exact (iso_sendToIpa _ _ hq).trans (iso_concl _ _ _)

/-! ## Location updates -/

theorem held_luStart {e : Env} {q : Req} (hq : q.gsup.imsi ≠ B) (v : SubData) : Sat (Keeps (Held B v)) (luStartDb cfg e q) := by
  unfold luStartDb
  refine Sat.bind (Keeps.pre _) (held_cod hq _ _) fun _ => ?_
  split
  · exact Sat.pure (Keeps.pre _) _
  · unfold getByImsi
    refine held_sel fun r hr => ?_
    obtain ⟨rc, o⟩ := r
    cases o with
    | none => exact Sat.pure (Keeps.pre _) _
    | some row =>
      obtain ⟨h1, d, hd, hm⟩ := hr row rfl
      have hi : row.imsi ≠ B := by
        have : row.imsi = q.gsup.imsi := by simpa using h1
        rw [this]; exact hq
      have hid : ∀ n ps via now, Sat (Keeps (Held B v)) (subscrLu (HlrSubscr.ofRow row).id n ps via now) :=
        fun n ps via now => held_op (.lu row.id n ps via now) (other_row hd hm hi)
      have fin : ∀ n via, Sat (Keeps (Held B v)) (do
          let rc ← subscrLu (HlrSubscr.ofRow row).id n (!q.gsup.isCs) via e.now
          if rc ≠ 0 then pure (LuRes.fail .netFail) else pure (.wait (HlrSubscr.ofRow row)) : DbM LuRes) := by
        intro n via
        refine Sat.bind (Keeps.pre _) (hid _ _ _ _) fun rc => ?_
        split <;> exact Sat.pure (Keeps.pre _) _
      dsimp only
      split
      · exact Sat.pure (Keeps.pre _) _
      · split
        · exact Sat.pure (Keeps.pre _) _
        · split
          · exact Sat.pure (Keeps.pre _) _
          · exact fin _ _
          · split
            · exact fin _ _
            · split
              · exact Sat.pure (Keeps.pre _) _
              · exact fin _ _

theorem isdMsg_imsi {imsi msisdn : Bytes} {ps : Bool} {m : Msg} (h : isdMsg cfg imsi msisdn ps = some m) : m.imsi = strlcpy 16 imsi := by
  unfold isdMsg at h
  obtain ⟨x, -, rfl⟩ := Option.map_eq_some_iff.1 h
  rfl

theorem iso_lus (t : Sys) {lu : Lu} (h : lu.subscr.imsi ≠ B) : Iso B t { t with lus := lu :: t.lus } := by
  refine .of rfl rfl ?_
  unfold stateOf
  dsimp only
  rw [List.filter_cons, if_neg (by simpa using h)]

theorem filter_erase {α : Type} [BEq α] [LawfulBEq α] (l : List α) (p : α → Bool) {a : α} (h : p a = false) :
    (l.erase a).filter p = l.filter p := by
  induction l with
  | nil => rfl
  | cons b l ih =>
    rw [List.erase_cons]
    split
    · rename_i hb
      have : b = a := by simpa using hb
      rw [this, List.filter_cons, h]; simp
    · rw [List.filter_cons, List.filter_cons, ih]

theorem iso_erase (t : Sys) {lu : Lu} (h : lu.subscr.imsi ≠ B) : Iso B t { t with lus := t.lus.erase lu } := by
  refine .of rfl rfl ?_
  unfold stateOf
  dsimp only
  rw [filter_erase _ _ (by simpa using h)]

theorem iso_updLoc (s : Sys) (e : Env) (k : Conn) {q : Req} (hq : q.gsup.imsi ≠ B) (hv : imsiValid q.gsup.imsi = true) :
    Iso B s (rxUpdLocReq cfg e k q s) := by
  unfold rxUpdLocReq
  dsimp only
  generalize (if q.gsup.isCs = true then ({ k with supportsCs := true } : Conn)
    else { k with supportsPs := true }) = k'
  refine iso_withDb (held_luStart hq) (.of rfl rfl rfl) fun a d hd h => ?_
  split
  · exact h.trans (iso_respondErr _ hq _)
  · rename_i sub
    have hsub : sub.imsi = q.gsup.imsi := by
      have := (luStart_post cfg e q).exec _ _ trivial sub (congrArg Prod.fst hd)
      rw [this.2.1]; exact strlcpy_valid hv
    refine h.trans ?_
    unfold luOnenter
    split
    · exact iso_respondErr _ hq _
    · rename_i m hm
      have hmi : m.imsi ≠ B := by
        rw [isdMsg_imsi hm]
        show strlcpy 16 sub.imsi ≠ B
        rw [hsub, strlcpy_valid hv]; exact hq
      have h1 := fun s => iso_respond (cfg := cfg) s hq (.inr hmi) false false
      dsimp only
      split
      · exact (h1 _).trans (iso_respondErr _ hq _)
      · exact (h1 _).trans (iso_lus _ (by show sub.imsi ≠ B; rw [hsub]; exact hq))
  · exact h.trans (iso_ub _)

theorem iso_luRx (s : Sys) {q : Req} (hq : q.gsup.imsi ≠ B) (hl : ∀ lu ∈ s.lus, lu.subscr.imsi = lu.req.gsup.imsi) :
    Iso B s (luRxGsup cfg q s) := by
  unfold luRxGsup
  split
  · exact iso_respondErr _ hq _
  · rename_i lu hf
    have h0 : lu.subscr.imsi = q.gsup.imsi := by
      have : (lu.subscr.imsi == q.gsup.imsi) = true := by
        have := List.find?_some hf; exact this
      simpa using this
    have h1 : lu.subscr.imsi ≠ B := by rw [h0]; exact hq
    have h2 : lu.req.gsup.imsi ≠ B := by rw [← hl lu (List.mem_of_find?_eq_some hf)]; exact h1
    split
    · exact ((iso_concl s q _).trans (iso_respondMsgt _ h2 _)).trans (iso_erase _ h1)
    · split
      · exact ((iso_respondErr s h2 _).trans (iso_erase _ h1)).trans (iso_concl _ _ _)
      · exact iso_respondErr _ hq _

theorem iso_luTimeout (s : Sys) (nr : Nat) (hl : ∀ lu ∈ s.lus, lu.subscr.imsi = lu.req.gsup.imsi)
    (hn : ∀ lu ∈ s.lus, lu.req.nr = nr → lu.subscr.imsi ≠ B) : Iso B s (luTimeout cfg nr s) := by
  unfold luTimeout
  split
  · exact .refl s
  · rename_i lu hf
    have hm := List.mem_of_find?_eq_some hf
    have h0 : lu.req.nr = nr := by
      have : (lu.req.nr == nr) = true := by
        have := List.find?_some hf; exact this
      simpa using this
    have h1 := hn lu hm h0
    have h2 : lu.req.gsup.imsi ≠ B := by rw [← hl lu hm]; exact h1
    exact (iso_respondErr s h2 _).trans (iso_erase _ h1)

/-! ## USSD sessions -/

/-- A session of another subscriber, whose requests are that subscriber's. -/
def Other (B : Bytes) (x : Sess) : Prop := x.imsi ≠ B ∧ ∀ q ∈ x.reqs, q.gsup.imsi ≠ B

theorem Other.same {x y : Sess} (h : Other B x) (e : SameSess x y) : Other B y := by
  refine ⟨?_, by rw [e.reqs]; exact h.2⟩
  have : y.imsi = x.imsi := congrArg Prod.fst e.key
  rw [this]; exact h.1

theorem iso_ssSet (t : Sys) {x : Sess} (hx : x.imsi ≠ B) : Iso B t (ssSet t x) := by
  refine .of rfl rfl ?_
  unfold stateOf ssSet
  dsimp only
  rw [filter_upd (f := fun _ => x) (c := fun y : Sess => y.imsi == x.imsi && y.id == x.id)]
  intro a _ ha
  have h1 : a.imsi = x.imsi := congrArg Prod.fst (keyEq.1 ha)
  rw [h1]
  simp [hx]

theorem iso_ssFree (t : Sys) {x : Sess} (hx : x.imsi ≠ B) : Iso B t (ssFree t x) := by
  have h1 : ∀ (s : Sys) (o : Option Req), Iso B s (freeOpt s o) := by
    intro s o
    cases o with
    | none => exact .refl s
    | some q => exact iso_concl s q _
  unfold ssFree
  refine ((h1 t _).trans (h1 _ _)).trans (.of rfl rfl ?_)
  unfold stateOf
  dsimp only
  rw [filter_sub]
  intro a _ ha
  have : a.imsi = B := by simpa using ha
  have : ¬ a.imsi = x.imsi := by rw [this]; exact Ne.symm hx
  simp [this]

/-- What the rest of a handler must do. -/
def KIso (B : Bytes) (s0 : Sys) (x : Sess) (k : Sess → Sys → Sys) : Prop := ∀ y t, SameSess x y → Iso B s0 t → Iso B s0 (k y t)

theorem KIso.same {s0 : Sys} {x y : Sess} {k : Sess → Sys → Sys} (h : KIso B s0 x k) (e : SameSess x y) : KIso B s0 y k :=
  fun z s e' hi => h z s (e.trans e') hi

theorem iso_sendToVlr (s : Sys) (n : IpaName) {m : Msg} (hm : m.imsi ≠ B) : Iso B s (sendToVlr s n m) := by
  unfold sendToVlr
  split
  · exact .refl s
  · exact iso_sendToIpa s _ hm

theorem iso_sendToMs {s0 s : Sys} (e : Env) {x : Sess} (hx : Other B x) {m : Msg} (hm : m.imsi ≠ B) {k : Sess → Sys → Sys}
    (h : Iso B s0 s) (hk : KIso B s0 x k) : Iso B s0 (ssSendToMs cfg e s x m k) := by
  unfold ssSendToMs
  split
  · rename_i q hq
    exact hk _ _ (SameSess.refl x) (h.trans (iso_respond s (hx.2 q (by simp [Sess.reqs, hq])) (.inr hm) _ _))
  · split
    · exact hk _ _ (SameSess.refl x) h
    · split
      · refine iso_withDb (held_getByImsi _) h fun a d _ h => ?_
        split
        · exact hk _ _ (SameSess.refl x) h
        · refine hk _ _ ⟨rfl, rfl, rfl⟩ (h.trans (Iso.trans ?_ (iso_sendToVlr _ _ hm)))
          exact iso_ssSet _ hx.1
      · exact hk _ _ (SameSess.refl x) (h.trans (iso_sendToVlr _ _ hm))

theorem iso_txToMs {s0 s : Sys} (e : Env) {x : Sess} (hx : Other B x) (info : Bytes) {k : Sess → Sys → Sys}
    (h : Iso B s0 s) (hk : KIso B s0 x k) : Iso B s0 (ssTxToMs cfg e s x info k) :=
  iso_sendToMs e hx (by exact hx.1) h hk

theorem iso_txErr {s0 s : Sys} (e : Env) {x : Sess} (hx : Other B x) (i c : Nat) {k : Sess → Sys → Sys}
    (h : Iso B s0 s) (hk : KIso B s0 x k) : Iso B s0 (ssTxErr cfg e s x i c k) := by
  have e1 : SameSess x { x with state := .end_ } := ⟨rfl, rfl, rfl⟩
  unfold ssTxErr
  exact iso_txToMs e (hx.same e1) _ (h.trans (iso_ssSet _ hx.1)) (hk.same e1)

theorem iso_iuse {s0 s : Sys} (e : Env) {x : Sess} (hx : Other B x) (r : SsReq) (i : Iuse) {k : Sess → Sys → Sys}
    (h : Iso B s0 s) (hk : KIso B s0 x k) : Iso B s0 (iuseHandle cfg e s x r i k) := by
  have e1 : SameSess x { x with state := .end_ } := ⟨rfl, rfl, rfl⟩
  have e2 : SameSess x { x with state := .continue_ } := ⟨rfl, rfl, rfl⟩
  unfold iuseHandle
  split
  · dsimp only
    refine iso_withDb (held_getByImsi _) (h.trans (iso_ssSet _ (x := { x with state := .end_ }) hx.1)) fun a d _ h => ?_
    split
    · exact iso_txToMs _ (hx.same e1) _ h (hk.same e1)
    · exact iso_txErr _ (hx.same e1) _ _ h (hk.same e1)
  · exact iso_txToMs _ (hx.same e1) _ (h.trans (iso_ssSet _ hx.1)) (hk.same e1)
  · exact iso_txToMs _ (hx.same e2) _ (h.trans (iso_ssSet _ hx.1)) (hk.same e2)

theorem iso_handleSsAny {s0 s : Sys} (e : Env) {x : Sess} (hx : Other B x) (eo : Bool) {m : Msg} (hm : m.imsi ≠ B) (r : SsReq)
    {k : Sess → Sys → Sys} (h : Iso B s0 s) (hk : KIso B s0 x k) : Iso B s0 (handleSsAny cfg e s x eo m r k) := by
  unfold handleSsAny
  split
  · unfold handleUssd
    split
    · exact iso_txErr _ hx _ _ h hk
    · split
      · exact iso_sendToMs _ hx hm h hk
      · split
        · split
          · exact iso_txErr _ hx _ _ h hk
          · exact hk _ _ (SameSess.refl x) (h.trans (iso_tx _ _ _ hm))
        · exact h.trans (iso_ub _)
    · split
      · exact iso_sendToMs _ hx hm h hk
      · refine iso_iuse _ hx _ _ h ?_
        intro y t ey ht
        dsimp only
        split
        · exact hk _ _ ey (ht.trans (iso_ssFree _ (hx.same ey).1))
        · exact hk _ _ ey ht
  · exact iso_txErr _ hx _ _ h hk

theorem iso_procSs (s : Sys) (e : Env) {q : Req} (hq : q.gsup.imsi ≠ B) (hs : ∀ x ∈ s.sess, SessReqOk x) :
    Iso B s (rxProcSs cfg e q s) := by
  have found : ∀ {x : Sess}, ssFind s q.gsup.imsi q.gsup.sessId = some x → Other B x := by
    intro x hx
    obtain ⟨h1, h2, -⟩ := ssFind_some hx
    have h3 : x.imsi ≠ B := by rw [h2]; exact hq
    exact ⟨h3, fun r hr => by rw [(hs x h1 r hr).2.1]; exact h3⟩
  unfold rxProcSs
  dsimp only
  split
  · exact iso_respondErr _ hq _
  · split
    · exact iso_respondErr _ hq _
    · rename_i r _
      split
      · split
        · exact iso_respondErr _ hq _
        · have hn : Other B (ssNew cfg q r) := by
            obtain ⟨h1, -, h3⟩ := ssNew_key cfg q r
            refine ⟨by rw [h1]; exact hq, fun r hr => ?_⟩
            rw [h3] at hr
            rw [List.mem_singleton.1 hr]; exact hq
          refine iso_handleSsAny e hn _ hq _ (.of rfl rfl ?_) (fun _ _ _ h => h)
          unfold stateOf
          dsimp only
          rw [List.filter_append, List.filter_cons, if_neg (by simpa using hn.1)]
          simp
      · split
        · exact iso_respondErr _ hq _
        · rename_i x hx
          have hx' := (found hx).same (rearm_same cfg x)
          exact iso_handleSsAny e hx' _ hq _ (iso_ssSet s hx'.1) (fun _ _ _ h => h.trans (iso_concl _ _ _))
      · split
        · exact iso_respondErr _ hq _
        · rename_i x hx
          have hx' := found hx
          split
          · exact (iso_ssFree s hx'.1).trans (iso_concl _ _ _)
          · refine iso_handleSsAny e hx' _ hq _ (.refl s) ?_
            intro y t ey ht
            dsimp only
            split
            · exact ht.trans (iso_ub _)
            · exact ht.trans ((iso_ssFree _ (hx'.same ey).1).trans (iso_concl _ _ _))
      · exact iso_concl _ _ _

theorem iso_ssTimeout (s : Sys) {imsi : Bytes} (hi : imsi ≠ B) (id : Nat) : Iso B s (ssTimeout imsi id s) := by
  unfold ssTimeout
  split
  · exact .refl s
  · rename_i x hx
    split
    · exact iso_ssFree s (by rw [(ssFind_some hx).2.1]; exact hi)
    · exact .refl s

theorem iso_ite {s a b : Sys} {c : Prop} [Decidable c] (h1 : Iso B s a) (h2 : Iso B s b) : Iso B s (if c then a else b) := by
  split
  · exact h1
  · exact h2

theorem iso_dispatch (s : Sys) (e : Env) (k : Conn) {q : Req} (hq : q.gsup.imsi ≠ B) (hv : imsiValid q.gsup.imsi = true)
    (hl : ∀ lu ∈ s.lus, lu.subscr.imsi = lu.req.gsup.imsi) (hs : ∀ x ∈ s.sess, SessReqOk x) : Iso B s (dispatch cfg e k q s) := by
  unfold dispatch
  refine iso_ite (iso_sai s e hq) (iso_ite (iso_updLoc s e k hq hv) (iso_ite (iso_purge s e hq) (iso_ite (iso_concl _ _ _)
    (iso_ite (iso_concl _ _ _) (iso_ite (iso_procSs s e hq hs) (iso_ite (iso_concl _ _ _) (iso_ite (iso_luRx s hq hl)
    (iso_ite (iso_checkImei s e hq) (iso_ite (iso_moSms s hq) (iso_ite (iso_mtSms s e hq) (iso_ite (iso_readyForSm s hq)
    (iso_concl _ _ _))))))))))))

/-! ## Distributed GSM -/

theorem iso_connectResult (s : Sys) {q : Req} (hq : q.gsup.imsi ≠ B) (a : Option Addr) : Iso B s (connectResult cfg a s q) := by
  unfold connectResult
  split
  · unfold forwardToRemote
    dsimp only
    split
    · exact (iso_emit s (by simpa [Out.about] using hq)).trans (iso_concl _ _ _)
    · exact iso_respondErr _ hq _
  · split
    · exact iso_respond _ hq (.inl rfl) _ _
    · exact iso_respondErr _ hq _

theorem iso_fold (l : List Req) (h : ∀ q ∈ l, q.gsup.imsi ≠ B) (a : Option Addr) (s : Sys) : Iso B s (l.foldl (connectResult cfg a) s) := by
  induction l generalizing s with
  | nil => exact .refl s
  | cons q l ih =>
    exact (iso_connectResult s (h q List.mem_cons_self) a).trans (ih (fun q hq => h q (List.mem_cons_of_mem _ hq)) _)

/-- Requests of an IMSI are let go: either it is another one, or the subscriber has none. -/
theorem iso_pop (s : Sys) {imsi : Bytes} (h : imsi ≠ B ∨ ∀ q ∈ s.pending, q.gsup.imsi ≠ B) (a : Option Addr) :
    Iso B s (deferredPop cfg imsi a s) := by
  unfold deferredPop
  refine Iso.trans (t := { s with pending := s.pending.filter (fun q => !(q.gsup.imsi == imsi)) }) (.of rfl rfl ?_) (iso_fold _ ?_ a _)
  · unfold stateOf
    dsimp only
    rw [filter_sub]
    intro q hq hp
    have hb : q.gsup.imsi = B := by simpa using hp
    rcases h with h | h
    · rw [hb]; simp [Ne.symm h]
    · exact absurd hb (h q hq)
  · intro q hq
    obtain ⟨h1, h2⟩ := List.mem_filter.1 hq
    rcases h with h | h
    · have : q.gsup.imsi = imsi := by simpa using h2
      rw [this]; exact h
    · exact h q h1

theorem pop_pending (s : Sys) (imsi : Bytes) (a : Option Addr) {q : Req} (h : q ∈ (deferredPop cfg imsi a s).pending) : q ∈ s.pending := by
  rw [deferredPop_eq] at h
  exact (List.mem_filter.1 h).1

/-- The link to `a` matters to waiting requests: either the subscriber is not at home there, or has none waiting. -/
theorem iso_cb (s : Sys) (a : Addr) (up : Bool) (h : (∀ x ∈ s.proxy, x.data.imsi = B → x.data.addr ≠ a) ∨ ∀ q ∈ s.pending, q.gsup.imsi ≠ B) :
    Iso B s (connectResultCb cfg a up s) := by
  unfold connectResultCb
  generalize s.proxy = l at h
  induction l generalizing s with
  | nil => exact .refl s
  | cons x l ih =>
    rw [List.foldl_cons]
    by_cases c : x.data.addr = a
    · rw [if_pos c]
      refine Iso.trans (iso_pop s ?_ _) (ih _ ?_)
      · rcases h with h | h
        · exact .inl fun hb => h x List.mem_cons_self hb c
        · exact .inr h
      · rcases h with h | h
        · exact .inl fun y hy => h y (List.mem_cons_of_mem _ hy)
        · exact .inr fun q hq => h q (pop_pending _ _ _ hq)
    · rw [if_neg c]
      refine ih s ?_
      rcases h with h | h
      · exact .inl fun y hy => h y (List.mem_cons_of_mem _ hy)
      · exact .inr h

theorem put_other (s : Sys) (clk : Int) {d : ProxySub} (h : d.imsi ≠ B) : stateOf B (proxyPut clk d s) = stateOf B s := by
  have hset : ∀ l : List ProxyEntry, (setFirst { lastUpdate := clk, data := d } l).filter (·.data.imsi == B) = l.filter (·.data.imsi == B) := by
    intro l
    induction l with
    | nil => rfl
    | cons y l ih =>
      unfold setFirst
      split
      · rename_i hy
        have hy : y.data.imsi = d.imsi := by simpa using hy
        rw [List.filter_cons, if_neg (by simpa using h), List.filter_cons, if_neg (by rw [hy]; simpa using h)]
      · rw [List.filter_cons, List.filter_cons, ih]
  unfold stateOf proxyPut
  dsimp only
  split
  · rw [hset]
  · rw [List.filter_cons, if_neg (by simpa using h)]

theorem iso_put (s : Sys) (clk : Int) {d : ProxySub} (h : d.imsi ≠ B) : Iso B s (proxyPut clk d s) := .of rfl rfl (put_other s clk h)

/-- Requests of the subscriber wait only for links that are not up. -/
def Waiter (B : Bytes) (a : Addr) (s : Sys) : Prop := ∀ q ∈ s.pending, q.gsup.imsi = B → addrOf s.proxy B = some a → Half s a

theorem Linking.waiter {s : Sys} (h : Linking s) {a : Addr} (ha : a.nonzero = true) : Waiter B a s := by
  intro q hq hi hx
  exact h q hq a (by rw [hi]; exact hx) ha

theorem iso_connect (s : Sys) (hn : (s.proxy.map (·.data.imsi)).Nodup) {e : Env} (he : e.connectOk = true) {a : Addr}
    (hw : Waiter B a s) : Iso B s (connectRemote cfg e a s) := by
  unfold connectRemote
  cases hr : s.remote? a with
  | none =>
    dsimp only
    rw [if_pos he]
    exact .of rfl rfl rfl
  | some r =>
    dsimp only
    split
    · rename_i hup
      refine iso_cb s a true ?_
      by_cases hp : ∀ q ∈ s.pending, q.gsup.imsi ≠ B
      · exact .inr hp
      · refine .inl fun x hx hi ha => ?_
        obtain ⟨q, hq⟩ := Classical.not_forall.1 hp
        obtain ⟨hq1, hq2⟩ := Classical.not_imp.1 hq
        have hq2 : q.gsup.imsi = B := Classical.not_not.1 hq2
        have := hw q hq1 hq2 ((homeAt_iff hn _ _).1 ⟨x, hx, hi, ha⟩) r hr
        rw [hup] at this
        cases this.1
    · exact .of rfl rfl rfl

theorem waiter_put {s : Sys} {a : Addr} (h : Waiter B a s) (clk : Int) {d : ProxySub} (hd : d.imsi ≠ B) : Waiter B a (proxyPut clk d s) := by
  intro q hq hi hx
  rw [addrOf_put, if_neg (Ne.symm hd)] at hx
  exact h q hq hi hx

theorem iso_resolved (s : Sys) (hn : (s.proxy.map (·.data.imsi)).Nodup) (hl : Linking s) {e : Env} (he : e.connectOk = true)
    {d : ProxySub} (hd : d.imsi ≠ B) {a : Addr} (ha : a.nonzero = true) : Iso B s (remoteResolved cfg e d a s) := by
  unfold remoteResolved
  split
  · exact .refl s
  · dsimp only
    have h1 : Iso B s (proxyPut e.clock { d with addr := a } s) := iso_put s _ hd
    split
    · exact h1.trans (iso_connect _ (nodup_put hn _ _) he (waiter_put (hl.waiter ha) _ hd))
    · exact h1

theorem iso_ack (s : Sys) (e : Env) {d : ProxySub} (hd : d.imsi ≠ B) (q : Req) : Iso B s (ackToRemote e d q s) := by
  unfold ackToRemote
  split
  · dsimp only
    split
    · exact iso_put s _ (by rw [ackToSub_imsi]; exact hd)
    · exact .refl s
  · exact .refl s

theorem iso_defer (s : Sys) {q : Req} (hq : q.gsup.imsi ≠ B) : Iso B s (deferReq q s) := by
  refine .of rfl rfl ?_
  unfold stateOf deferReq
  dsimp only
  rw [List.filter_append, List.filter_cons, if_neg (by simpa using hq)]
  simp

theorem iso_forward (s : Sys) (hn : (s.proxy.map (·.data.imsi)).Nodup) (hl : Linking s) {e : Env} (he : e.connectOk = true)
    {d : ProxySub} {q : Req} (hi : d.imsi = q.gsup.imsi) (hd : addrOf s.proxy d.imsi = some d.addr) (hq : q.gsup.imsi ≠ B) :
    Iso B s (forwardToRemoteHlr cfg e d q s) := by
  have hdB : d.imsi ≠ B := by rw [hi]; exact hq
  unfold forwardToRemoteHlr
  dsimp only
  have hl1 := linking_ack (e := e) (q := q) hl hd
  have hn1 := nodup_ack (e := e) hn d q
  refine (iso_ack s e hdB q).trans ?_
  generalize ackToRemote e d q s = t at hl1 hn1
  split
  · exact iso_defer t hq
  · rename_i hz
    have hz : d.addr.nonzero = true := by simpa using hz
    have hc : Iso B t (connectRemote cfg e d.addr (deferReq q t)) := by
      refine (iso_defer t hq).trans (iso_connect _ (by exact hn1) he ?_)
      intro q' hq' hi' hx
      rcases List.mem_append.1 hq' with h | h
      · exact hl1.waiter hz q' h hi' hx
      · rw [List.mem_singleton.1 h] at hi'
        exact absurd hi' hq
    split
    · split
      · exact iso_connectResult t hq _
      · exact hc
    · exact hc

theorem iso_proxied (s : Sys) (hn : (s.proxy.map (·.data.imsi)).Nodup) (hl : Linking s) {e : Env} (he : e.connectOk = true)
    {q : Req} (hq : q.gsup.imsi ≠ B) : Iso B s (proxied cfg e q s) := by
  unfold proxied
  split
  · rename_i d hd
    obtain ⟨h1, h2⟩ := addrOf_some hd
    exact iso_forward s hn hl he h1 h2 hq
  · have h0 : Iso B s (proxyPut e.clock { imsi := q.gsup.imsi } s) := iso_put s _ hq
    have hl' : Linking (proxyPut e.clock { imsi := q.gsup.imsi } s) := linking_put hl (.inr rfl)
    have hn' := nodup_put hn e.clock { imsi := q.gsup.imsi }
    split
    · rename_i hg
      have hl2 := linking_resolved (cfg := cfg) (e := e) hn' hl' { imsi := q.gsup.imsi } e.gateway
      have hn2 := nodup_resolved (cfg := cfg) (e := e) hn' { imsi := q.gsup.imsi } e.gateway
      have h1 := h0.trans (iso_resolved (cfg := cfg) _ hn' hl' he (d := { imsi := q.gsup.imsi }) hq hg)
      split
      · exact h1.trans (iso_respondErr _ hq _)
      · rename_i d hd
        obtain ⟨e1, e2⟩ := addrOf_some hd
        exact h1.trans (iso_forward _ hn2 hl2 he e1 e2 hq)
    · refine h0.trans (iso_forward _ hn' hl' he rfl ?_ hq)
      rw [addrOf_put, if_pos rfl]

/-! ## Events -/

/-- What is known of every reachable state. -/
structure Known (s : Sys) : Prop where
  nodup : (s.proxy.map (·.data.imsi)).Nodup
  linking : Linking s
  lus : ∀ lu ∈ s.lus, lu.subscr.imsi = lu.req.gsup.imsi
  sess : ∀ x ∈ s.sess, SessReqOk x

theorem reach_known {s : Sys} (h : Reach s) : Known s := by
  refine ⟨c37_one_entry h, reach_linking h, ?_, reach_sessReq h⟩
  obtain ⟨d, evs, rfl⟩ := h
  intro lu hlu
  obtain ⟨_, _, _, _, _, -, -, -, -, h, -⟩ := c27_waiting d evs hlu
  exact h

theorem iso_readCb (s : Sys) (hk : Known s) {e : Env} (he : e.connectOk = true) (k : Conn) {q : Req} (hq : q.gsup.imsi ≠ B)
    (hv : imsiValid q.gsup.imsi = true) : Iso B s (readCb cfg e k q s) := by
  have hd : Iso B s (dispatch cfg e k q s) := iso_dispatch s e k hq hv hk.lus hk.sess
  rw [readCb_eq]
  split
  · exact iso_readCbForward s hq
  · split
    · split
      · exact iso_crash s
      · split
        · exact hd
        · exact iso_proxied s hk.nodup hk.linking he hq
    · exact hd

theorem iso_rx (s : Sys) (hk : Known s) {e : Env} (he : e.connectOk = true) (c : ConnId) {mo : Option Msg}
    (hm : ∀ m, mo = some m → m.imsi ≠ B) : Iso B s (rx cfg e c mo s) := by
  unfold rx
  split
  · exact .refl s
  · rename_i k _
    dsimp only
    have h0 : Iso B s { s with nextReq := s.nextReq + 1, log := .rx s.nextReq c mo :: s.log } :=
      ⟨fun _ h => h, [.rx s.nextReq c mo], rfl, fun o ho => by rw [List.mem_singleton.1 ho]; simp [Out.about], .inr rfl⟩
    split
    · exact h0.trans (iso_emit _ (by simp [Out.about]))
    · rename_i m
      have hm := hm m rfl
      have hq : (mkReq k s.nextReq m).gsup.imsi ≠ B := by rw [mkReq_gsup]; exact hm
      refine h0.trans ?_
      split
      · exact iso_respondMsgt _ (by exact hm) _
      · split
        · exact iso_respondErr _ hq _
        · rename_i hv
          have hv : imsiValid (mkReq k s.nextReq m).gsup.imsi = true := by rw [mkReq_gsup]; simpa using hv
          have hk1 : Known { s with nextReq := s.nextReq + 1, log := .rx s.nextReq c (some m) :: s.log } :=
            ⟨hk.nodup, hk.linking, hk.lus, hk.sess⟩
          generalize ({ s with nextReq := s.nextReq + 1, log := .rx s.nextReq c (some m) :: s.log } : Sys) = t at hk1
          unfold connRx
          split
          · exact iso_readCb t hk1 he k hq hv
          · dsimp only
            generalize routeAdd t.routes k.id (mkReq k s.nextReq m).source.name = ra
            have h2 : Iso B t { t with routes := ra.2 } := .of rfl rfl rfl
            have hk2 : Known { t with routes := ra.2 } := ⟨hk1.nodup, hk1.linking, hk1.lus, hk1.sess⟩
            split
            · exact h2.trans (iso_respondMsgt _ hq _)
            · exact h2.trans (iso_readCb _ hk2 he k hq hv)

theorem iso_errReply (s : Sys) (r : Remote) {m : Msg} (hm : m.imsi ≠ B) (c : Cause) : Iso B s (errReply cfg s r m c) := by
  unfold errReply
  split
  · exact .refl s
  · have key : ∀ x : Msg, x.imsi ≠ B → Iso B s (if (r.up && cfg.enc x) = true then s.emit (.remote r.addr x none) else s) := by
      intro x hx
      split
      · exact iso_emit s (by simpa [Out.about] using hx)
      · exact .refl s
    exact key _ hm

theorem iso_forwardToVlr (s : Sys) (e : Env) {d : ProxySub} (hd : d.imsi ≠ B) {m : Msg} (hm : m.imsi ≠ B) :
    Iso B s (forwardToVlr cfg e d m s).2 := by
  unfold forwardToVlr
  dsimp only
  split
  · exact .refl s
  · split
    · exact .refl s
    · split
      · exact .refl s
      · split
        · exact .refl s
        · rename_i t ht
          have h1 : Iso B s t := by
            rcases ackFromRemote_some ht with ⟨rfl, -⟩ | ⟨x, -, rfl⟩ | ⟨y, -, hy, rfl⟩
            · exact .refl _
            · exact iso_put s _ (by exact hd)
            · exact iso_put s _ (by rw [(ackLuResult_some hy).1]; exact hd)
          split
          · exact h1.trans (iso_tx _ _ _ hm)
          · exact h1

theorem iso_remoteRx (s : Sys) (e : Env) (a : Addr) {m : Msg} (hm : m.imsi ≠ B) : Iso B s (remoteRx cfg e a m s) := by
  unfold remoteRx
  split
  · exact .refl s
  · dsimp only
    refine Iso.trans (iso_emit s (o := .remoteRx a m) (by simp [Out.about])) ?_
    generalize s.emit (.remoteRx a m) = s
    split
    · exact iso_errReply _ _ hm _
    · split
      · exact iso_errReply _ _ hm _
      · rename_i d hd
        have h1 : Iso B s (forwardToVlr cfg e d m s).2 := iso_forwardToVlr s e (by rw [(addrOf_some hd).1]; exact hm) hm
        split
        · exact h1
        · exact h1.trans (iso_errReply _ _ hm _)

theorem remove_other (imsi : Bytes) (h : imsi ≠ B) (l : List ProxyEntry) :
    (proxyRemove imsi l).filter (·.data.imsi == B) = l.filter (·.data.imsi == B) := by
  induction l with
  | nil => rfl
  | cons y l ih =>
    unfold proxyRemove
    split
    · rename_i hy
      have hy : y.data.imsi = imsi := by simpa using hy
      rw [List.filter_cons, if_neg (by rw [hy]; simpa using h)]
    · rw [List.filter_cons, List.filter_cons, ih]

theorem iso_del (s : Sys) {imsi : Bytes} (h : imsi ≠ B) : Iso B s (proxyDel cfg imsi s) := by
  unfold proxyDel
  refine (iso_pop s (.inl h) none).trans (.of rfl rfl ?_)
  unfold stateOf
  dsimp only
  rw [remove_other imsi h]

theorem iso_lookup (s : Sys) (hk : Known s) {e : Env} (he : e.connectOk = true) {imsi : Bytes} (h : imsi ≠ B) (res : Option (Addr × Addr)) :
    Iso B s (lookupResult cfg e imsi res s) := by
  unfold lookupResult
  split
  · exact iso_del s h
  · rename_i v4 v6
    split
    · exact iso_del s h
    · rename_i hz
      split
      · exact .refl s
      · rename_i d hd
        refine iso_resolved s hk.nodup hk.linking he (by rw [(addrOf_some hd).1]; exact h) ?_
        split
        · assumption
        · rename_i h4
          simpa [h4] using hz

/-! ## Notifications -/

theorem iso_notifyConn (s : Sys) {sub : HlrSubscr} (h : strlcpy 16 sub.imsi ≠ B) (k : Conn) : Iso B s (notifyConn cfg sub s k) := by
  unfold notifyConn
  split
  · exact .refl s
  · split
    · exact .refl s
    · dsimp only
      generalize (if k.supportsPs = true then sub.sgsnNumber else sub.vlrNumber) = cmp
      split
      · exact .refl s
      · split
        · exact .refl s
        · rename_i m hm
          exact iso_addrSend s _ (by rw [isdMsg_imsi hm]; exact h)

theorem iso_notify (s : Sys) {sub : HlrSubscr} (h : strlcpy 16 sub.imsi ≠ B) : Iso B s (updateNotify cfg sub s) := by
  unfold updateNotify
  generalize s.conns = l
  induction l generalizing s with
  | nil => exact .refl s
  | cons k l ih => exact (iso_notifyConn s h k).trans (ih _)

theorem iso_sendDelData (s : Sys) {imsi : Bytes} (h : imsi ≠ B) (n : Bytes) : Iso B s (sendDelData cfg s imsi n) := by
  unfold sendDelData
  split
  · exact .refl s
  · exact iso_encSendToIpa s _ (by exact h)

theorem iso_nam (s : Sys) (e : Env) {sub : HlrSubscr} (h : sub.imsi ≠ B) (val ps : Bool) : Iso B s (subscrNam cfg e sub val ps s).2 := by
  unfold subscrNam
  generalize (if ps = true then sub.namPs else sub.namCs) = n
  split
  · exact .refl s
  · have hdb := iso_db s (fun v => held_op (imsi := B) (v := v) (.nam sub.imsi val ps) h) e.sc
    have e1 : (Op.nam sub.imsi val ps).run = Db.subscrNam sub.imsi val ps := rfl
    rw [e1] at hdb
    split
    · rename_i d hd
      rw [hd] at hdb
      exact hdb.trans (iso_crash _)
    · rename_i rc d hd
      rw [hd] at hdb
      dsimp only
      split
      · exact hdb
      · split
        · exact hdb
        · exact (hdb.trans (iso_sendDelData _ h _)).trans (iso_sendDelData _ h _)

end

end Verif.Sys.Props
