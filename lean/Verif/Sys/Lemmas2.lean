import Verif.Sys.Lemmas
namespace Verif.Sys
open Verif Verif.Db Verif.Gsup Verif.Hlr

/-! ## Responses touch the log only -/

theorem sendReqResponse_frame (cfg : Cfg) (s : Sys) (q : Req) (m : Msg) :
    sendReqResponse cfg s q m = { s with log := (sendReqResponse cfg s q m).log } := by
  unfold sendReqResponse
  split
  · rfl
  · split <;> rfl

theorem frame_of {s t : Sys} (h : ∃ l, t = { s with log := l }) : t = { s with log := t.log } := by
  obtain ⟨l, rfl⟩ := h; rfl

theorem respond_frame (cfg : Cfg) (s : Sys) (q : Req) (m : Msg) (e f : Bool) :
    (respond cfg s q m e f).2 = { s with log := (respond cfg s q m e f).2.log } := by
  apply frame_of
  unfold respond
  have hs := sendReqResponse_frame cfg s q (makeResponse m q.gsup e f).2
  dsimp only
  split
  · split
    · exact ⟨_, rfl⟩
    · rw [hs]; exact ⟨_, rfl⟩
  · split
    · exact ⟨_, rfl⟩
    · rw [hs]; exact ⟨_, rfl⟩

theorem respondErr_frame (cfg : Cfg) (s : Sys) (q : Req) (c : Cause) :
    respondErr cfg s q c = { s with log := (respondErr cfg s q c).log } := by
  unfold respondErr
  split
  · rfl
  · exact respond_frame ..

theorem respondMsgt_frame (cfg : Cfg) (s : Sys) (q : Req) (t : Nat) :
    respondMsgt cfg s q t = { s with log := (respondMsgt cfg s q t).log } := respond_frame ..

theorem sendReqResponse_lus (cfg : Cfg) (s : Sys) (q : Req) (m : Msg) (L : List Lu) :
    sendReqResponse cfg { s with lus := L } q m = { sendReqResponse cfg s q m with lus := L } := by
  unfold sendReqResponse
  dsimp only
  split
  · rfl
  · split <;> rfl

theorem respond_lus (cfg : Cfg) (s : Sys) (q : Req) (m : Msg) (e f : Bool) (L : List Lu) :
    (respond cfg { s with lus := L } q m e f).2
      = { (respond cfg s q m e f).2 with lus := L } := by
  unfold respond
  dsimp only
  split <;> split <;> (try rfl) <;> simp only [Sys.emit, sendReqResponse_lus]

theorem respondErr_lus (cfg : Cfg) (s : Sys) (q : Req) (c : Cause) (L : List Lu) :
    respondErr cfg { s with lus := L } q c = { respondErr cfg s q c with lus := L } := by
  unfold respondErr
  split
  · rfl
  · exact respond_lus ..

theorem respondErr_drop (cfg : Cfg) (s : Sys) (q : Req) (c : Cause) (lu : Lu) :
    { respondErr cfg s q c with lus := (respondErr cfg s q c).lus.erase lu }
      = respondErr cfg { s with lus := s.lus.erase lu } q c := by
  have e : (respondErr cfg s q c).lus = s.lus := by rw [respondErr_frame]
  rw [e]
  exact (respondErr_lus ..).symm

theorem respondMsgt_drop (cfg : Cfg) (s : Sys) (q : Req) (t : Nat) (lu : Lu) :
    { respondMsgt cfg s q t with lus := (respondMsgt cfg s q t).lus.erase lu }
      = respondMsgt cfg { s with lus := s.lus.erase lu } q t := by
  have e : (respondMsgt cfg s q t).lus = s.lus := by rw [respondMsgt_frame]
  rw [e]
  exact (respond_lus ..).symm

/-! ## Simple handlers -/

theorem Inv.setConn {P : List Req} {s : Sys} (h : Inv P s) {k : Conn} (hk : k.name.WF) :
    Inv P (setConn s k) := by
  have ids : (s.conns.map (fun x => if x.id == k.id then k else x)).map (·.id) = s.conns.map (·.id) := by
    rw [List.map_map]
    apply List.map_congr_left
    intro x _
    simp only [Function.comp]
    split
    · rename_i e; simpa using Eq.symm (by simpa using e)
    · rfl
  have mem : ∀ {x}, x ∈ s.conns → ∃ y ∈ (Verif.Sys.setConn s k).conns, y.id = x.id := by
    intro x hx
    have : x.id ∈ (s.conns.map (fun x => if x.id == k.id then k else x)).map (·.id) := by
      rw [ids]; exact List.mem_map_of_mem hx
    obtain ⟨y, hy, e⟩ := List.mem_map.1 this
    exact ⟨y, hy, e⟩
  have mem' : ∀ {y}, y ∈ (Verif.Sys.setConn s k).conns → y = k ∧ (∃ x ∈ s.conns, x.id = k.id) ∨ y ∈ s.conns := by
    intro y hy
    obtain ⟨x, hx, e⟩ := List.mem_map.1 hy
    split at e
    · rename_i e'
      exact .inl ⟨e.symm, x, hx, by simpa using e'⟩
    · exact .inr (e ▸ hx)
  exact
    { good := h.good, nodup := h.nodup, isopen := h.isopen, fresh := h.fresh, keys := h.keys
      routesNodup := h.routesNodup
      routesLive := fun r hr => by
        obtain ⟨x, hx, e⟩ := h.routesLive r hr
        obtain ⟨y, hy, e'⟩ := mem hx
        exact ⟨y, hy, e'.trans e⟩
      connNodup := by
        show ((s.conns.map (fun x => if x.id == k.id then k else x)).map (·.id)).Nodup
        rw [ids]; exact h.connNodup
      connFresh := fun y hy => by
        rcases mem' hy with ⟨e, x, hx, e'⟩ | hy
        · rw [e, ← e']; exact h.connFresh x hx
        · exact h.connFresh y hy
      connWf := fun y hy => by
        rcases mem' hy with ⟨e, -⟩ | hy
        · rw [e]; exact hk
        · exact h.connWf y hy
      reqOk := h.reqOk, logged := h.logged, lus := h.lus, sessReq := h.sessReq, prov := h.prov
      norem := h.norem }

theorem done_rxSai {s : Sys} (cfg : Cfg) (e : Env) {q : Req} (h : Inv [q] s) :
    Done (rxSaiReq cfg e q s) := by
  unfold rxSaiReq
  apply h.withDb
  intro a d _
  have h := h.setDb d
  split
  · exact (h.respond1 cfg _ _).done
  · exact (h.respondErr cfg _).done
  · exact h.ub

theorem done_rxPurge {s : Sys} (cfg : Cfg) (e : Env) {q : Req} (h : Inv [q] s) :
    Done (rxPurgeReq cfg e q s) := by
  unfold rxPurgeReq
  apply h.withDb
  intro a d _
  have h := h.setDb d
  split
  · exact (h.respondMsgt cfg _).done
  · exact (h.respondErr cfg _).done

theorem done_rxCheckImei {s : Sys} (cfg : Cfg) (e : Env) {q : Req} (h : Inv [q] s) :
    Done (rxCheckImeiReq cfg e q s) := by
  unfold rxCheckImeiReq
  apply h.withDb
  intro a d _
  have h := h.setDb d
  split
  · exact (h.respond1 cfg _ _).done
  · exact (h.respondErr cfg _).done

theorem done_luOnenter {s : Sys} (cfg : Cfg) (lu : Lu) (h : Inv [lu.req] s)
    (hl : lu.req.gsup.typ = UPDATE_LOCATION ∧ lu.isPs = !lu.req.gsup.isCs) :
    Done (luOnenter cfg s lu) := by
  unfold luOnenter
  split
  · exact (h.respondErr cfg _).done
  · rename_i m hm
    dsimp only
    have ht : m.typ = INSERT_DATA := by
      unfold isdMsg at hm
      obtain ⟨x, -, rfl⟩ := Option.map_eq_some_iff.1 hm
      rfl
    have h1 := h.respond0 cfg (q := lu.req) (by simp) m false (.inl ⟨hl.1, by
      rw [← ht]; simp [makeResponse, fillResponse, ht]⟩)
    split
    · exact (h1.respondErr cfg _).done
    · apply Inv.done
      refine h1.move (P' := []) (lu :: (respond cfg s lu.req m false false).2.lus)
        (respond cfg s lu.req m false false).2.sess ?_ h1.keys ?_ ?_
      · exact List.Perm.refl _
      · intro l hl'
        rcases List.mem_cons.1 hl' with rfl | hl'
        · exact hl
        · exact h1.lus l hl'
      · exact h1.sessReq

theorem done_rxUpdLoc {s : Sys} (cfg : Cfg) (e : Env) {k : Conn} (hk : k.name.WF) {q : Req}
    (h : Inv [q] s) (ht : q.gsup.typ = UPDATE_LOCATION) :
    Done (rxUpdLocReq cfg e k q s) := by
  unfold rxUpdLocReq
  dsimp only
  apply (h.setConn (k := if q.gsup.isCs then { k with supportsCs := true }
                       else { k with supportsPs := true }) (by split <;> exact hk)).withDb
  intro a d _
  have h := (h.setConn (k := if q.gsup.isCs then { k with supportsCs := true }
                       else { k with supportsPs := true }) (by split <;> exact hk)).setDb d
  dsimp only
  split
  · exact (h.respondErr cfg _).done
  · exact done_luOnenter cfg _ h ⟨ht, rfl⟩
  · exact h.ub

/-- Taking a location update out of the list. -/
theorem Inv.luOut {P : List Req} {s : Sys} (h : Inv P s) {lu : Lu} (hl : lu ∈ s.lus) :
    Inv (lu.req :: P) { s with lus := s.lus.erase lu, sess := s.sess } := by
  refine h.move _ _ ?_ h.keys (fun l hl' => h.lus l (List.mem_of_mem_erase hl'))
    h.sessReq
  have p : (s.lus.map (·.req)).Perm ((lu :: s.lus.erase lu).map (·.req)) :=
    (List.perm_cons_erase hl).map _
  simp only [List.cons_append, List.map_cons] at p ⊢
  calc (lu.req :: (P ++ ((s.lus.erase lu).map (·.req) ++ s.sess.flatMap Sess.reqs)))
      |>.Perm (P ++ (lu.req :: ((s.lus.erase lu).map (·.req) ++ s.sess.flatMap Sess.reqs))) :=
        List.perm_middle.symm
    _ |>.Perm _ := by
        apply List.Perm.append_left
        rw [← List.cons_append]
        exact List.Perm.append_right _ p.symm

theorem done_luRx {s : Sys} (cfg : Cfg) {q : Req} (h : Inv [q] s) : Done (luRxGsup cfg q s) := by
  have nn : ∀ t, q.gsup.typ = t → t % 4 ≠ 0 → HowOk q.gsup.typ .dropped := by
    rintro t rfl ht (e | e | e | e | e | e | e) <;> rw [e] at ht <;> exact absurd ht (by decide)
  unfold luRxGsup
  split
  · exact (h.respondErr cfg _).done
  · rename_i lu hf
    have hl : lu ∈ s.lus := List.mem_of_find?_eq_some hf
    have h1 := h.luOut hl
    split
    · dsimp only
      rw [respondMsgt_drop]
      have hp : Inv (q :: [lu.req]) { s with lus := s.lus.erase lu, sess := s.sess } := by
        have := h1.move (P' := [q, lu.req]) (s.lus.erase lu) s.sess (by
          exact (List.Perm.swap ..).append_right _) h1.keys h1.lus h1.sessReq
        exact this
      exact ((hp.concl .dropped (nn _ (by assumption) (by simp))).respondMsgt cfg _).done
    · split
      · dsimp only
        rw [respondErr_drop]
        exact ((h1.respondErr cfg _).concl _ (nn _ (by assumption) (by simp))).done
      · exact (h.respondErr cfg _).done

theorem done_luTimeout {s : Sys} (cfg : Cfg) (nr : Nat) (h : Inv [] s) :
    Done (luTimeout cfg nr s) := by
  unfold luTimeout
  split
  · exact h.done
  · rename_i lu hf
    have hl : lu ∈ s.lus := List.mem_of_find?_eq_some hf
    have h1 := h.luOut hl
    dsimp only
    rw [respondErr_drop]
    exact (h1.respondErr cfg _).done

theorem done_moSms {s : Sys} (cfg : Cfg) {q : Req} (h : Inv [q] s) : Done (forwardMoSms cfg q s) := by
  unfold forwardMoSms
  dsimp only
  split
  · exact (h.respondErr cfg _).done
  · split
    · exact (h.respondErr cfg _).done
    · split
      · exact (h.respond1 cfg _ _).done
      · split
        · exact (h.respond1 cfg _ _).done
        · split
          · exact (h.forwardToLocalPeer cfg _).done
          · exact h.ub

theorem done_mtSms {s : Sys} (cfg : Cfg) (e : Env) {q : Req} (h : Inv [q] s) :
    Done (forwardMtSms cfg e q s) := by
  unfold forwardMtSms
  apply h.withDb
  intro a d _
  have h := h.setDb d
  split
  · exact (h.respondErr cfg _).done
  · split
    · exact (h.respondErr cfg _).done
    · exact (h.forwardToLocalPeer cfg _).done

theorem Inv.copies {P : List Req} (cfg : Cfg) (q : Req) (l : List Ent) {s : Sys} (h : Inv P s) :
    Inv P (l.foldl (copyToSmsc cfg q) s) := by
  induction l generalizing s with
  | nil => exact h
  | cons a l ih => exact ih (h.encSendToIpa cfg _ _)

theorem done_readyForSm {s : Sys} (cfg : Cfg) {q : Req} (h : Inv [q] s) :
    Done (rxReadyForSm cfg q s) := ((h.copies cfg q _).respondMsgt cfg _).done

/-! ## USSD -/

/-- The same session with other state. -/
structure SameSess (x y : Sess) : Prop where
  key : y.key = x.key
  ms : y.reqMs = x.reqMs
  euse : y.reqEuse = x.reqEuse

theorem SameSess.refl (x : Sess) : SameSess x x := ⟨rfl, rfl, rfl⟩
theorem SameSess.trans {x y z : Sess} (h : SameSess x y) (h' : SameSess y z) : SameSess x z :=
  ⟨h'.key.trans h.key, h'.ms.trans h.ms, h'.euse.trans h.euse⟩

theorem rearm_same (cfg : Cfg) (x : Sess) : SameSess x (rearm cfg x) := by
  unfold rearm
  split
  · exact ⟨rfl, rfl, rfl⟩
  · exact .refl x

theorem keyEq {x y : Sess} : (y.imsi == x.imsi && y.id == x.id) = true ↔ y.key = x.key := by
  simp [Sess.key, Prod.ext_iff]

theorem uniqueSess {l : List Sess} (hk : (l.map Sess.key).Nodup) {x y : Sess} (hx : x ∈ l)
    (hy : y ∈ l) (e : x.key = y.key) : x = y := by
  induction l with
  | nil => cases hx
  | cons a l ih =>
    simp only [List.map_cons, List.nodup_cons] at hk
    rcases List.mem_cons.1 hx with hx1 | hx1
    · rcases List.mem_cons.1 hy with hy1 | hy1
      · rw [hx1, hy1]
      · exact absurd (List.mem_map.2 ⟨y, hy1, by rw [← e, hx1]⟩) hk.1
    · rcases List.mem_cons.1 hy with hy1 | hy1
      · exact absurd (List.mem_map.2 ⟨x, hx1, by rw [e, hy1]⟩) hk.1
      · exact ih hk.2 hx1 hy1

theorem Inv.ssSet {P : List Req} {s : Sys} (h : Inv P s) {x y : Sess} (hx : x ∈ s.sess)
    (e : SameSess x y) : Inv P (ssSet s y) ∧ y ∈ (ssSet s y).sess := by
  have hm : ∀ z ∈ s.sess, (z.imsi == y.imsi && z.id == y.id) = true → z = x := by
    intro z hz c
    exact uniqueSess h.keys hz hx ((keyEq.1 c).trans e.key)
  constructor
  · refine h.move s.lus (s.sess.map _) ?_ ?_ h.lus ?_
    · have : (s.sess.map (fun z => if z.imsi == y.imsi && z.id == y.id then y else z)).flatMap Sess.reqs
          = s.sess.flatMap Sess.reqs := by
        rw [List.flatMap_map]
        simp only [List.flatMap]
        congr 1
        apply List.map_congr_left
        intro z hz
        split
        · rename_i c
          rw [hm z hz c]
          simp [Sess.reqs, e.ms, e.euse]
        · rfl
      rw [this]
    · rw [List.map_map]
      have : s.sess.map (Sess.key ∘ fun z => if z.imsi == y.imsi && z.id == y.id then y else z)
          = s.sess.map Sess.key := by
        apply List.map_congr_left
        intro z _
        simp only [Function.comp]
        split
        · rename_i c; exact (keyEq.1 c).symm
        · rfl
      rw [this]
      exact h.keys
    · intro z hz
      obtain ⟨w, hw, ew⟩ := List.mem_map.1 hz
      split at ew
      · subst ew
        have := h.sessReq x hx
        have hk := e.key
        simp only [Sess.key, Prod.mk.injEq] at hk
        intro q hq
        rw [hk.1, hk.2]
        exact this q (by simpa [Sess.reqs, e.ms, e.euse] using hq)
      · subst ew; exact h.sessReq _ hw
  · refine List.mem_map.2 ⟨x, hx, ?_⟩
    rw [if_pos (keyEq.2 e.key.symm)]

theorem ssFree_eq (s : Sys) (x : Sess) :
    ssFree s x = freeOpt (freeOpt { s with
      sess := s.sess.filter (fun y => !(y.imsi == x.imsi && y.id == x.id)) } x.reqMs) x.reqEuse := by
  unfold ssFree
  cases x.reqMs <;> cases x.reqEuse <;> rfl

theorem filterOut {l : List Sess} (hk : (l.map Sess.key).Nodup) {x : Sess} (hx : x ∈ l) :
    l.Perm (x :: l.filter (fun y => !(y.imsi == x.imsi && y.id == x.id))) := by
  induction l with
  | nil => cases hx
  | cons a l ih =>
    simp only [List.map_cons, List.nodup_cons] at hk
    by_cases c : (a.imsi == x.imsi && a.id == x.id) = true
    · have ha : a = x := uniqueSess (l := a :: l) (by simpa using hk) (by simp) hx (keyEq.1 c)
      subst ha
      have : l.filter (fun y => !(y.imsi == a.imsi && y.id == a.id)) = l := by
        rw [List.filter_eq_self]
        intro y hy
        have : ¬ (y.imsi == a.imsi && y.id == a.id) = true := fun c' =>
          hk.1 (List.mem_map.2 ⟨y, hy, keyEq.1 c'⟩)
        simp only [Bool.not_eq_true] at this
        rw [this]; rfl
      rw [List.filter_cons_of_neg (by simp), this]
    · have hx' : x ∈ l := by
        rcases List.mem_cons.1 hx with rfl | hx
        · exact absurd (keyEq.2 rfl) c
        · exact hx
      rw [List.filter_cons_of_pos (by simp only [Bool.not_eq_true] at c; rw [c]; rfl)]
      exact ((ih hk.2 hx').cons a).trans (List.Perm.swap ..)

theorem Inv.ssFree {P : List Req} {s : Sys} (h : Inv P s) {x : Sess} (hx : x ∈ s.sess) :
    Inv P (ssFree s x) := by
  rw [ssFree_eq]
  have p := filterOut h.keys hx
  have hk : ((s.sess.filter (fun y => !(y.imsi == x.imsi && y.id == x.id))).map Sess.key).Nodup :=
    h.keys.sublist ((List.filter_sublist).map _)
  have h1 := h.move (P' := x.reqs ++ P) s.lus
    (s.sess.filter (fun y => !(y.imsi == x.imsi && y.id == x.id))) (by
      have p2 : (s.sess.flatMap Sess.reqs).Perm (x.reqs ++
          (s.sess.filter (fun y => !(y.imsi == x.imsi && y.id == x.id))).flatMap Sess.reqs) := by
        have := p.flatMap_right Sess.reqs
        simpa using this
      have := p2.symm
      simp only [List.append_assoc]
      refine (List.perm_append_comm_assoc ..).trans (List.Perm.append_left _ ?_)
      exact (List.perm_append_comm_assoc ..).trans (List.Perm.append_left _ this)) hk h.lus
    (fun z hz => h.sessReq z (List.mem_filter.1 hz).1)
  have ok : ∀ q ∈ x.reqs, HowOk q.gsup.typ .session := fun q hq => (h.sessReq x hx q hq).1
  cases hm : x.reqMs <;> cases he : x.reqEuse <;> simp only [Sess.reqs, hm, he, Option.toList,
    List.nil_append, List.cons_append] at h1 ok
  · exact h1
  · exact h1.concl _ (ok _ (by simp))
  · exact h1.concl _ (ok _ (by simp))
  · exact (h1.concl _ (ok _ (by simp))).concl _ (ok _ (by simp))

theorem ssFree_none (s : Sys) (x : Sess) : ssFind (ssFree s x) x.imsi x.id = none := by
  rw [ssFree_eq]
  have : ∀ (t : Sys) (o : Option Req), (freeOpt t o).sess = t.sess := by
    intro t o; cases o <;> rfl
  simp only [ssFind, this, List.find?_eq_none, List.mem_filter]
  rintro y ⟨_, h⟩ c
  rw [c] at h; cases h

theorem ssFind_some {s : Sys} {imsi : Bytes} {id : Nat} {x : Sess} (h : ssFind s imsi id = some x) :
    x ∈ s.sess ∧ x.imsi = imsi ∧ x.id = id := by
  have h2 : (x.imsi == imsi && x.id == id) = true := by
    have := List.find?_some h; exact this
  simp only [Bool.and_eq_true, beq_iff_eq] at h2
  exact ⟨List.mem_of_find?_eq_some h, h2.1, h2.2⟩

/-- What the rest of a handler must do with a session that is still there. -/
def Cont (P : List Req) (x : Sess) (k : Sess → Sys → Sys) : Prop :=
  ∀ y s, SameSess x y → Inv P s → y ∈ s.sess → Done (k y s)

theorem Cont.same {P : List Req} {x y : Sess} {k : Sess → Sys → Sys} (h : Cont P x k)
    (e : SameSess x y) : Cont P y k := fun z s e' hi hz => h z s (e.trans e') hi hz

theorem mem_waiting_ms {s : Sys} {x : Sess} (hx : x ∈ s.sess) {q : Req} (hq : x.reqMs = some q)
    (P : List Req) : q ∈ P ++ waiting s := by
  apply List.mem_append_right
  apply List.mem_append_left
  apply List.mem_append_right
  exact List.mem_flatMap.2 ⟨x, hx, by simp [Sess.reqs, hq]⟩

theorem done_sendToMs {P : List Req} {s : Sys} (cfg : Cfg) (e : Env) {x : Sess} (m : Msg)
    {k : Sess → Sys → Sys} (h : Inv P s) (hx : x ∈ s.sess) (hk : Cont P x k) :
    Done (ssSendToMs cfg e s x m k) := by
  unfold ssSendToMs
  split
  · rename_i q hq
    refine hk _ _ (SameSess.refl x) (h.respond0 cfg (mem_waiting_ms hx hq P) m false (.inr ?_)) ?_
    · exact (h.sessReq x hx q (by simp [Sess.reqs, hq])).1
    rw [respond_frame]; exact hx
  · split
    · exact hk _ _ (SameSess.refl x) h hx
    · split
      · apply h.withDb
        intro a d _
        have h := h.setDb d
        dsimp only
        split
        · exact hk _ _ (SameSess.refl x) h hx
        · rename_i row _
          have e1 : SameSess x { x with vlr := (ipaSetStr x.vlr (HlrSubscr.ofRow row).vlrNumber).2 } :=
            ⟨rfl, rfl, rfl⟩
          obtain ⟨h2, hy⟩ := h.ssSet hx e1
          refine hk _ _ e1 ?_ ?_
          · unfold sendToVlr
            split
            · exact h2
            · exact h2.sendToIpa _ _
          · unfold sendToVlr
            split
            · exact hy
            · unfold sendToIpa addrSend
              split
              · split <;> exact hy
              · split
                · split
                  · exact hy
                  · split <;> exact hy
                · split <;> exact hy
      · refine hk _ _ (SameSess.refl x) ?_ ?_
        · unfold sendToVlr
          split
          · exact h
          · exact h.sendToIpa _ _
        · unfold sendToVlr
          split
          · exact hx
          · unfold sendToIpa addrSend
            split
            · split <;> exact hx
            · split
              · split
                · exact hx
                · split <;> exact hx
              · split <;> exact hx

theorem done_txToMs {P : List Req} {s : Sys} (cfg : Cfg) (e : Env) {x : Sess} (info : Bytes)
    {k : Sess → Sys → Sys} (h : Inv P s) (hx : x ∈ s.sess) (hk : Cont P x k) :
    Done (ssTxToMs cfg e s x info k) := done_sendToMs cfg e _ h hx hk

theorem done_txErr {P : List Req} {s : Sys} (cfg : Cfg) (e : Env) {x : Sess} (inv code : Nat)
    {k : Sess → Sys → Sys} (h : Inv P s) (hx : x ∈ s.sess) (hk : Cont P x k) :
    Done (ssTxErr cfg e s x inv code k) := by
  unfold ssTxErr
  have e1 : SameSess x { x with state := .end_ } := ⟨rfl, rfl, rfl⟩
  obtain ⟨h2, hy⟩ := h.ssSet hx e1
  exact done_txToMs cfg e _ h2 hy (hk.same e1)

theorem done_iuse {P : List Req} {s : Sys} (cfg : Cfg) (e : Env) {x : Sess} (r : SsReq) (i : Iuse)
    {k : Sess → Sys → Sys} (h : Inv P s) (hx : x ∈ s.sess) (hk : Cont P x k) :
    Done (iuseHandle cfg e s x r i k) := by
  have e1 : SameSess x { x with state := .end_ } := ⟨rfl, rfl, rfl⟩
  have e2 : SameSess x { x with state := .continue_ } := ⟨rfl, rfl, rfl⟩
  obtain ⟨h2, hy⟩ := h.ssSet hx e1
  unfold iuseHandle
  split
  · dsimp only
    apply h2.withDb
    intro a d _
    have h2 := h2.setDb d
    split
    · exact done_txToMs cfg _ _ h2 hy (hk.same e1)
    · exact done_txErr cfg _ _ _ h2 hy (hk.same e1)
  · exact done_txToMs cfg _ _ h2 hy (hk.same e1)
  · obtain ⟨h3, hz⟩ := h.ssSet hx e2
    exact done_txToMs cfg _ _ h3 hz (hk.same e2)

theorem done_handleSsAny {P : List Req} {s : Sys} (cfg : Cfg) (e : Env) {x : Sess} (eo : Bool)
    (m : Msg) (r : SsReq) {k : Sess → Sys → Sys} (h : Inv P s) (hx : x ∈ s.sess) (hk : Cont P x k)
    (hf : ∀ y s, SameSess x y → Inv P s → ssFind s y.imsi y.id = none → Done (k y s)) :
    Done (handleSsAny cfg e s x eo m r k) := by
  unfold handleSsAny
  split
  · unfold handleUssd
    split
    · exact done_txErr cfg _ _ _ h hx hk
    · split
      · exact done_sendToMs cfg _ _ h hx hk
      · split
        · split
          · exact done_txErr cfg _ _ _ h hx hk
          · exact hk _ _ (SameSess.refl x) (h.tx _ _) hx
        · exact h.ub
    · split
      · exact done_sendToMs cfg _ _ h hx hk
      · apply done_iuse cfg _ _ _ h hx
        intro y t ey ht hy
        dsimp only
        split
        · exact hf _ _ ey (ht.ssFree hy) (ssFree_none t y)
        · exact hk _ _ ey ht hy
  · exact done_txErr cfg _ _ _ h hx hk

theorem ssNew_key (cfg : Cfg) (q : Req) (r : SsReq) :
    (ssNew cfg q r).imsi = q.gsup.imsi ∧ (ssNew cfg q r).id = q.gsup.sessId
      ∧ (ssNew cfg q r).reqs = [q] := by
  unfold ssNew
  dsimp only
  by_cases h1 : opIsUssd r.opcode = true
  · by_cases h2 : nameIsEuse q.source = true
    · rw [if_pos h1, if_pos h2]
      cases euseByName cfg q.source <;> simp [h2, Sess.reqs]
    · rw [if_pos h1, if_neg h2]
      cases ussdLookup cfg r with
      | none => cases cfg.euseDefault <;> simp [h2, Sess.reqs]
      | some rt =>
        obtain ⟨p, to⟩ := rt
        cases to <;> simp [h2, Sess.reqs]
  · by_cases h2 : nameIsEuse q.source = true
    · simp [h1, h2, Sess.reqs]
    · simp [h1, h2, Sess.reqs]

theorem done_rxProcSs {s : Sys} (cfg : Cfg) (e : Env) {q : Req} (h : Inv [q] s)
    (hq : IsSs q.gsup.typ) : Done (rxProcSs cfg e q s) := by
  have nn : HowOk q.gsup.typ .dropped := by
    rcases hq with e1 | e1 <;> rw [e1] <;> simp only [HowOk, NeedsAnswer] <;> decide
  unfold rxProcSs
  dsimp only
  split
  · exact (h.respondErr cfg _).done
  · split
    · exact (h.respondErr cfg _).done
    · rename_i r _
      split
      · split
        · exact (h.respondErr cfg _).done
        · rename_i hn
          obtain ⟨k1, k2, k3⟩ := ssNew_key cfg q r
          have hnk : (ssNew cfg q r).key ∉ s.sess.map Sess.key := by
            intro hc
            obtain ⟨y, hy, ey⟩ := List.mem_map.1 hc
            have := List.find?_eq_none.1 hn y hy
            simp only [Sess.key, Prod.mk.injEq] at ey
            simp [ey.1, ey.2, k1, k2] at this
          have h1 : Inv [] { s with lus := s.lus, sess := (s.sess ++ [ssNew cfg q r]) } := by
            refine h.move (P' := []) s.lus (s.sess ++ [ssNew cfg q r]) ?_ ?_ h.lus ?_
            · simp only [List.flatMap_append, List.flatMap_cons, List.flatMap_nil, k3,
                List.append_nil, List.nil_append]
              rw [← List.append_assoc]
              exact List.perm_append_comm
            · rw [List.map_append, List.nodup_append]
              refine ⟨h.keys, by simp, ?_⟩
              intro a ha b hb
              simp only [List.map_cons, List.map_nil, List.mem_singleton] at hb
              subst hb
              exact fun e => hnk (e ▸ ha)
            · intro y hy
              rcases List.mem_append.1 hy with hy | hy
              · exact h.sessReq y hy
              · simp only [List.mem_singleton] at hy
                subst hy
                intro q' hq'
                rw [k3, List.mem_singleton] at hq'
                subst hq'
                exact ⟨hq, k1.symm, k2.symm⟩
          exact done_handleSsAny cfg e _ _ _ h1 (by simp)
            (fun y t _ ht _ => ht.done) (fun y t _ ht _ => ht.done)
      · split
        · exact (h.respondErr cfg _).done
        · rename_i x hx
          obtain ⟨hx, -, -⟩ := ssFind_some hx
          obtain ⟨h1, hx1⟩ := h.ssSet hx (rearm_same cfg x)
          exact done_handleSsAny cfg e _ _ _ h1 hx1
            (fun y t _ ht _ => (ht.concl _ nn).done) (fun y t _ ht _ => (ht.concl _ nn).done)
      · split
        · exact (h.respondErr cfg _).done
        · rename_i x hx
          obtain ⟨hx, ei, ed⟩ := ssFind_some hx
          split
          · exact ((h.ssFree hx).concl _ nn).done
          · refine done_handleSsAny cfg e _ _ _ h hx ?_ ?_
            · intro y t ey ht hy
              dsimp only
              split
              · exact ht.ub
              · exact ((ht.ssFree hy).concl _ nn).done
            · intro y t ey ht hn
              have ek := ey.key
              simp only [Sess.key, Prod.mk.injEq] at ek
              rw [ek.1, ek.2, ei, ed] at hn
              rw [hn]
              exact ht.ub
      · exact (h.concl _ nn).done

theorem done_ssTimeout {s : Sys} (imsi : Bytes) (id : Nat) (h : Inv [] s) :
    Done (ssTimeout imsi id s) := by
  unfold ssTimeout
  split
  · exact h.done
  · rename_i x hx
    split
    · exact (h.ssFree (ssFind_some hx).1).done
    · exact h.done

end Verif.Sys
