import Verif.Sys.Props2
/-!
# What a message does to the USSD sessions
-/
namespace Verif.Sys
open Verif Verif.Db Verif.Gsup Verif.Hlr

/-- What may be logged while a message of session `K` is handled: messages carry the IMSI
and session id of `K`, and only the requests `nrs` are responded to or concluded. -/
def OutOk (K : Bytes × Nat) (nrs : List Nat) : Out → Prop
  | .tx _ m re => m.imsi = K.1 ∧ m.sessId = K.2 ∧ ∀ nr, re = some nr → nr ∈ nrs
  | .concl nr _ => nr ∈ nrs
  | .restart => True
  | .rx _ _ _ => False
  | .connected _ => False
  | .closed _ => False
  | .remote _ _ _ => False
  | .remoteRx _ _ => False

/-- The same session, in another state or with the name of the MS's node filled in: the
node that handles it and the requests are the same. -/
def Core (x y : Sess) : Prop := ∃ st v, y = { x with state := st, vlr := v }

theorem Core.refl (x : Sess) : Core x x := ⟨x.state, x.vlr, rfl⟩
theorem Core.trans {x y z : Sess} (h : Core x y) (h' : Core y z) : Core x z := by
  obtain ⟨a, b, rfl⟩ := h; obtain ⟨c, d, rfl⟩ := h'; exact ⟨c, d, rfl⟩
theorem Core.key {x y : Sess} (h : Core x y) : y.key = x.key := by obtain ⟨a, b, rfl⟩ := h; rfl
theorem Core.reqs {x y : Sess} (h : Core x y) : y.reqs = x.reqs := by obtain ⟨a, b, rfl⟩ := h; rfl
theorem Core.u {x y : Sess} (h : Core x y) : y.u = x.u := by obtain ⟨a, b, rfl⟩ := h; rfl
theorem Core.ext {x y : Sess} (h : Core x y) : y.isExternal = x.isExternal := by obtain ⟨a, b, rfl⟩ := h; rfl
theorem Core.reqMs {x y : Sess} (h : Core x y) : y.reqMs = x.reqMs := by obtain ⟨a, b, rfl⟩ := h; rfl

/-- From `s` to `t` only session `K` is touched; if there is one in `t` it was there or it
is `x0` but for its state. -/
def SessFr (K : Bytes × Nat) (nrs : List Nat) (x0 : Option Sess) (s t : Sys) : Prop :=
  ∃ lg, t.log = lg ++ s.log ∧ (∀ o ∈ lg, OutOk K nrs o)
    ∧ (.restart ∈ lg ∨ t.sess.filter (·.key != K) = s.sess.filter (·.key != K))
    ∧ ∀ x ∈ t.sess, x ∈ s.sess ∨ ∃ y, x0 = some y ∧ Core y x

section
variable {K : Bytes × Nat} {nrs : List Nat} {x0 : Option Sess}

theorem SessFr.same {s t : Sys} {lg : List Out} (h : t.log = lg ++ s.log) (ho : ∀ o ∈ lg, OutOk K nrs o)
    (hs : t.sess = s.sess) : SessFr K nrs x0 s t :=
  ⟨lg, h, ho, .inr (by rw [hs]), fun x hx => .inl (by rw [← hs]; exact hx)⟩

theorem SessFr.refl (s : Sys) : SessFr K nrs x0 s s := .same (lg := []) rfl (fun _ h => by cases h) rfl

theorem SessFr.trans {s t u : Sys} (h : SessFr K nrs x0 s t) (h' : SessFr K nrs x0 t u) : SessFr K nrs x0 s u := by
  obtain ⟨l1, e1, o1, f1, w1⟩ := h
  obtain ⟨l2, e2, o2, f2, w2⟩ := h'
  refine ⟨l2 ++ l1, by rw [e2, e1]; simp, ?_, ?_, ?_⟩
  · intro o ho
    rcases List.mem_append.1 ho with h | h
    · exact o2 o h
    · exact o1 o h
  · rcases f2 with f2 | f2
    · exact .inl (List.mem_append_left _ f2)
    · rcases f1 with f1 | f1
      · exact .inl (List.mem_append_right _ f1)
      · exact .inr (f2.trans f1)
  · intro x hx
    rcases w2 x hx with h | h
    · exact w1 x h
    · exact .inr h

theorem SessFr.emit (s : Sys) {o : Out} (h : OutOk K nrs o) : SessFr K nrs x0 s (s.emit o) :=
  .same (lg := [o]) rfl (fun x hx => by rw [List.mem_singleton.1 hx]; exact h) rfl

theorem SessFr.crash (s : Sys) : SessFr K nrs x0 s s.crash :=
  ⟨[.restart], rfl, fun o ho => by rw [List.mem_singleton.1 ho]; trivial, .inl (by simp),
    fun x hx => by cases hx⟩

theorem SessFr.ub (s : Sys) : SessFr K nrs x0 s { s with ub := true } :=
  .same (lg := []) rfl (fun _ h => by cases h) rfl

theorem SessFr.db (s : Sys) (d : Db) : SessFr K nrs x0 s { s with db := d } :=
  .same (lg := []) rfl (fun _ h => by cases h) rfl

theorem SessFr.withDb {s0 s : Sys} {α : Type} {m : DbM α} {sc : Script} {k : α → Sys → Sys}
    (h : SessFr K nrs x0 s0 s)
    (hk : ∀ a d, SessFr K nrs x0 s0 { s with db := d } → SessFr K nrs x0 s0 (k a { s with db := d })) :
    SessFr K nrs x0 s0 (withDb s sc m k) := by
  unfold Verif.Sys.withDb
  split
  · exact h.trans ((SessFr.db s _).trans (.crash _))
  · exact hk _ _ (h.trans (.db s _))

theorem SessFr.respond (cfg : Cfg) (s : Sys) {q : Req} (hn : q.nr ∈ nrs) (hi : q.gsup.imsi = K.1)
    (hs : q.gsup.sessId = K.2) (reply : Msg) (error final : Bool) :
    SessFr K nrs x0 s (Sys.respond cfg s q reply error final).2 := by
  refine .same (Props.c22_response_sent cfg s q reply error final) ?_ (by rw [respond_frame])
  intro o ho
  rcases List.mem_append.1 ho with ho | ho
  · split at ho
    · rw [List.mem_singleton.1 ho]; exact hn
    · cases ho
  · split at ho
    · split at ho
      · rename_i hrc
        rw [List.mem_singleton.1 ho]
        obtain ⟨h0, -⟩ := hrc
        have hr : responseRc (makeResponse reply q.gsup error final).2 q.gsup = 0 := h0
        unfold responseRc at hr
        have h1 : (makeResponse reply q.gsup error final).2.imsi = q.gsup.imsi := by
          by_cases hc : (makeResponse reply q.gsup error final).2.imsi = q.gsup.imsi
          · exact hc
          · rw [if_pos hc] at hr; omega
        have h2 : (makeResponse reply q.gsup error final).2.sessId = q.gsup.sessId := by
          by_cases hc : (makeResponse reply q.gsup error final).2.sessId = q.gsup.sessId
          · exact hc
          · rw [if_pos hc] at hr; omega
        exact ⟨h1.trans hi, h2.trans hs, fun nr e => by cases e; exact hn⟩
      · cases ho
    · cases ho

theorem SessFr.reqFree (s : Sys) {q : Req} (hn : q.nr ∈ nrs) (how : How) :
    SessFr K nrs x0 s (Sys.reqFree s q how) := .emit s hn

theorem SessFr.respondErr (cfg : Cfg) (s : Sys) {q : Req} (hn : q.nr ∈ nrs) (hi : q.gsup.imsi = K.1)
    (hs : q.gsup.sessId = K.2) (c : Cause) : SessFr K nrs x0 s (Sys.respondErr cfg s q c) := by
  unfold Sys.respondErr
  split
  · exact .reqFree s hn _
  · exact .respond cfg s hn hi hs _ _ _

theorem SessFr.sendToIpa (s : Sys) (n : IpaName) {m : Msg} (hi : m.imsi = K.1) (hs : m.sessId = K.2) :
    SessFr K nrs x0 s (Sys.sendToIpa s n m).2 := by
  have h1 : ∀ a, SessFr K nrs x0 s (addrSend s a m).2 := by
    intro a
    unfold addrSend
    split
    · exact .refl s
    · exact .emit s ⟨hi, hs, fun nr e => by cases e⟩
  unfold Sys.sendToIpa
  split
  · exact h1 _
  · split
    · split
      · exact .refl s
      · exact h1 _
    · exact h1 _

theorem SessFr.set (s : Sys) {y x : Sess} (hy : x0 = some y) (hk : y.key = K) (hx : Core y x) :
    SessFr K nrs x0 s (ssSet s x) := by
  have hxk : x.key = K := hx.key.trans hk
  refine ⟨[], rfl, fun _ h => (by cases h), .inr ?_, ?_⟩
  · unfold ssSet
    dsimp only
    generalize s.sess = l
    induction l with
    | nil => rfl
    | cons a l ih =>
      simp only [List.map_cons, List.filter_cons]
      by_cases c : (a.imsi == x.imsi && a.id == x.id) = true
      · have ha : a.key = K := (keyEq.1 c).trans hxk
        rw [if_pos c, if_neg (by simp [hxk]), if_neg (by simp [ha])]
        exact ih
      · rw [if_neg c]
        split
        · rw [ih]
        · exact ih
  · intro z hz
    obtain ⟨w, hw, e⟩ := List.mem_map.1 hz
    split at e
    · subst e; exact .inr ⟨y, hy, hx⟩
    · subst e; exact .inl hw

theorem SessFr.ssFree (s : Sys) {x : Sess} (hk : x.key = K) (hn : ∀ q ∈ x.reqs, q.nr ∈ nrs) :
    SessFr K nrs x0 s (Sys.ssFree s x) := by
  rw [ssFree_eq]
  have h1 : SessFr K nrs x0 s { s with sess := s.sess.filter (fun y => !(y.imsi == x.imsi && y.id == x.id)) } := by
    refine ⟨[], rfl, fun _ h => (by cases h), .inr ?_, ?_⟩
    · dsimp only
      rw [List.filter_filter]
      apply List.filter_congr
      intro z _
      by_cases c : (z.imsi == x.imsi && z.id == x.id) = true
      · have h2 := (keyEq.1 c).trans hk
        rw [c]
        simp [h2]
      · have : ¬ z.key = K := fun e => c (keyEq.2 (e.trans hk.symm))
        simp only [Bool.not_eq_true] at c
        rw [c]
        simp [this]
    · intro z hz
      exact .inl (List.mem_filter.1 hz).1
  have fo : ∀ (t : Sys) (o : Option Req), (∀ q, o = some q → q.nr ∈ nrs) → SessFr K nrs x0 t (freeOpt t o) := by
    intro t o ho
    cases o with
    | none => exact .refl t
    | some q => exact .reqFree t (ho q rfl) _
  exact h1.trans ((fo _ _ (fun q h => hn q (by simp [Sess.reqs, h]))).trans
    (fo _ _ (fun q h => hn q (by simp [Sess.reqs, h]))))

/-- What the rest of a handler must do. -/
def KS (K : Bytes × Nat) (nrs : List Nat) (s0 : Sys) (y : Sess) (k : Sess → Sys → Sys) : Prop :=
  ∀ x t, Core y x → SessFr K nrs (some y) s0 t → SessFr K nrs (some y) s0 (k x t)

/-- The session a message is handled in. -/
structure Own (K : Bytes × Nat) (nrs : List Nat) (y : Sess) : Prop where
  key : y.key = K
  nr : ∀ q ∈ y.reqs, q.nr ∈ nrs
  req : SessReqOk y

variable {y : Sess}

theorem fr_sendToMs (cfg : Cfg) (e : Env) {s0 s : Sys} (ho : Own K nrs y) {x : Sess} (hx : Core y x) {m : Msg}
    (hi : m.imsi = K.1) (hs : m.sessId = K.2) {k : Sess → Sys → Sys} (h : SessFr K nrs (some y) s0 s)
    (hk : KS K nrs s0 y k) : SessFr K nrs (some y) s0 (ssSendToMs cfg e s x m k) := by
  unfold ssSendToMs
  split
  · rename_i q hq
    have hq' : q ∈ y.reqs := by rw [← hx.reqs]; simp [Sess.reqs, hq]
    obtain ⟨-, h1, h2⟩ := ho.req q hq'
    have hkey := ho.key
    refine hk _ _ hx (h.trans (.respond cfg s (ho.nr q hq') ?_ ?_ _ _ _))
    · rw [h1, ← hkey]; rfl
    · rw [h2, ← hkey]; rfl
  · split
    · exact hk _ _ hx h
    · have hsv : ∀ (t : Sys) n, SessFr K nrs (some y) t (sendToVlr t n m) := by
        intro t n
        unfold sendToVlr
        split
        · exact .refl t
        · exact .sendToIpa t n hi hs
      split
      · apply h.withDb
        intro a d h
        split
        · exact hk _ _ hx h
        · have e1 : ∀ v, Core y { x with vlr := v } := fun v => hx.trans ⟨x.state, v, rfl⟩
          exact hk _ _ (e1 _) (h.trans ((SessFr.set _ rfl ho.key (e1 _)).trans (hsv _ _)))
      · exact hk _ _ hx (h.trans (hsv _ _))

theorem fr_txToMs (cfg : Cfg) (e : Env) {s0 s : Sys} (ho : Own K nrs y) {x : Sess} (hx : Core y x) (info : Bytes)
    {k : Sess → Sys → Sys} (h : SessFr K nrs (some y) s0 s)
    (hk : KS K nrs s0 y k) : SessFr K nrs (some y) s0 (ssTxToMs cfg e s x info k) := by
  have hkey : x.key = K := hx.key.trans ho.key
  exact fr_sendToMs cfg e ho hx (by rw [← hkey]; rfl) (by rw [← hkey]; rfl) h hk

theorem fr_txErr (cfg : Cfg) (e : Env) {s0 s : Sys} (ho : Own K nrs y) {x : Sess} (hx : Core y x) (i c : Nat)
    {k : Sess → Sys → Sys} (h : SessFr K nrs (some y) s0 s)
    (hk : KS K nrs s0 y k) : SessFr K nrs (some y) s0 (ssTxErr cfg e s x i c k) := by
  have e1 : Core y { x with state := .end_ } := hx.trans ⟨.end_, x.vlr, rfl⟩
  exact fr_txToMs cfg e ho e1 _ (h.trans (.set _ rfl ho.key e1)) hk

theorem fr_iuse (cfg : Cfg) (e : Env) {s0 s : Sys} (ho : Own K nrs y) {x : Sess} (hx : Core y x) (r : SsReq) (i : Iuse)
    {k : Sess → Sys → Sys} (h : SessFr K nrs (some y) s0 s)
    (hk : KS K nrs s0 y k) : SessFr K nrs (some y) s0 (iuseHandle cfg e s x r i k) := by
  have e1 : ∀ st, Core y { x with state := st } := fun st => hx.trans ⟨st, x.vlr, rfl⟩
  unfold iuseHandle
  split
  · dsimp only
    apply SessFr.withDb (h.trans (.set _ rfl ho.key (e1 _)))
    intro a d h
    split
    · exact fr_txToMs cfg _ ho (e1 _) _ h hk
    · exact fr_txErr cfg _ ho (e1 _) _ _ h hk
  · exact fr_txToMs cfg _ ho (e1 _) _ (h.trans (.set _ rfl ho.key (e1 _))) hk
  · exact fr_txToMs cfg _ ho (e1 _) _ (h.trans (.set _ rfl ho.key (e1 _))) hk

theorem fr_handleSsAny (cfg : Cfg) (e : Env) {s0 s : Sys} (ho : Own K nrs y) (eo : Bool) {m : Msg}
    (hi : m.imsi = K.1) (hs : m.sessId = K.2) (r : SsReq)
    {k : Sess → Sys → Sys} (h : SessFr K nrs (some y) s0 s)
    (hk : KS K nrs s0 y k) : SessFr K nrs (some y) s0 (handleSsAny cfg e s y eo m r k) := by
  have hy := Core.refl y
  unfold handleSsAny
  split
  · unfold handleUssd
    split
    · exact fr_txErr cfg e ho hy _ _ h hk
    · split
      · exact fr_sendToMs cfg e ho hy hi hs h hk
      · split
        · split
          · exact fr_txErr cfg e ho hy _ _ h hk
          · exact hk _ _ hy (h.trans (.emit _ ⟨hi, hs, fun nr e => by cases e⟩))
        · exact h.trans (.ub _)
    · split
      · exact fr_sendToMs cfg e ho hy hi hs h hk
      · refine fr_iuse cfg e ho hy _ _ h ?_
        intro x t hx ht
        dsimp only
        split
        · refine hk _ _ hx (ht.trans (.ssFree _ (hx.key.trans ho.key) ?_))
          rw [hx.reqs]; exact ho.nr
        · exact hk _ _ hx ht
  · exact fr_txErr cfg e ho hy _ _ h hk

/-- A supplementary service message touches only the session with its IMSI and id. -/
theorem fr_procSs (cfg : Cfg) (e : Env) {s : Sys} {q : Req} (hsess : ∀ x ∈ s.sess, SessReqOk x)
    (hm : IsSs q.gsup.typ) :
    ∃ nrs x0, SessFr (q.gsup.imsi, q.gsup.sessId) nrs x0 s (rxProcSs cfg e q s)
      ∧ (∀ nr ∈ nrs, nr = q.nr ∨ ∃ x ∈ s.sess, x.key = (q.gsup.imsi, q.gsup.sessId) ∧ nr ∈ x.reqs.map (·.nr))
      ∧ (∀ y, x0 = some y → (∃ y0 ∈ s.sess, y0.key = (q.gsup.imsi, q.gsup.sessId)
            ∧ (y = y0 ∨ (q.gsup.sessState = .continue_ ∧ y = rearm cfg y0)))
          ∨ (ssFind s q.gsup.imsi q.gsup.sessId = none ∧ q.gsup.sessState = .begin
            ∧ ∃ r, cfg.parseSs q.gsup.ssInfo = some r ∧ y = ssNew cfg q r)) := by
  have err : ∀ c, SessFr (q.gsup.imsi, q.gsup.sessId) [q.nr] none s (respondErr cfg s q c) :=
    fun c => .respondErr cfg s (by simp) rfl rfl c
  have one : ∀ {t}, SessFr (q.gsup.imsi, q.gsup.sessId) [q.nr] none s t →
      ∃ nrs x0, SessFr (q.gsup.imsi, q.gsup.sessId) nrs x0 s t
      ∧ (∀ nr ∈ nrs, nr = q.nr ∨ ∃ x ∈ s.sess, x.key = (q.gsup.imsi, q.gsup.sessId) ∧ nr ∈ x.reqs.map (·.nr))
      ∧ (∀ y, x0 = some y → (∃ y0 ∈ s.sess, y0.key = (q.gsup.imsi, q.gsup.sessId)
            ∧ (y = y0 ∨ (q.gsup.sessState = .continue_ ∧ y = rearm cfg y0)))
          ∨ (ssFind s q.gsup.imsi q.gsup.sessId = none ∧ q.gsup.sessState = .begin
            ∧ ∃ r, cfg.parseSs q.gsup.ssInfo = some r ∧ y = ssNew cfg q r)) := by
    intro t ht
    exact ⟨_, _, ht, fun nr h => .inl (by simpa using h), fun y h => by cases h⟩
  have old : ∀ x, ssFind s q.gsup.imsi q.gsup.sessId = some x →
      Own (q.gsup.imsi, q.gsup.sessId) (q.nr :: x.reqs.map (·.nr)) x := by
    intro x hx
    obtain ⟨h1, h2, h3⟩ := ssFind_some hx
    exact ⟨by rw [← h2, ← h3]; rfl, fun q' h => List.mem_cons_of_mem _ (List.mem_map_of_mem h), hsess x h1⟩
  have fin : ∀ x t, ssFind s q.gsup.imsi q.gsup.sessId = some x →
      SessFr (q.gsup.imsi, q.gsup.sessId) (q.nr :: x.reqs.map (·.nr)) (some x) s t →
      ∃ nrs x0, SessFr (q.gsup.imsi, q.gsup.sessId) nrs x0 s t
      ∧ (∀ nr ∈ nrs, nr = q.nr ∨ ∃ x ∈ s.sess, x.key = (q.gsup.imsi, q.gsup.sessId) ∧ nr ∈ x.reqs.map (·.nr))
      ∧ (∀ y, x0 = some y → (∃ y0 ∈ s.sess, y0.key = (q.gsup.imsi, q.gsup.sessId)
            ∧ (y = y0 ∨ (q.gsup.sessState = .continue_ ∧ y = rearm cfg y0)))
          ∨ (ssFind s q.gsup.imsi q.gsup.sessId = none ∧ q.gsup.sessState = .begin
            ∧ ∃ r, cfg.parseSs q.gsup.ssInfo = some r ∧ y = ssNew cfg q r)) := by
    intro x t hx ht
    obtain ⟨h1, -, -⟩ := ssFind_some hx
    have hk := (old x hx).key
    refine ⟨_, _, ht, ?_, ?_⟩
    · intro nr hnr
      rcases List.mem_cons.1 hnr with h | h
      · exact .inl h
      · exact .inr ⟨x, h1, hk, h⟩
    · intro y hy
      cases hy
      exact .inl ⟨x, h1, hk, .inl rfl⟩
  unfold rxProcSs
  dsimp only
  split
  · exact one (err _)
  · rename_i hinfo
    split
    · exact one (err _)
    · rename_i r hr
      split
      · rename_i hst
        split
        · exact one (err _)
        · rename_i hnone
          have hr' : cfg.parseSs q.gsup.ssInfo = some r := by
            have : ¬ q.gsup.ssInfo.isEmpty = true := fun h => hinfo ⟨h, by rw [hst]; decide⟩
            rw [if_neg this] at hr
            exact hr
          obtain ⟨k1, k2, k3⟩ := ssNew_key cfg q r
          have ho : Own (q.gsup.imsi, q.gsup.sessId) [q.nr] (ssNew cfg q r) := by
            refine ⟨by simp [Sess.key, k1, k2], ?_, ?_⟩
            · rw [k3]; intro q' h; rw [List.mem_singleton.1 h]; simp
            · intro q' h
              rw [k3] at h
              rw [List.mem_singleton.1 h, k1, k2]
              exact ⟨hm, rfl, rfl⟩
          have hadd : SessFr (q.gsup.imsi, q.gsup.sessId) [q.nr] (some (ssNew cfg q r)) s
              { s with sess := s.sess ++ [ssNew cfg q r] } := by
            refine ⟨[], rfl, fun _ h => (by cases h), .inr ?_, ?_⟩
            · have := ho.key
              simp [List.filter_append, this]
            · intro x hx
              rcases List.mem_append.1 hx with hx | hx
              · exact .inl hx
              · rw [List.mem_singleton.1 hx]; exact .inr ⟨_, rfl, .refl _⟩
          refine ⟨[q.nr], some (ssNew cfg q r), ?_, fun nr h => .inl (by simpa using h), ?_⟩
          · exact fr_handleSsAny cfg e ho _ rfl rfl r hadd (fun _ _ _ h => h)
          · intro y hy
            cases hy
            exact .inr ⟨hnone, hst, r, hr', rfl⟩
      · rename_i hst
        split
        · exact one (err _)
        · rename_i x hx
          have ho := old x hx
          have hr : Own (q.gsup.imsi, q.gsup.sessId) (q.nr :: x.reqs.map (·.nr)) (rearm cfg x) := by
            unfold rearm
            split
            · exact ⟨ho.key, ho.nr, ho.req⟩
            · exact ho
          obtain ⟨h1, -, -⟩ := ssFind_some hx
          refine ⟨_, some (rearm cfg x), fr_handleSsAny cfg e hr _ rfl rfl r (.set s rfl hr.key (.refl _)) ?_, ?_, ?_⟩
          · intro y t _ ht
            exact ht.trans (.reqFree _ (by simp) _)
          · intro nr hnr
            rcases List.mem_cons.1 hnr with h | h
            · exact .inl h
            · exact .inr ⟨x, h1, ho.key, h⟩
          · intro y hy
            cases hy
            exact .inl ⟨x, h1, ho.key, .inr ⟨hst, rfl⟩⟩
      · split
        · exact one (err _)
        · rename_i x hx
          have ho := old x hx
          split
          · exact fin x _ hx ((SessFr.ssFree s ho.key ho.nr).trans (.reqFree _ (by simp) _))
          · refine fin x _ hx (fr_handleSsAny cfg e ho _ rfl rfl r (.refl s) ?_)
            intro y t hy ht
            dsimp only
            split
            · exact ht.trans (.ub _)
            · refine ht.trans ((SessFr.ssFree _ (hy.key.trans ho.key) ?_).trans (.reqFree _ (by simp) _))
              rw [hy.reqs]; exact ho.nr
      · exact one (.reqFree s (by simp) _)

/-! ## Presence of the session -/

theorem mem_ssSet {s : Sys} {x x' : Sess} (hx : x ∈ s.sess) (hk : x'.key = x.key) : x' ∈ (ssSet s x').sess :=
  List.mem_map.2 ⟨x, hx, if_pos (keyEq.2 hk.symm)⟩

theorem sendToVlr_frame (s : Sys) (n : IpaName) (m : Msg) :
    (sendToVlr s n m).sess = s.sess ∧ (sendToVlr s n m).ub = s.ub := by
  unfold sendToVlr sendToIpa addrSend
  repeat' split
  all_goals exact ⟨rfl, rfl⟩

section
variable {Z : Sys → Prop} (hcrash : ∀ t : Sys, Z t.crash)
include hcrash

theorem po_withDb {s : Sys} {α : Type} {m : DbM α} {sc : Script} {k : α → Sys → Sys}
    (hk : ∀ a d, Z (k a { s with db := d })) : Z (withDb s sc m k) := by
  unfold withDb
  split
  · exact hcrash _
  · exact hk _ _

theorem po_sendToMs (cfg : Cfg) (e : Env) {s : Sys} {x : Sess} (m : Msg) {k : Sess → Sys → Sys}
    (hx : x ∈ s.sess) (hu : s.ub = false)
    (hk : ∀ x' t, Core x x' → x'.state = x.state → x' ∈ t.sess → t.ub = false → Z (k x' t)) :
    Z (ssSendToMs cfg e s x m k) := by
  unfold ssSendToMs
  split
  · exact hk _ _ (.refl x) rfl (by rw [respond_frame]; exact hx) (by rw [respond_frame]; exact hu)
  · split
    · exact hk _ _ (.refl x) rfl hx hu
    · split
      · apply po_withDb hcrash
        intro a d
        split
        · exact hk _ _ (.refl x) rfl hx hu
        · rename_i row
          dsimp only
          refine hk _ _ ⟨x.state, _, rfl⟩ rfl ?_ ?_
          · rw [(sendToVlr_frame _ _ _).1]
            exact mem_ssSet (s := { s with db := d }) hx rfl
          · rw [(sendToVlr_frame _ _ _).2]; exact hu
      · refine hk _ _ (.refl x) rfl ?_ ?_
        · rw [(sendToVlr_frame _ _ _).1]; exact hx
        · rw [(sendToVlr_frame _ _ _).2]; exact hu

theorem po_txErr (cfg : Cfg) (e : Env) {s : Sys} {x : Sess} (i c : Nat) {k : Sess → Sys → Sys}
    (hx : x ∈ s.sess) (hu : s.ub = false)
    (hk : ∀ x' t, Core x x' → x'.state = .end_ → x' ∈ t.sess → t.ub = false → Z (k x' t)) :
    Z (ssTxErr cfg e s x i c k) := by
  unfold ssTxErr
  refine po_sendToMs hcrash cfg e _ (mem_ssSet hx rfl) hu ?_
  intro x' t h1 h2 h3 h4
  exact hk x' t (Core.trans ⟨.end_, x.vlr, rfl⟩ h1) h2 h3 h4

theorem po_iuse (cfg : Cfg) (e : Env) {s : Sys} {x : Sess} (r : SsReq) (i : Iuse) {k : Sess → Sys → Sys}
    (hx : x ∈ s.sess) (hu : s.ub = false)
    (hk : ∀ x' t, Core x x' → x'.state = (if i = .testIdle then .continue_ else .end_) → x' ∈ t.sess →
      t.ub = false → Z (k x' t)) :
    Z (iuseHandle cfg e s x r i k) := by
  unfold iuseHandle
  split
  · dsimp only
    apply po_withDb hcrash
    intro a d
    have hx' : ({ x with state := .end_ } : Sess) ∈ ({ (ssSet s { x with state := .end_ }) with db := d } : Sys).sess :=
      mem_ssSet hx rfl
    split
    · refine po_sendToMs hcrash cfg _ _ hx' hu ?_
      intro x' t h1 h2 h3 h4
      exact hk x' t (Core.trans ⟨.end_, x.vlr, rfl⟩ h1) h2 h3 h4
    · refine po_txErr hcrash cfg _ _ _ hx' hu ?_
      intro x' t h1 h2 h3 h4
      exact hk x' t (Core.trans ⟨.end_, x.vlr, rfl⟩ h1) h2 h3 h4
  · refine po_sendToMs hcrash cfg _ _ (mem_ssSet hx rfl) hu ?_
    intro x' t h1 h2 h3 h4
    exact hk x' t (Core.trans ⟨.end_, x.vlr, rfl⟩ h1) h2 h3 h4
  · refine po_sendToMs hcrash cfg _ _ (mem_ssSet hx rfl) hu ?_
    intro x' t h1 h2 h3 h4
    exact hk x' t (Core.trans ⟨.continue_, x.vlr, rfl⟩ h1) h2 h3 h4

/-- The session a message is handled in is still there when the handler is done, except
after an internal handler that ends the session; and memory is misread exactly in a session
begun by an external node, or of an external node that has been removed. -/
theorem po_handleSsAny (cfg : Cfg) (e : Env) {s : Sys} {x : Sess} (eo : Bool) (m : Msg) (r : SsReq)
    {k : Sess → Sys → Sys} (hx : x ∈ s.sess) (hu : s.ub = false)
    (hub : ∀ (t : Sys) n, x.u = .euse n → (x.isExternal = false ∨ n ∉ cfg.euses) → eo = false → Z { t with ub := true })
    (hfree : ∀ x' t i, x.u = .iuse i → i ≠ .testIdle → eo = false → opIsUssd r.opcode = true → Core x x' →
      x' ∈ t.sess → t.ub = false → Z (k x' (ssFree t x')))
    (hk : ∀ x' t, Core x x' → x' ∈ t.sess → t.ub = false →
      (∀ i, x.u = .iuse i → i ≠ .testIdle → eo = true ∨ opIsUssd r.opcode = false) → Z (k x' t)) :
    Z (handleSsAny cfg e s x eo m r k) := by
  unfold handleSsAny
  split
  · rename_i hop
    unfold handleUssd
    split
    · rename_i hn
      exact po_txErr hcrash cfg e _ _ hx hu (fun x' t h1 _ h3 h4 => hk x' t h1 h3 h4 (fun i h => by rw [hn] at h; cases h))
    · rename_i n hn
      have hk' : ∀ x' t, Core x x' → x' ∈ t.sess → t.ub = false → Z (k x' t) :=
        fun x' t h1 h2 h3 => hk x' t h1 h2 h3 (fun i h => by rw [hn] at h; cases h)
      split
      · exact po_sendToMs hcrash cfg e _ hx hu (fun x' t h1 _ h3 h4 => hk' x' t h1 h3 h4)
      · rename_i heo
        split
        · split
          · exact po_txErr hcrash cfg e _ _ hx hu (fun x' t h1 _ h3 h4 => hk' x' t h1 h3 h4)
          · exact hk' _ _ (.refl x) hx hu
        · rename_i hext
          exact hub _ n hn (by
            by_cases hx : x.isExternal = true
            · exact .inr fun hm => hext ⟨hx, hm⟩
            · exact .inl (by simpa using hx)) (by simpa using heo)
    · rename_i i hi
      split
      · rename_i heo
        exact po_sendToMs hcrash cfg e _ hx hu (fun x' t h1 _ h3 h4 => hk x' t h1 h3 h4 (fun _ _ _ => .inl heo))
      · rename_i heo
        refine po_iuse hcrash cfg e _ _ hx hu ?_
        intro x' t h1 h2 h3 h4
        by_cases hit : i = .testIdle
        · rw [if_pos hit] at h2
          rw [if_neg (by rw [h2]; decide)]
          exact hk x' t h1 h3 h4 (fun j hj hne => by rw [hi] at hj; cases hj; exact absurd hit hne)
        · rw [if_neg hit] at h2
          rw [if_pos h2]
          exact hfree x' t i hi hit (by simpa using heo) hop h1 h3 h4
  · rename_i hop
    exact po_txErr hcrash cfg e _ _ hx hu (fun x' t h1 _ h3 h4 => hk x' t h1 h3 h4 (fun _ _ _ => .inr (by simpa using hop)))

end

/-! ## Sessions and the other messages and events -/

/-- The sessions stay, or the process was restarted. -/
def SessStay (s t : Sys) : Prop :=
  ∃ lg, t.log = lg ++ s.log ∧ (.restart ∈ lg ∨ t.sess = s.sess) ∧ ∀ x ∈ t.sess, x ∈ s.sess

theorem SessStay.same {s t : Sys} {lg : List Out} (h : t.log = lg ++ s.log) (hs : t.sess = s.sess) : SessStay s t :=
  ⟨lg, h, .inr hs, fun x hx => by rw [← hs]; exact hx⟩

theorem SessStay.trans {s t u : Sys} (h : SessStay s t) (h' : SessStay t u) : SessStay s u := by
  obtain ⟨l1, e1, f1, w1⟩ := h
  obtain ⟨l2, e2, f2, w2⟩ := h'
  refine ⟨l2 ++ l1, by rw [e2, e1]; simp, ?_, fun x hx => w1 x (w2 x hx)⟩
  rcases f2 with f2 | f2
  · exact .inl (List.mem_append_left _ f2)
  · rcases f1 with f1 | f1
    · exact .inl (List.mem_append_right _ f1)
    · exact .inr (f2.trans f1)

theorem stay_respond (cfg : Cfg) (s : Sys) (q : Req) (m : Msg) (x y : Bool) : SessStay s (respond cfg s q m x y).2 :=
  .same (Props.c22_response_sent cfg s q m x y) (by rw [respond_frame])

theorem stay_prims (cfg : Cfg) : Prims cfg (fun _ => True) SessStay where
  refl s := .same (lg := []) rfl rfl
  trans := SessStay.trans
  db s d _ := .same (lg := []) rfl rfl
  ub s := .same (lg := []) rfl rfl
  crash s := ⟨[.restart], rfl, .inl (by simp), fun x hx => by cases hx⟩
  tx s c m _ := .same (lg := [.tx c m none]) rfl rfl
  concl s q how _ := .same (lg := [.concl q.nr how]) rfl rfl
  resp s q m _ _ := by
    unfold sendReqResponse
    split
    · exact .same (lg := []) rfl rfl
    · rename_i c _
      split
      · exact .same (lg := [.tx c m (some q.nr)]) rfl rfl
      · exact .same (lg := []) rfl rfl
  dg s p r := .same (lg := []) rfl rfl
  pend s l _ := .same (lg := []) rfl rfl
  remote s q a m _ := .same (lg := [.remote a m (some q.nr)]) rfl rfl
  remoteTx s a m _ := .same (lg := [.remote a m none]) rfl rfl
  remoteRx s a m := .same (lg := [.remoteRx a m]) rfl rfl

theorem stay_readCb (cfg : Cfg) (e : Env) (k : Conn) (q : Req) (s : Sys) (hq : ¬ IsSs q.gsup.typ) :
    SessStay s (readCb cfg e k q s) := by
  have pr := stay_prims cfg
  refine pr.readCb e k trivial ?_ (fun h => absurd h hq) ?_ (fun _ _ => trivial)
  · intro _
    exact pr.updLoc e trivial k (.same (lg := []) rfl rfl) (fun t lu _ => .same (lg := []) rfl rfl)
  · refine pr.luRx trivial (fun _ _ => trivial) (fun t lu => .same (lg := []) rfl rfl) ?_
    intro t lu _ _ _ _
    exact stay_respond ..

/-- Requests of session `K`, or the one just received. -/
def NrsOk (K : Bytes × Nat) (s : Sys) (nrs : List Nat) : Prop :=
  ∀ nr ∈ nrs, nr = s.nextReq ∨ ∃ x ∈ s.sess, x.key = K ∧ nr ∈ x.reqs.map (·.nr)

theorem rearm_core (cfg : Cfg) (x : Sess) : (rearm cfg x).key = x.key ∧ (rearm cfg x).reqs = x.reqs
    ∧ (rearm cfg x).u = x.u ∧ (rearm cfg x).isExternal = x.isExternal ∧ (rearm cfg x).reqMs = x.reqMs
    ∧ (rearm cfg x).state = x.state ∧ (rearm cfg x).vlr = x.vlr
    ∧ rearm cfg x = { x with timer := x.timer || cfg.guardTimer } := by
  unfold rearm
  cases h : cfg.guardTimer
  · simp
  · exact ⟨rfl, rfl, rfl, rfl, rfl, rfl, rfl, by simp⟩

/-- Where a new session comes from. -/
def NewSess (cfg : Cfg) (s : Sys) (c : ConnId) (m : Msg) (x : Sess) : Prop :=
  ∃ q r, IsNew s c m q ∧ ssFind s m.imsi m.sessId = none ∧ m.sessState = .begin
    ∧ cfg.parseSs m.ssInfo = some r ∧ Core (ssNew cfg q r) x

/-- The state in which a handler starts. -/
def entered (s : Sys) (c : ConnId) (m : Msg) (rts : List (Bytes × ConnId)) : Sys :=
  { s with nextReq := s.nextReq + 1, routes := rts, log := .rx s.nextReq c (some m) :: s.log }

/-- What becomes of a supplementary service message: it is refused or passed on before it
gets to a session, or it gets there, or it is not for a subscriber of this HLR. -/
theorem rx_ss_cases (cfg : Cfg) (e : Env) {s : Sys} {c : ConnId} {k : Conn}
    (hk : s.conn? c = some k) {m : Msg} (hm : IsSs m.typ) :
    (SessFr (m.imsi, m.sessId) [s.nextReq] none (entered s c m s.routes) (rx cfg e c (some m) s)
      ∧ (rx cfg e c (some m) s).sess = s.sess)
    ∨ (IsNew s c m (mkReq k s.nextReq m) ∧ ∃ rts,
        rx cfg e c (some m) s = rxProcSs cfg e (mkReq k s.nextReq m) (entered s c m rts))
    ∨ (¬ Local e m s ∧ SessStay (entered s c m s.routes) (rx cfg e c (some m) s)) := by
  unfold rx
  rw [hk]
  dsimp only
  have hrs : ∀ (t : Sys) q r x y, t.sess = s.sess → (respond cfg t q r x y).2.sess = s.sess := by
    intro t q r x y h
    rw [respond_frame]; exact h
  split
  · exact .inl ⟨.respond cfg _ (by simp) rfl rfl _ _ _, hrs _ _ _ _ _ rfl⟩
  · have hg : (mkReq k s.nextReq m).gsup = m := by unfold mkReq; split <;> rfl
    have hnr : (mkReq k s.nextReq m).nr = s.nextReq := by unfold mkReq; split <;> rfl
    have hnew : IsNew s c m (mkReq k s.nextReq m) := by
      rename_i h1
      exact ⟨k, hk, .inr ⟨h1, rfl⟩⟩
    split
    · refine .inl ⟨.respondErr cfg _ (by rw [hnr]; simp) (by rw [hg]) (by rw [hg]) _, ?_⟩
      rw [respondErr_frame]
    · have hcb : ∀ rts,
          (SessFr (m.imsi, m.sessId) [s.nextReq] none (entered s c m s.routes)
              (readCb cfg e k (mkReq k s.nextReq m) (entered s c m rts))
            ∧ (readCb cfg e k (mkReq k s.nextReq m) (entered s c m rts)).sess = s.sess)
          ∨ (IsNew s c m (mkReq k s.nextReq m) ∧ ∃ rts',
              readCb cfg e k (mkReq k s.nextReq m) (entered s c m rts)
                = rxProcSs cfg e (mkReq k s.nextReq m) (entered s c m rts'))
          ∨ (¬ Local e m s ∧ SessStay (entered s c m s.routes)
              (readCb cfg e k (mkReq k s.nextReq m) (entered s c m rts))) := by
        intro rts
        have h0 : SessFr (m.imsi, m.sessId) [s.nextReq] none (entered s c m s.routes) (entered s c m rts) :=
          .same (lg := []) rfl (fun _ h => by cases h) rfl
        have h0' : SessStay (entered s c m s.routes) (entered s c m rts) := .same (lg := []) rfl rfl
        have hd : dispatch cfg e k (mkReq k s.nextReq m) (entered s c m rts)
              = rxProcSs cfg e (mkReq k s.nextReq m) (entered s c m rts) := by
            unfold dispatch
            rw [hg]
            rcases hm with h | h <;> rw [h] <;> rfl
        have hkn : known e (mkReq k s.nextReq m).gsup (entered s c m rts) = known e m s := by
          rw [hg]; rfl
        rw [readCb_eq, hkn, hd]
        split
        · have herr : ∀ t, SessFr (m.imsi, m.sessId) [s.nextReq] none t
              (respond cfg t (mkReq k s.nextReq m)
                { typ := ROUTING_ERROR, src := (mkReq k s.nextReq m).gsup.dst } true true).2 := fun t =>
            .respond cfg t (by rw [hnr]; simp) (by rw [hg]) (by rw [hg]) _ _ _
          have hsd : ∀ (t : Sys) n M, (sendToIpa t n M).2.sess = t.sess := by
            intro t n M
            unfold sendToIpa addrSend
            repeat' split
            all_goals rfl
          left
          unfold readCbForward
          dsimp only
          split
          · exact ⟨h0.trans (herr _), hrs _ _ _ _ _ rfl⟩
          · split
            · exact ⟨h0.trans (herr _), hrs _ _ _ _ _ rfl⟩
            · have hs : ∀ n, SessFr (m.imsi, m.sessId) [s.nextReq] none (entered s c m rts)
                  (sendToIpa (entered s c m rts) n (mkReq k s.nextReq m).gsup).2 :=
                fun n => .sendToIpa _ n (by rw [hg]) (by rw [hg])
              split
              · exact ⟨h0.trans ((hs _).trans (herr _)), hrs _ _ _ _ _ (hsd _ _ _)⟩
              · exact ⟨h0.trans ((hs _).trans (.reqFree _ (by rw [hnr]; simp) _)), hsd _ _ _⟩
        · split
          · rename_i hdg
            split
            · rename_i hn
              refine .inr (.inr ⟨?_, h0'.trans ((stay_prims cfg).crash _)⟩)
              rintro (h | h)
              · rw [hdg] at h; cases h
              · rw [hn] at h; cases h
            · rename_i rc hn
              split
              · exact .inr (.inl ⟨hnew, rts, rfl⟩)
              · rename_i hrc
                refine .inr (.inr ⟨?_, h0'.trans ((stay_prims cfg).proxied e trivial _ (fun _ _ => trivial)).1⟩)
                rintro (h | h)
                · rw [hdg] at h; cases h
                · rw [hn] at h; exact hrc (Option.some.inj h)
          · exact .inr (.inl ⟨hnew, rts, rfl⟩)
      unfold connRx
      split
      · exact hcb s.routes
      · dsimp only
        split
        · unfold respondMsgt
          refine .inl ⟨SessFr.trans ?_ (.respond cfg _ (by rw [hnr]; simp) (by rw [hg]) (by rw [hg]) _ _ _), hrs _ _ _ _ _ rfl⟩
          exact .same (lg := []) rfl (fun _ h => by cases h) rfl
        · exact hcb _

/-- A supplementary service message as a whole. -/
theorem fr_rx (cfg : Cfg) (e : Env) {s : Sys} (hsess : ∀ x ∈ s.sess, SessReqOk x) {c : ConnId} {k : Conn}
    (hk : s.conn? c = some k) {m : Msg} (hm : IsSs m.typ) :
    (∃ nrs x0, SessFr (m.imsi, m.sessId) nrs x0 (entered s c m s.routes) (rx cfg e c (some m) s)
      ∧ NrsOk (m.imsi, m.sessId) s nrs
      ∧ (∀ y, x0 = some y → (∃ y0 ∈ s.sess, y0.key = (m.imsi, m.sessId)
            ∧ (y = y0 ∨ (m.sessState = .continue_ ∧ y = rearm cfg y0))) ∨ NewSess cfg s c m y))
    ∨ (¬ Local e m s ∧ SessStay (entered s c m s.routes) (rx cfg e c (some m) s)) := by
  rcases rx_ss_cases cfg e hk hm with ⟨h, -⟩ | ⟨hnew, rts, h⟩ | h
  · exact .inl ⟨_, _, h, fun nr h => .inl (by simpa using h), fun y h => by cases h⟩
  · have hg : (mkReq k s.nextReq m).gsup = m := by unfold mkReq; split <;> rfl
    have hnr : (mkReq k s.nextReq m).nr = s.nextReq := by unfold mkReq; split <;> rfl
    obtain ⟨nrs, x0, h1, h2, h3⟩ := fr_procSs cfg e (s := entered s c m rts) (q := mkReq k s.nextReq m)
      hsess (by rw [hg]; exact hm)
    rw [hg] at h1 h2 h3
    rw [hnr] at h2
    refine .inl ⟨nrs, x0, ?_, h2, ?_⟩
    · rw [h]
      refine SessFr.trans (t := entered s c m rts) ?_ h1
      exact .same (lg := []) rfl (fun _ h => by cases h) rfl
    · intro y hy
      rcases h3 y hy with h | ⟨h4, h5, r, h6, h7⟩
      · exact .inl h
      · exact .inr ⟨_, r, hnew, h4, h5, h6, by rw [h7]; exact .refl _⟩
  · exact .inr h

theorem stay_rx (cfg : Cfg) (e : Env) (s : Sys) (c : ConnId) (mo : Option Msg)
    (hm : ∀ m, mo = some m → ¬ IsSs m.typ) : SessStay s (rx cfg e c mo s) := by
  unfold rx
  split
  · exact .same (lg := []) rfl rfl
  · rename_i k hk
    dsimp only
    refine SessStay.trans (t := { s with nextReq := s.nextReq + 1, log := .rx s.nextReq c mo :: s.log })
      (.same (lg := [.rx s.nextReq c mo]) rfl rfl) ?_
    split
    · exact .same (lg := [.concl s.nextReq .dropped]) rfl rfl
    · rename_i m
      split
      · exact stay_respond ..
      · have hg : (mkReq k s.nextReq m).gsup = m := by unfold mkReq; split <;> rfl
        split
        · exact (stay_prims cfg).respondErr _ trivial _
        · unfold connRx
          split
          · exact stay_readCb _ _ _ _ _ (by rw [hg]; exact hm m rfl)
          · dsimp only
            split
            · exact SessStay.trans (.same (lg := []) rfl rfl) (stay_respond ..)
            · refine SessStay.trans (.same (lg := []) rfl rfl) (stay_readCb _ _ _ _ _ (by rw [hg]; exact hm m rfl))

/-- Every event but a supplementary service message or the expiry of a session timer. -/
theorem stay_step (cfg : Cfg) (s : Sys) (ev : Ev) (h1 : ∀ c m e, ev = .rx c (some m) e → ¬ IsSs m.typ)
    (h2 : ∀ i d, ev ≠ .ssTimeout i d) : SessStay s (step cfg s ev) := by
  have pr := stay_prims cfg
  unfold step
  split
  · exact pr.refl s
  · dsimp only
    split
    · exact .same (lg := [.connected s.nextConn]) rfl rfl
    · split
      · exact pr.refl s
      · rename_i k _
        unfold ccmCb
        split
        · exact .same (lg := [.closed k.id]) rfl rfl
        · exact .same (lg := [.closed k.id]) rfl rfl
        · exact .same (lg := []) rfl rfl
    · rename_i c
      split
      · exact pr.refl s
      · exact .same (lg := [.closed c]) rfl rfl
    · rename_i c mo e
      exact stay_rx cfg e s c mo (fun m hm => h1 c m e (by rw [hm]))
    · exact pr.luTimeout _ (fun _ _ => trivial) (fun t lu => .same (lg := []) rfl rfl)
    · rename_i i d
      exact absurd rfl (h2 i d)
    · exact pr.withDb (api_op trivial) (pr.refl s) (fun _ _ _ h => h)
    · refine pr.withDb (api_getByImsi _) (pr.refl s) ?_
      intro a d _ h
      split
      · exact pr.trans h (pr.notify _ _ _)
      · exact h
    · refine pr.withDb (api_getByImsi _) (pr.refl s) ?_
      intro a d _ h
      split
      · exact pr.trans h (pr.nam _ _ _ _ _)
      · exact h
    · exact (pr.remoteUp _ s (fun _ _ => trivial)).1
    · exact (pr.remoteDown _ s (fun _ _ => trivial)).1
    · exact (pr.remoteLost _ s (fun _ _ => trivial)).1
    · exact (pr.rxRemote _ _ _ s trivial (fun _ _ => trivial)).1
    · exact (pr.lookupResult _ _ _ s (fun _ _ => trivial)).1
    · exact (pr.setProxy s _ (fun _ _ => trivial)).1
    · exact pr.crash s

end
end Verif.Sys
