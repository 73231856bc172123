import Verif.Sys.Frame3
/-! # The database and the location updates along a run -/
namespace Verif.Sys
open Verif Verif.Db Verif.Gsup Verif.Hlr

/-! ## The database changes only by API calls -/

theorem linked_prims (cfg : Cfg) : Prims cfg (fun _ => True) (fun s t => Linked s.db t.db) where
  refl s := Linked.refl _
  trans h h' := h.trans h'
  db _ _ h := h
  ub _ := Linked.refl _
  crash _ := Linked.refl _
  tx _ _ _ _ := Linked.refl _
  concl _ _ _ _ := Linked.refl _
  resp s q m _ _ := by rw [sendReqResponse_frame]; exact Linked.refl _
  dg _ _ _ := Linked.refl _
  pend _ _ _ := Linked.refl _
  remote _ _ _ _ _ := Linked.refl _
  remoteTx _ _ _ _ := Linked.refl _
  remoteRx _ _ _ := Linked.refl _

theorem linked_readCb (cfg : Cfg) (e : Env) (k : Conn) (q : Req) (s : Sys) :
    Linked s.db (readCb cfg e k q s).db := by
  have pr := linked_prims cfg
  refine pr.readCb e k trivial ?_ ?_ ?_ (fun _ _ => trivial)
  · intro _
    exact pr.updLoc e trivial k (Linked.refl _) (fun _ _ _ => Linked.refl _)
  · intro h
    exact pr.procSs (fun _ _ _ => Linked.refl _) e trivial h (fun _ _ _ _ => trivial)
  · refine pr.luRx trivial (fun _ _ => trivial) (fun _ _ => Linked.refl _) ?_
    intro t lu _ _ _ _
    rw [respondMsgt_frame]
    exact Linked.refl _

theorem rx_linked (cfg : Cfg) (e : Env) (c : ConnId) (mo : Option Msg) (s : Sys) :
    Linked s.db (rx cfg e c mo s).db := by
  unfold rx
  split
  · exact Linked.refl _
  · dsimp only
    split
    · exact Linked.refl _
    · split
      · rw [respondMsgt_frame]; exact Linked.refl _
      · split
        · rw [respondErr_frame]; exact Linked.refl _
        · unfold connRx
          split
          · exact linked_readCb cfg e _ _
              { s with nextReq := s.nextReq + 1, log := .rx s.nextReq c (some _) :: s.log }
          · dsimp only
            split
            · rw [respondMsgt_frame]; exact Linked.refl _
            · exact linked_readCb cfg e _ _
                { s with nextReq := s.nextReq + 1, routes := _, log := .rx s.nextReq c (some _) :: s.log }

theorem step_linked (cfg : Cfg) (s : Sys) (ev : Ev) : Linked s.db (step cfg s ev).db := by
  have pr := linked_prims cfg
  unfold step
  split
  · exact Linked.refl _
  · cases ev with
    | connect => exact Linked.refl _
    | ccm c sernr =>
      dsimp only
      split
      · exact Linked.refl _
      · unfold ccmCb
        split <;> exact Linked.refl _
    | close c => dsimp only; split <;> exact Linked.refl _
    | rx c m e => exact rx_linked cfg e c m s
    | luTimeout nr => exact pr.luTimeout nr (fun _ _ => trivial) (fun _ _ => Linked.refl _)
    | ssTimeout imsi id => exact pr.ssTimeout (fun _ _ _ => Linked.refl _) imsi id (fun _ _ _ _ => trivial)
    | db op sc => exact pr.withDb (api_op trivial) (pr.refl s) (fun a d _ h => h)
    | notify imsi sc =>
      refine pr.withDb (api_getByImsi _) (pr.refl s) (fun a d _ h => ?_)
      split
      · exact pr.trans h (pr.notify _ _ _)
      · exact h
    | nam imsi val isPs sc sc' =>
      refine pr.withDb (api_getByImsi _) (pr.refl s) (fun a d _ h => ?_)
      split
      · exact pr.trans h (pr.nam _ _ _ _ _)
      · exact h
    | remoteUp a => exact (pr.remoteUp a s (fun _ _ => trivial)).1
    | remoteDown a => exact (pr.remoteDown a s (fun _ _ => trivial)).1
    | remoteLost a => exact (pr.remoteLost a s (fun _ _ => trivial)).1
    | remoteRx a m e => exact (pr.rxRemote e a m s trivial (fun _ _ => trivial)).1
    | lookup imsi res e => exact (pr.lookupResult e imsi res s (fun _ _ => trivial)).1
    | proxyGc clock => exact (pr.setProxy s _ (fun _ _ => trivial)).1
    | kill => exact pr.crash s

theorem run_linked (s : Sys) (evs : List (Cfg × Ev)) : Linked s.db (run s evs).db := by
  induction evs generalizing s with
  | nil => exact Linked.refl _
  | cons x l ih => exact (step_linked x.1 s x.2).trans (ih _)

/-! ## Where location update procedures come from -/

/-- Every procedure is an old one or satisfies `Φ`. -/
def LuFr (Φ : Lu → Prop) (s t : Sys) : Prop := ∀ lu ∈ t.lus, lu ∈ s.lus ∨ Φ lu

theorem LuFr.same {Φ : Lu → Prop} {s t : Sys} (h : t.lus = s.lus) : LuFr Φ s t :=
  fun lu hl => .inl (h ▸ hl)

theorem lufr_prims (cfg : Cfg) (Φ : Lu → Prop) : Prims cfg (fun _ => True) (LuFr Φ) where
  refl _ := LuFr.same rfl
  trans h h' lu hl := by
    rcases h' lu hl with h1 | h1
    · exact h lu h1
    · exact .inr h1
  db _ _ _ := LuFr.same rfl
  ub _ := LuFr.same rfl
  crash s lu hl := by simp [Sys.crash] at hl
  tx _ _ _ _ := LuFr.same rfl
  concl _ _ _ _ := LuFr.same rfl
  resp s q m _ _ := by rw [sendReqResponse_frame]; exact LuFr.same rfl
  dg _ _ _ := LuFr.same rfl
  pend _ _ _ := LuFr.same rfl
  remote _ _ _ _ _ := LuFr.same rfl
  remoteTx _ _ _ _ := LuFr.same rfl
  remoteRx _ _ _ := LuFr.same rfl

theorem lufr_erase (Φ : Lu → Prop) (t : Sys) (lu : Lu) : LuFr Φ t { t with lus := t.lus.erase lu } :=
  fun _ hl => .inl (List.mem_of_mem_erase hl)

/-- How a procedure begins: the request is an Update Location Request and the database
part of the handler succeeded. -/
structure LuBegun (cfg : Cfg) (e : Env) (q : Req) (d d' : Db) (lu : Lu) : Prop where
  req : lu.req = q
  isPs : lu.isPs = !q.gsup.isCs
  exec : exec (luStartDb cfg e q) d e.sc = (some (.wait lu.subscr), d')

theorem luOnenter_lus (cfg : Cfg) (s : Sys) (lu : Lu) :
    ∀ lu' ∈ (luOnenter cfg s lu).lus, lu' ∈ s.lus ∨ lu' = lu := by
  intro lu' h
  unfold luOnenter at h
  split at h
  · rw [respondErr_frame] at h; exact .inl h
  · dsimp only at h
    split at h
    · rw [respondErr_frame, respond_frame] at h; exact .inl h
    · rw [respond_frame] at h
      rcases List.mem_cons.1 h with h | h
      · exact .inr h
      · exact .inl h

theorem luOnenter_db (cfg : Cfg) (s : Sys) (lu : Lu) : (luOnenter cfg s lu).db = s.db := by
  unfold luOnenter
  split
  · rw [respondErr_frame]
  · dsimp only
    split
    · rw [respondErr_frame, respond_frame]
    · rw [respond_frame]

theorem updLoc_lus (cfg : Cfg) (e : Env) (k : Conn) (q : Req) (s : Sys) :
    LuFr (LuBegun cfg e q s.db (rxUpdLocReq cfg e k q s).db) s (rxUpdLocReq cfg e k q s) := by
  unfold rxUpdLocReq
  dsimp only
  generalize (if q.gsup.isCs = true then ({ k with supportsCs := true } : Conn)
    else { k with supportsPs := true }) = k'
  unfold withDb
  have e0 : (setConn s k').db = s.db := rfl
  rw [e0]
  rcases hx : exec (luStartDb cfg e q) s.db e.sc with ⟨o, d⟩
  dsimp only
  cases o with
  | none => intro lu hl; simp [Sys.crash] at hl
  | some r =>
    dsimp only
    cases r with
    | fail c => dsimp only; rw [respondErr_frame]; exact LuFr.same rfl
    | ub => exact LuFr.same rfl
    | wait sub =>
      intro lu hl
      rcases luOnenter_lus _ _ _ lu hl with h | h
      · exact .inl h
      · subst h
        refine .inr ⟨rfl, rfl, ?_⟩
        dsimp only
        rw [luOnenter_db, hx]

theorem dispatch_lus (cfg : Cfg) (e : Env) (k : Conn) (q : Req) (s : Sys) :
    LuFr (fun lu => q.gsup.typ = UPDATE_LOCATION ∧ LuBegun cfg e q s.db (dispatch cfg e k q s).db lu)
      s (dispatch cfg e k q s) := by
  by_cases ht : q.gsup.typ = UPDATE_LOCATION
  · have hr : dispatch cfg e k q s = rxUpdLocReq cfg e k q s := by
      unfold dispatch
      rw [if_neg (by rw [ht]; decide), if_pos ht]
    rw [hr]
    intro lu hl
    rcases updLoc_lus cfg e k q s lu hl with h | h
    · exact .inl h
    · exact .inr ⟨ht, h⟩
  · have pr := lufr_prims cfg (fun lu => q.gsup.typ = UPDATE_LOCATION
      ∧ LuBegun cfg e q s.db (dispatch cfg e k q s).db lu)
    refine pr.dispatch e k trivial ?_ ?_ ?_
    · exact fun h => absurd h ht
    · intro h
      exact pr.procSs (fun _ _ _ => LuFr.same rfl) e trivial h (fun _ _ _ _ => trivial)
    · refine pr.luRx trivial (fun _ _ => trivial) (lufr_erase _) ?_
      intro t lu _ _ _ _
      rw [respondMsgt_frame]
      exact LuFr.same rfl

theorem readCb_lus (cfg : Cfg) (e : Env) (k : Conn) (q : Req) (s : Sys) :
    LuFr (fun lu => q.gsup.typ = UPDATE_LOCATION ∧ LuBegun cfg e q s.db (readCb cfg e k q s).db lu)
      s (readCb cfg e k q s) := by
  rw [readCb_eq]
  split
  · exact (lufr_prims cfg _).readCbForward s trivial
  · split
    · split
      · exact (lufr_prims cfg _).crash s
      · split
        · exact dispatch_lus cfg e k q s
        · exact ((lufr_prims cfg _).proxied e trivial s (fun _ _ => trivial)).1
    · exact dispatch_lus cfg e k q s

/-- A procedure begins only by an Update Location Request with a valid IMSI. -/
theorem rx_lus (cfg : Cfg) (e : Env) (c : ConnId) (mo : Option Msg) (s : Sys) :
    LuFr (fun lu => ∃ m, mo = some m ∧ IsNew s c m lu.req ∧ m.typ = UPDATE_LOCATION
      ∧ imsiValid m.imsi = true ∧ LuBegun cfg e lu.req s.db (rx cfg e c mo s).db lu) s (rx cfg e c mo s) := by
  intro lu hl
  revert hl
  generalize hd : (rx cfg e c mo s).db = d
  unfold rx at hd ⊢
  cases hk : s.conn? c with
  | none => exact fun hl => .inl hl
  | some k =>
    rw [hk] at hd
    dsimp only at hd ⊢
    cases mo with
    | none => exact fun hl => .inl hl
    | some m =>
      dsimp only at hd ⊢
      split
      · rw [respondMsgt_frame]; exact fun hl => .inl hl
      · rename_i hok
        rw [if_neg hok] at hd
        split
        · rw [respondErr_frame]; exact fun hl => .inl hl
        · rename_i hv
          rw [if_neg hv] at hd
          have hnew : IsNew s c m (mkReq k s.nextReq m) := ⟨k, hk, .inr ⟨hok, rfl⟩⟩
          have hg : (mkReq k s.nextReq m).gsup = m := by unfold mkReq; split <;> rfl
          have go : ∀ (t : Sys), t.lus = s.lus → t.db = s.db → (readCb cfg e k (mkReq k s.nextReq m) t).db = d →
              lu ∈ (readCb cfg e k (mkReq k s.nextReq m) t).lus →
              lu ∈ s.lus ∨ ∃ m', some m = some m' ∧ IsNew s c m' lu.req ∧ m'.typ = UPDATE_LOCATION
                ∧ imsiValid m'.imsi = true ∧ LuBegun cfg e lu.req s.db d lu := by
            intro t e1 e2 e3 hl
            rcases readCb_lus cfg e k _ t lu hl with h | ⟨h1, h2⟩
            · exact .inl (e1 ▸ h)
            · rw [hg] at h1
              rw [e2, e3] at h2
              refine .inr ⟨m, rfl, ?_, h1, by simpa using hv, ?_⟩
              · rw [h2.req]; exact hnew
              · rw [h2.req]; exact h2
          unfold connRx at hd ⊢
          split
          · rename_i hp
            rw [if_pos hp] at hd
            exact go _ rfl rfl hd
          · rename_i hp
            rw [if_neg hp] at hd
            dsimp only at hd ⊢
            split
            · rw [respondMsgt_frame]; exact fun hl => .inl hl
            · rename_i hr
              rw [if_neg hr] at hd
              exact go _ rfl rfl hd

/-- Where a procedure comes from. -/
theorem step_lus (cfg : Cfg) (s : Sys) (ev : Ev) :
    LuFr (fun lu => ∃ c m e, ev = .rx c (some m) e ∧ IsNew s c m lu.req ∧ m.typ = UPDATE_LOCATION
      ∧ imsiValid m.imsi = true ∧ LuBegun cfg e lu.req s.db (step cfg s ev).db lu) s (step cfg s ev) := by
  generalize hΦ : (fun lu : Lu => ∃ c m e, ev = .rx c (some m) e ∧ IsNew s c m lu.req ∧ m.typ = UPDATE_LOCATION
      ∧ imsiValid m.imsi = true ∧ LuBegun cfg e lu.req s.db (step cfg s ev).db lu) = Φ
  have pr := lufr_prims cfg Φ
  unfold step at hΦ ⊢
  by_cases hu : s.ub = true
  · rw [if_pos hu]; exact LuFr.same rfl
  · rw [if_neg hu] at hΦ ⊢
    cases ev with
    | connect => exact LuFr.same rfl
    | ccm c sernr =>
      dsimp only
      split
      · exact LuFr.same rfl
      · unfold ccmCb
        split <;> exact LuFr.same rfl
    | close c => dsimp only; split <;> exact LuFr.same rfl
    | rx c m e =>
      intro lu hl
      rcases rx_lus cfg e c m s lu hl with h | ⟨m', rfl, h1, h2, h3, h4⟩
      · exact .inl h
      · right
        rw [← hΦ]
        exact ⟨c, m', e, rfl, h1, h2, h3, h4⟩
    | luTimeout nr => exact pr.luTimeout nr (fun _ _ => trivial) (lufr_erase _)
    | ssTimeout imsi id => exact pr.ssTimeout (fun _ _ _ => LuFr.same rfl) imsi id (fun _ _ _ _ => trivial)
    | db op sc => exact pr.withDb (api_op trivial) (pr.refl s) (fun a d _ h => h)
    | notify imsi sc =>
      refine pr.withDb (api_getByImsi _) (pr.refl s) (fun a d _ h => ?_)
      split
      · exact pr.trans h (pr.notify _ _ _)
      · exact h
    | nam imsi val isPs sc sc' =>
      refine pr.withDb (api_getByImsi _) (pr.refl s) (fun a d _ h => ?_)
      split
      · exact pr.trans h (pr.nam _ _ _ _ _)
      · exact h
    | remoteUp a => exact (pr.remoteUp a s (fun _ _ => trivial)).1
    | remoteDown a => exact (pr.remoteDown a s (fun _ _ => trivial)).1
    | remoteLost a => exact (pr.remoteLost a s (fun _ _ => trivial)).1
    | remoteRx a m e => exact (pr.rxRemote e a m s trivial (fun _ _ => trivial)).1
    | lookup imsi res e => exact (pr.lookupResult e imsi res s (fun _ _ => trivial)).1
    | proxyGc clock => exact (pr.setProxy s _ (fun _ _ => trivial)).1
    | kill => exact pr.crash s

/-! ## The database part of a location update -/

/-- The database says: the subscriber exists, may use the domain, and is served by `n`
via `via` since `t`. -/
def Recorded (d : Db) (imsi : Bytes) (isPs : Bool) (n : Bytes) (via : Option Bytes) (t : Int) : Prop :=
  ∃ r ∈ d.subs, r.imsi = imsi ∧
    if isPs then r.namPs = true ∧ r.sgsn = some n ∧ r.sgsnViaProxy = via ∧ r.lastLuPs = some t
    else r.namCs = true ∧ r.vlr = some n ∧ r.vlrViaProxy = via ∧ r.lastLu = some t

/-- The proxy's name as stored: none if the request did not come through a proxy. -/
def viaName : PeerId → Option (Option Bytes)
  | .empty => some none
  | .ipa p => if p.isEmpty then some none else p.cstr.map some

theorem getByImsi_post (imsi : Bytes) :
    Post (fun _ => True) (getByImsi imsi) (fun o d => ∀ rc row, o = some (rc, some row) →
      row ∈ d.subs ∧ row.imsi = imsi) := by
  refine Post.bind (fun o d => ∀ row, o = some (.row row) → row ∈ d.subs ∧ row.imsi = imsi)
    (Post.stmt ?_ ?_ ?_) ?_ ?_
  · intro d _ row h
    simp only [sqlSel] at h
    cases hf : d.subs.find? (fun r => r.imsi == imsi) with
    | none => rw [hf] at h; simp at h
    | some r =>
      rw [hf] at h
      cases h
      refine ⟨List.mem_of_find?_eq_some hf, ?_⟩
      have := List.find?_some hf
      simpa using this
  · intro d _ row h; simp at h
  · intro d _ row h; simp at h
  · intro d _ rc row h; simp at h
  · intro a w hw
    cases a with
    | row r =>
      intro rc row h
      have h : some ((0 : Int), some r) = some (rc, some row) := h
      cases h
      exact hw r rfl
    | done =>
      intro rc row h
      have h : some ((-ENOENT : Int), (none : Option SubRow)) = some (rc, some row) := h
      simp at h
    | error =>
      intro rc row h
      have h : some ((-EIO : Int), (none : Option SubRow)) = some (rc, some row) := h
      simp at h

/-- What the three ways to the end of `luStartDb` share. -/
theorem lu_post (e : Env) (imsi : Bytes) (row : SubRow) (n : Bytes) (isPs : Bool) (via : Option Bytes)
    (hi : row.imsi = imsi) (hd : if isPs then row.namPs = true else row.namCs = true) :
    Post (fun d => row ∈ d.subs)
      (do let rc ← subscrLu row.id n isPs via e.now
          if rc ≠ 0 then pure (.fail .netFail) else pure (.wait (HlrSubscr.ofRow row)) : DbM LuRes)
      (fun o d => ∀ sub, o = some (.wait sub) → sub = HlrSubscr.ofRow row ∧
        ∃ t, e.now = some t ∧ Recorded d imsi isPs n via t) := by
  refine Post.bind (fun o d => o = some 0 → ∃ t, e.now = some t ∧ Recorded d imsi isPs n via t) ?_ ?_ ?_
  · apply Post.ofExec
    intro d s hr h0
    rcases exec_lu d s row.id n isPs via e.now with ⟨-, h⟩ | ⟨-, h⟩ | ⟨-, hc, h⟩ | ⟨-, hc, h⟩
    · rw [h] at h0; simp at h0
    · rw [h] at h0; simp [EIO] at h0
    · rw [h] at h0
      have h0 := Option.some.inj h0
      exfalso
      revert hc h0
      generalize d.subs.countP (·.id == row.id) = k
      intro hc h0
      match k, hc, h0 with
      | 0, _, h0 => simp [updRc, ENOENT] at h0
      | 1, hc, _ => exact hc rfl
      | k + 2, _, h0 => simp [updRc, EIO] at h0
    · rcases h with ⟨-, h⟩ | ⟨t, -, -, h⟩ | ⟨t, -, -, h⟩ | ⟨t, ht, -, h⟩
      · rw [h] at h0; simp [EINVAL] at h0
      · rw [h] at h0; simp at h0
      · rw [h] at h0; simp [EIO] at h0
      · rw [h]
        refine ⟨t, ht, ?_⟩
        refine ⟨luStamp isPs t (luPlace isPs n via row), ?_, ?_⟩
        · simp only [sqlUpdSub, List.map_map]
          refine List.mem_map.2 ⟨row, hr, ?_⟩
          simp [luPlace_id]
        · cases isPs
          · exact ⟨hi, hd, rfl, rfl, rfl⟩
          · exact ⟨hi, hd, rfl, rfl, rfl⟩
  · intro d _ sub h; simp at h
  · intro rc
    split
    · refine Post.pure ?_
      intro d _ sub h; simp at h
    · rename_i h0
      have h0 : rc = 0 := by simpa using h0
      subst h0
      refine Post.pure ?_
      intro d h sub hs
      simp only [Option.some.injEq, LuRes.wait.injEq] at hs
      exact ⟨hs.symm, h rfl⟩

/-- A procedure begins only for a subscriber that exists and may use the domain, when the
serving node has been stored. -/
theorem luStart_post (cfg : Cfg) (e : Env) (q : Req) :
    Post (fun _ => True) (luStartDb cfg e q) (fun o d => ∀ sub, o = some (.wait sub) →
      q.source.isEmpty = false ∧ sub.imsi = strlcpy 16 q.gsup.imsi ∧
      ∃ n via t, q.source.cstr = some n ∧ viaName q.viaProxy = some via ∧ e.now = some t
        ∧ Recorded d q.gsup.imsi (!q.gsup.isCs) n via t) := by
  have fail : ∀ c, Post (fun _ => True) (Pure.pure (.fail c) : DbM LuRes)
      (fun o d => ∀ sub, o = some (.wait sub) →
      q.source.isEmpty = false ∧ sub.imsi = strlcpy 16 q.gsup.imsi ∧
      ∃ n via t, q.source.cstr = some n ∧ viaName q.viaProxy = some via ∧ e.now = some t
        ∧ Recorded d q.gsup.imsi (!q.gsup.isCs) n via t) := by
    intro c
    refine Post.pure ?_
    intro d _ sub h; simp at h
  have ub : Post (fun _ => True) (Pure.pure .ub : DbM LuRes)
      (fun o d => ∀ sub, o = some (.wait sub) →
      q.source.isEmpty = false ∧ sub.imsi = strlcpy 16 q.gsup.imsi ∧
      ∃ n via t, q.source.cstr = some n ∧ viaName q.viaProxy = some via ∧ e.now = some t
        ∧ Recorded d q.gsup.imsi (!q.gsup.isCs) n via t) := by
    refine Post.pure ?_
    intro d _ sub h; simp at h
  unfold luStartDb
  refine Post.bind (fun _ _ => True) (fun _ _ => trivial) (by intro d _ sub h; simp at h) (fun _ => ?_)
  split
  · exact fail _
  · rename_i hs
    have hs : q.source.isEmpty = false := by simpa using hs
    refine Post.bind _ (getByImsi_post q.gsup.imsi) (by intro d _ sub h; simp at h) (fun r => ?_)
    split
    · exact (fail _).mono (fun _ _ => trivial) (fun _ _ h => h)
    · rename_i rc row
      dsimp only
      split
      · exact (fail _).mono (fun _ _ => trivial) (fun _ _ h => h)
      · rename_i hcs
        split
        · exact (fail _).mono (fun _ _ => trivial) (fun _ _ h => h)
        · rename_i hps
          have hdom : if (!q.gsup.isCs) = true then row.namPs = true else row.namCs = true := by
            have e1 : (HlrSubscr.ofRow row).namCs = row.namCs := rfl
            have e2 : (HlrSubscr.ofRow row).namPs = row.namPs := rfl
            rw [e1] at hcs
            rw [e2] at hps
            revert hcs hps
            cases q.gsup.isCs <;> cases row.namCs <;> cases row.namPs <;> simp
          have fin : ∀ n via, q.source.cstr = some n → viaName q.viaProxy = some via →
              Post (fun d => ∀ rc_1 row_1, some (rc, some row) = some (rc_1, some row_1) →
                  row_1 ∈ d.subs ∧ row_1.imsi = q.gsup.imsi)
                (do let rc ← subscrLu row.id n (!q.gsup.isCs) via e.now
                    if rc ≠ 0 then pure (.fail .netFail) else pure (.wait (HlrSubscr.ofRow row)) : DbM LuRes)
                (fun o d => ∀ sub, o = some (.wait sub) →
                  q.source.isEmpty = false ∧ sub.imsi = strlcpy 16 q.gsup.imsi ∧
                  ∃ n via t, q.source.cstr = some n ∧ viaName q.viaProxy = some via ∧ e.now = some t
                    ∧ Recorded d q.gsup.imsi (!q.gsup.isCs) n via t) := by
            intro n via hn hv w hw
            obtain ⟨hr, hi⟩ := hw rc row rfl
            intro sub h
            obtain ⟨h1, t, h2, h3⟩ := lu_post e q.gsup.imsi row n (!q.gsup.isCs) via hi hdom w hr sub h
            refine ⟨hs, ?_, n, via, t, hn, hv, h2, h3⟩
            rw [h1]
            show strlcpy 16 row.imsi = _
            rw [hi]
          split
          · exact ub.mono (fun _ _ => trivial) (fun _ _ h => h)
          · rename_i n hn hv
            exact fin n none hn (by rw [hv]; rfl)
          · rename_i n p hn hv
            split
            · rename_i hp
              exact fin n none hn (by rw [hv]; simp only [viaName]; rw [if_pos hp])
            · rename_i hp
              split
              · exact ub.mono (fun _ _ => trivial) (fun _ _ h => h)
              · rename_i pn hpn
                exact fin n (some pn) hn (by rw [hv]; simp only [viaName]; rw [if_neg hp, hpn]; rfl)

end Verif.Sys
