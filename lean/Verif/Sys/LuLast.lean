import Verif.Sys.LuHist
/-! # A location update goes on as long as nothing ends it -/
namespace Verif.Sys
open Verif Verif.Db Verif.Gsup Verif.Hlr

/-- Procedures keep their order, new ones (in `Φ`) come first, and one that is gone was
concluded (or the process was restarted). -/
def KFr (Φ : Lu → Prop) (s t : Sys) : Prop := ∃ l, t.log = l ++ s.log
  ∧ (∃ n, t.lus.Sublist (n ++ s.lus) ∧ ∀ x ∈ n, Φ x)
  ∧ ∀ lu ∈ s.lus, lu ∈ t.lus ∨ (∃ how, .concl lu.req.nr how ∈ l) ∨ .restart ∈ l

theorem KFr.same {Φ : Lu → Prop} {s t : Sys} (l : List Out) (h : t.log = l ++ s.log) (h' : t.lus = s.lus) : KFr Φ s t :=
  ⟨l, h, ⟨[], h' ▸ List.Sublist.refl _, by simp⟩, fun lu hl => .inl (h' ▸ hl)⟩

theorem KFr.trans {Φ : Lu → Prop} {s t u : Sys} (h : KFr Φ s t) (h' : KFr Φ t u) : KFr Φ s u := by
  obtain ⟨l, hl, ⟨n, hn, hΦ⟩, hk⟩ := h
  obtain ⟨l', hl', ⟨n', hn', hΦ'⟩, hk'⟩ := h'
  refine ⟨l' ++ l, by rw [hl', hl, List.append_assoc], ⟨n' ++ n, ?_, ?_⟩, ?_⟩
  · rw [List.append_assoc]
    exact hn'.trans (List.Sublist.append (List.Sublist.refl _) hn)
  · intro x hx
    rcases List.mem_append.1 hx with hx | hx
    · exact hΦ' x hx
    · exact hΦ x hx
  · intro lu hlu
    rcases hk lu hlu with h | ⟨how, h⟩ | h
    · rcases hk' lu h with h | ⟨how, h⟩ | h
      · exact .inl h
      · exact .inr (.inl ⟨how, List.mem_append_left _ h⟩)
      · exact .inr (.inr (List.mem_append_left _ h))
    · exact .inr (.inl ⟨how, List.mem_append_right _ h⟩)
    · exact .inr (.inr (List.mem_append_right _ h))

theorem sendReqResponse_adds (cfg : Cfg) (s : Sys) (q : Req) (m : Msg) :
    ∃ l, sendReqResponse cfg s q m = { s with log := l ++ s.log } := by
  unfold sendReqResponse
  split
  · exact ⟨[], rfl⟩
  · split
    · exact ⟨[_], rfl⟩
    · exact ⟨[], rfl⟩

theorem kfr_prims (cfg : Cfg) (Φ : Lu → Prop) : Prims cfg (fun _ => True) (KFr Φ) where
  refl _ := .same [] rfl rfl
  trans := KFr.trans
  db _ _ _ := .same [] rfl rfl
  ub _ := .same [] rfl rfl
  crash s := ⟨[.restart], rfl, ⟨[], List.nil_sublist _, by simp⟩, fun _ _ => .inr (.inr (by simp))⟩
  tx _ _ _ _ := .same [_] rfl rfl
  concl _ _ _ _ := .same [_] rfl rfl
  resp s q m _ _ := by
    obtain ⟨l, h⟩ := sendReqResponse_adds cfg s q m
    rw [h]
    exact .same l rfl rfl
  dg _ _ _ := .same [] rfl rfl
  pend _ _ _ := .same [] rfl rfl
  remote _ _ _ _ _ := .same [_] rfl rfl
  remoteTx _ _ _ _ := .same [_] rfl rfl
  remoteRx _ _ _ := .same [_] rfl rfl

/-- A final response, then the end of the procedure. -/
theorem kfr_end {Φ : Lu → Prop} {s t : Sys} (lu : Lu) {l : List Out} {how : How} (h : t.log = .concl lu.req.nr how :: l ++ s.log)
    (h' : t.lus = s.lus) : KFr Φ s { t with lus := t.lus.erase lu } := by
  refine ⟨_, h, ⟨[], ?_, by simp⟩, fun x hx => ?_⟩
  · rw [h']; exact List.erase_sublist
  · by_cases hxl : x = lu
    · exact .inr (.inl ⟨how, by rw [hxl]; simp⟩)
    · left
      show x ∈ t.lus.erase lu
      rw [h']
      exact (List.mem_erase_of_ne hxl).2 hx

theorem respond_final (cfg : Cfg) (s : Sys) (q : Req) (m : Msg) (er : Bool) :
    ∃ l, (respond cfg s q m er true).2 = { s with log := .concl q.nr .answered :: l ++ s.log } := by
  unfold respond
  dsimp only
  rw [if_pos rfl]
  split
  · exact ⟨[], rfl⟩
  · obtain ⟨l, h⟩ := sendReqResponse_adds cfg s q (makeResponse m q.gsup er true).2
    rw [h]
    exact ⟨l, rfl⟩

theorem respondErr_final (cfg : Cfg) (s : Sys) (q : Req) (c : Cause) :
    ∃ l how, respondErr cfg s q c = { s with log := .concl q.nr how :: l ++ s.log } := by
  unfold respondErr
  split
  · exact ⟨[], _, rfl⟩
  · obtain ⟨l, h⟩ := respond_final cfg s q { cause := some c } true
    exact ⟨l, _, h⟩

theorem kfr_luRx (cfg : Cfg) (Φ : Lu → Prop) (q : Req) (s : Sys) : KFr Φ s (luRxGsup cfg q s) := by
  have pr := kfr_prims cfg Φ
  unfold luRxGsup
  split
  · exact pr.respondErr _ trivial _
  · rename_i lu _
    split
    · dsimp only
      obtain ⟨l, h⟩ := respond_final cfg (reqFree s q .dropped) lu.req { typ := UPDATE_LOCATION + 2 } ((UPDATE_LOCATION + 2) % 4 == 1)
      refine KFr.trans (pr.reqFree s (q := q) trivial .dropped) ?_
      unfold respondMsgt
      rw [h]
      exact kfr_end (t := { reqFree s q .dropped with log := .concl lu.req.nr .answered :: l ++ (reqFree s q .dropped).log }) lu rfl rfl
    · split
      · dsimp only
        obtain ⟨l, how, h⟩ := respondErr_final cfg s lu.req .netFail
        rw [h]
        refine KFr.trans (kfr_end (t := { s with log := .concl lu.req.nr how :: l ++ s.log }) lu rfl rfl) ?_
        exact pr.reqFree _ trivial _
      · exact pr.respondErr _ trivial _

theorem kfr_timeout (cfg : Cfg) (Φ : Lu → Prop) (nr : Nat) (s : Sys) : KFr Φ s (luTimeout cfg nr s) := by
  unfold luTimeout
  split
  · exact .same [] rfl rfl
  · rename_i lu _
    dsimp only
    obtain ⟨l, how, h⟩ := respondErr_final cfg s lu.req .netFail
    rw [h]
    exact kfr_end (t := { s with log := .concl lu.req.nr how :: l ++ s.log }) lu rfl rfl

theorem kfr_readCb (cfg : Cfg) (e : Env) (k : Conn) (q : Req) (s : Sys) :
    KFr (fun lu => q.gsup.typ = UPDATE_LOCATION ∧ lu.req = q) s (readCb cfg e k q s) := by
  have pr := kfr_prims cfg (fun lu => q.gsup.typ = UPDATE_LOCATION ∧ lu.req = q)
  refine pr.readCb e k trivial ?_ ?_ (kfr_luRx _ _ _ _) (fun _ _ => trivial)
  · intro ht
    refine pr.updLoc e trivial k (.same [] rfl rfl) (fun t lu hq => ⟨[], rfl, ⟨[lu], List.Sublist.refl _, ?_⟩, ?_⟩)
    · intro x hx
      rw [List.mem_singleton.1 hx]
      exact ⟨ht, hq⟩
    · exact fun x hx => .inl (List.mem_cons_of_mem _ hx)
  · intro h
    exact pr.procSs (fun _ _ _ => .same [] rfl rfl) e trivial h (fun _ _ _ _ => trivial)

/-- The procedures after an event: those before, without those that were concluded, in the same
order, behind at most new ones. -/
theorem step_kfr (cfg : Cfg) (s : Sys) (ev : Ev) :
    KFr (fun lu => ∃ c e, ev = .rx c (some lu.req.gsup) e ∧ lu.req.gsup.typ = UPDATE_LOCATION) s (step cfg s ev) := by
  unfold step
  split
  · exact .same [] rfl rfl
  · cases ev with
    | connect => exact .same [_] rfl rfl
    | ccm c sernr =>
      dsimp only
      split
      · exact .same [] rfl rfl
      · unfold ccmCb
        split
        · exact .same [_] rfl rfl
        · exact .same [_] rfl rfl
        · exact .same [] rfl rfl
    | close c =>
      dsimp only
      split
      · exact .same [] rfl rfl
      · exact .same [_] rfl rfl
    | rx c mo e =>
      have pr := kfr_prims cfg (fun lu => ∃ c' e', Ev.rx c mo e = .rx c' (some lu.req.gsup) e' ∧ lu.req.gsup.typ = UPDATE_LOCATION)
      show KFr _ s (rx cfg e c mo s)
      unfold rx
      split
      · exact .same [] rfl rfl
      · rename_i k _
        dsimp only
        split
        · exact .same [_, _] rfl rfl
        · rename_i m
          have h0 : ∀ rs, KFr (fun lu => ∃ c' e', Ev.rx c (some m) e = .rx c' (some lu.req.gsup) e' ∧ lu.req.gsup.typ = UPDATE_LOCATION) s
              { s with nextReq := s.nextReq + 1, routes := rs, log := .rx s.nextReq c (some m) :: s.log } := fun rs => .same [_] rfl rfl
          have go : ∀ rs, KFr (fun lu => ∃ c' e', Ev.rx c (some m) e = .rx c' (some lu.req.gsup) e' ∧ lu.req.gsup.typ = UPDATE_LOCATION) s
              (readCb cfg e k (mkReq k s.nextReq m) { s with nextReq := s.nextReq + 1, routes := rs, log := .rx s.nextReq c (some m) :: s.log }) := by
            intro rs
            refine (h0 rs).trans ?_
            obtain ⟨l, h1, ⟨n, h2, h3⟩, h4⟩ := kfr_readCb cfg e k (mkReq k s.nextReq m)
              { s with nextReq := s.nextReq + 1, routes := rs, log := .rx s.nextReq c (some m) :: s.log }
            refine ⟨l, h1, ⟨n, h2, fun x hx => ?_⟩, h4⟩
            obtain ⟨h5, h6⟩ := h3 x hx
            have hg : (mkReq k s.nextReq m).gsup = m := by unfold mkReq; split <;> rfl
            rw [h6, hg]
            rw [hg] at h5
            exact ⟨c, e, rfl, h5⟩
          split
          · refine (h0 s.routes).trans ?_
            obtain ⟨l, h⟩ := respond_final cfg { s with nextReq := s.nextReq + 1, log := .rx s.nextReq c (some m) :: s.log }
              { nr := s.nextReq, conn := c, gsup := m, source := k.name } { typ := ROUTING_ERROR } (ROUTING_ERROR % 4 == 1)
            unfold respondMsgt
            rw [h]
            exact .same _ rfl rfl
          · split
            · exact (h0 s.routes).trans (pr.respondErr _ trivial _)
            · unfold connRx
              split
              · exact go s.routes
              · dsimp only
                split
                · refine (h0 (routeAdd s.routes k.id (mkReq k s.nextReq m).source.name).2).trans ?_
                  obtain ⟨l, h⟩ := respond_final cfg { s with nextReq := s.nextReq + 1, routes := (routeAdd s.routes k.id (mkReq k s.nextReq m).source.name).2, log := .rx s.nextReq c (some m) :: s.log }
                    (mkReq k s.nextReq m) { typ := ROUTING_ERROR } (ROUTING_ERROR % 4 == 1)
                  unfold respondMsgt
                  rw [h]
                  exact .same _ rfl rfl
                · exact go _
    | luTimeout nr => exact kfr_timeout cfg _ nr s
    | ssTimeout imsi id => exact (kfr_prims cfg _).ssTimeout (fun _ _ _ => .same [] rfl rfl) imsi id (fun _ _ _ _ => trivial)
    | db op sc => exact (kfr_prims cfg _).withDb (api_op trivial) ((kfr_prims cfg _).refl s) (fun a d _ h => h)
    | notify imsi sc =>
      refine (kfr_prims cfg _).withDb (api_getByImsi _) ((kfr_prims cfg _).refl s) (fun a d _ h => ?_)
      split
      · exact KFr.trans h ((kfr_prims cfg _).notify _ _ _)
      · exact h
    | nam imsi val isPs sc sc' =>
      refine (kfr_prims cfg _).withDb (api_getByImsi _) ((kfr_prims cfg _).refl s) (fun a d _ h => ?_)
      split
      · exact KFr.trans h ((kfr_prims cfg _).nam _ _ _ _ _)
      · exact h
    | remoteUp a => exact ((kfr_prims cfg _).remoteUp a s (fun _ _ => trivial)).1
    | remoteDown a => exact ((kfr_prims cfg _).remoteDown a s (fun _ _ => trivial)).1
    | remoteLost a => exact ((kfr_prims cfg _).remoteLost a s (fun _ _ => trivial)).1
    | remoteRx a m e => exact ((kfr_prims cfg _).rxRemote e a m s trivial (fun _ _ => trivial)).1
    | lookup imsi res e => exact ((kfr_prims cfg _).lookupResult e imsi res s (fun _ _ => trivial)).1
    | proxyGc clock => exact ((kfr_prims cfg _).setProxy s _ (fun _ _ => trivial)).1
    | kill => exact (kfr_prims cfg _).crash s

end Verif.Sys
