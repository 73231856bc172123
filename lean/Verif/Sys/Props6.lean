import Verif.Sys.Props5
/-!
# Property theorems C38 and C40 (distributed GSM)
-/
namespace Verif.Sys.Props
open Verif Verif.Db Verif.Gsup Verif.Hlr

/-! ## Which HLR -/

theorem byImsi_remove_ne {imsi imsi' : Bytes} (hne : imsi' ≠ imsi) (l : List ProxyEntry) :
    proxyByImsi (proxyRemove imsi l) imsi' = proxyByImsi l imsi' := by
  induction l with
  | nil => rfl
  | cons y l ih =>
    unfold proxyRemove
    split
    · rename_i hy
      have hy' : y.data.imsi = imsi := by simpa using hy
      unfold proxyByImsi
      rw [List.find?_cons_of_neg (by simp [hy', hne.symm])]
    · unfold proxyByImsi at ih ⊢
      by_cases c : y.data.imsi = imsi'
      · rw [List.find?_cons_of_pos (by simp [c]), List.find?_cons_of_pos (by simp [c])]
      · rw [List.find?_cons_of_neg (by simp [c]), List.find?_cons_of_neg (by simp [c]), ih]

/-- The address of the home HLR in the entry of the subscriber. -/
def addrOf (l : List ProxyEntry) (imsi : Bytes) : Option Addr := (proxyByImsi l imsi).map (·.addr)

theorem addrOf_put (clk : Int) (d : ProxySub) (s : Sys) (imsi : Bytes) :
    addrOf (proxyPut clk d s).proxy imsi = if imsi = d.imsi then some d.addr else addrOf s.proxy imsi := by
  unfold addrOf
  split
  · rename_i h; rw [h, byImsi_put]; rfl
  · rename_i h; rw [byImsi_put_ne clk d s h]

/-- The subscriber's home HLR is known to be at `a`. -/
def HomeAt (s : Sys) (imsi : Bytes) (a : Addr) : Prop := ∃ x ∈ s.proxy, x.data.imsi = imsi ∧ x.data.addr = a

instance (s : Sys) (imsi : Bytes) (a : Addr) : Decidable (HomeAt s imsi a) :=
  inferInstanceAs (Decidable (∃ x ∈ s.proxy, _))

theorem isFor_iff (a : Addr) (s : Sys) (q : Req) : isFor a s.proxy q = true ↔ HomeAt s q.gsup.imsi a := by
  unfold isFor HomeAt
  rw [List.any_eq_true]
  constructor
  · rintro ⟨x, hx, h⟩
    have h' : x.data.addr = a ∧ q.gsup.imsi = x.data.imsi := by simpa using h
    exact ⟨x, hx, h'.2.symm, h'.1⟩
  · rintro ⟨x, hx, h1, h2⟩
    exact ⟨x, hx, by simp [h1, h2]⟩

theorem homeAt_iff {s : Sys} (hn : (s.proxy.map (·.data.imsi)).Nodup) (imsi : Bytes) (a : Addr) :
    HomeAt s imsi a ↔ addrOf s.proxy imsi = some a := by
  unfold HomeAt addrOf
  constructor
  · rintro ⟨x, hx, h1, h2⟩
    cases hf : proxyByImsi s.proxy imsi with
    | none => exact absurd h1 (byImsi_none hf x hx)
    | some d =>
      have := byImsi_mem hn hx (d := d) (by rw [h1]; exact hf)
      rw [← this, ← h2]; rfl
  · intro h
    obtain ⟨d, hd, h2⟩ := Option.map_eq_some_iff.1 h
    obtain ⟨h1, x, hx, rfl⟩ := byImsi_some hd
    exact ⟨x, hx, h1, h2⟩

/-! ## C38: deferred requests -/

/-- All that is written when requests are passed on to the HLR at `a` one after the other
(the log has the newest entry first). -/
def passed (a : Addr) (p : List Req) : List Out :=
  p.reverse.flatMap fun q => [.concl q.nr .forwarded, .remote a { q.gsup with src := q.source.name } (some q.nr)]

/-- What a node is told when the home HLR of its subscriber cannot be asked: the IMEI is
accepted, any other request is refused with the configured cause. -/
structure Refusal (cfg : Cfg) (m M : Msg) : Prop where
  imsi : M.imsi = m.imsi
  imei : m.typ = CHECK_IMEI → M.typ = CHECK_IMEI + 2 ∧ M.imeiAck = true
  err : m.typ ≠ CHECK_IMEI → M.typ = toError m.typ ∧ M.cause = some cfg.noProxyCause

/-- `l` is what is written when the request `q` is refused: the answer goes to the
connection under which the sender is registered. -/
def Refused (cfg : Cfg) (rs : List (Bytes × ConnId)) (q : Req) (l : List Out) : Prop :=
  (isRequest q.gsup.typ = true → toError q.gsup.typ ≠ ROUTING_ERROR → ∃ M, Refusal cfg q.gsup M
    ∧ l = .concl q.nr .answered :: (routeFind rs q.source.name).toList.map (fun c => .tx c M (some q.nr)))
  ∧ (isRequest q.gsup.typ = false → l = [.concl q.nr .dropped])

theorem letGo_some (cfg : Cfg) (henc : ∀ m, cfg.enc m = true) (rs : List (Bytes × ConnId)) (a : Addr) (q : Req) :
    letGo cfg rs (some a) q = [.concl q.nr .forwarded, .remote a { q.gsup with src := q.source.name } (some q.nr)] := by
  unfold letGo connectResult forwardToRemote
  dsimp only
  rw [if_pos (henc _)]
  rfl

theorem letGo_none (cfg : Cfg) (henc : ∀ m, cfg.enc m = true) (rs : List (Bytes × ConnId)) (q : Req) :
    Refused cfg rs q (letGo cfg rs none q) := by
  unfold letGo connectResult
  dsimp only
  split
  · rename_i ht
    refine ⟨fun _ _ => ?_, fun h => by rw [ht] at h; exact absurd h (by decide)⟩
    rw [respond_final cfg _ q _ _ henc rfl rfl rfl rfl (by simp [fillResponse]; decide)]
    refine ⟨fillResponse { typ := CHECK_IMEI + 2, imeiAck := true } q.gsup false true,
      ⟨?_, fun _ => ⟨?_, ?_⟩, fun h => absurd ht h⟩, by simp [answer]⟩
    all_goals simp [fillResponse]
  · rename_i ht
    refine ⟨fun hreq hne => ?_, fun h => ?_⟩
    · rw [respondErr_final cfg _ q _ henc hreq hne]
      refine ⟨fillResponse { cause := some cfg.noProxyCause } q.gsup true true,
        ⟨?_, fun h => absurd h ht, fun _ => ⟨?_, ?_⟩⟩, by simp [answer]⟩
      all_goals simp [fillResponse]
    · unfold respondErr
      rw [if_pos (by simp [h])]
      rfl

theorem waitFor_filter (a : Addr) (l : List ProxyEntry) (hn : (l.map (·.data.imsi)).Nodup) (p : List Req) (imsi : Bytes) :
    ((∃ x ∈ l, x.data.imsi = imsi ∧ x.data.addr = a) →
      (waitFor a l p).filter (·.gsup.imsi == imsi) = p.filter (·.gsup.imsi == imsi))
    ∧ (¬ (∃ x ∈ l, x.data.imsi = imsi ∧ x.data.addr = a) → (waitFor a l p).filter (·.gsup.imsi == imsi) = []) := by
  unfold waitFor
  induction l with
  | nil => exact ⟨fun ⟨x, hx, _⟩ => (by cases hx), fun _ => rfl⟩
  | cons x l ih =>
    rw [List.map_cons, List.nodup_cons] at hn
    have key : ∀ w ∈ l, w.data.imsi ≠ x.data.imsi := fun w hw he => hn.1 (List.mem_map.2 ⟨w, hw, he⟩)
    obtain ⟨ih1, ih2⟩ := ih hn.2
    by_cases c : x.data.addr = a
    · rw [List.filter_cons_of_pos (by simpa using c), List.flatMap_cons, List.filter_append]
      by_cases hi : x.data.imsi = imsi
      · rw [ih2 (fun ⟨w, hw, h1, _⟩ => key w hw (h1.trans hi.symm))]
        refine ⟨fun _ => ?_, fun h => absurd ⟨x, by simp, hi, c⟩ h⟩
        rw [List.append_nil, List.filter_filter, hi]
        simp
      · have : (p.filter (fun q => q.gsup.imsi == x.data.imsi)).filter (·.gsup.imsi == imsi) = [] := by
          rw [List.filter_filter, List.filter_eq_nil_iff]
          intro q _ hq
          have : q.gsup.imsi = imsi ∧ q.gsup.imsi = x.data.imsi := by simpa using hq
          exact hi (this.2.symm.trans this.1)
        rw [this, List.nil_append]
        refine ⟨fun ⟨w, hw, h1, h2⟩ => ih1 ?_, fun h => ih2 fun ⟨w, hw, h1⟩ => h ⟨w, List.mem_cons_of_mem _ hw, h1⟩⟩
        rcases List.mem_cons.1 hw with h3 | h3
        · rw [h3] at h1; exact absurd h1 hi
        · exact ⟨w, h3, h1, h2⟩
    · rw [List.filter_cons_of_neg (by simpa using c)]
      refine ⟨fun ⟨w, hw, h1, h2⟩ => ih1 ?_, fun h => ih2 fun ⟨w, hw, h1⟩ => h ⟨w, List.mem_cons_of_mem _ hw, h1⟩⟩
      rcases List.mem_cons.1 hw with h3 | h3
      · rw [h3] at h2; exact absurd h2 c
      · exact ⟨w, h3, h1, h2⟩

/-- Requests are let go in the order of their arrival, subscriber by subscriber. -/
theorem waitFor_order (a : Addr) (s : Sys) (hn : (s.proxy.map (·.data.imsi)).Nodup) (p : List Req) (imsi : Bytes) :
    (waitFor a s.proxy p).filter (·.gsup.imsi == imsi)
      = if HomeAt s imsi a then p.filter (·.gsup.imsi == imsi) else [] := by
  obtain ⟨h1, h2⟩ := waitFor_filter a s.proxy hn p imsi
  by_cases c : HomeAt s imsi a
  · rw [if_pos c]; exact h1 c
  · rw [if_neg c]; exact h2 c

theorem remote_set_same {s : Sys} {r r' : Remote} (h : s.remote? r'.addr = some r) :
    (setRemote r' s).remote? r'.addr = some r' := by
  unfold Sys.remote? setRemote at *
  dsimp only
  generalize s.remotes = l at h
  induction l with
  | nil => cases h
  | cons x l ih =>
    rw [List.map_cons]
    by_cases c : x.addr = r'.addr
    · rw [if_pos (by simp [c]), List.find?_cons_of_pos (by simp)]
    · rw [if_neg (by simp [c]), List.find?_cons_of_neg (by simp [c])]
      rw [List.find?_cons_of_neg (by simp [c])] at h
      exact ih h

theorem remote_set_ne {s : Sys} {r' : Remote} {a : Addr} (hne : a ≠ r'.addr) : (setRemote r' s).remote? a = s.remote? a := by
  unfold Sys.remote? setRemote
  dsimp only
  generalize s.remotes = l
  induction l with
  | nil => rfl
  | cons x l ih =>
    rw [List.map_cons]
    by_cases c : x.addr = r'.addr
    · rw [if_pos (by simp [c]), List.find?_cons_of_neg (by simp [hne.symm]),
        List.find?_cons_of_neg (by simp [c, hne.symm]), ih]
    · rw [if_neg (by simp [c])]
      by_cases c2 : x.addr = a
      · rw [List.find?_cons_of_pos (by simp [c2]), List.find?_cons_of_pos (by simp [c2])]
      · rw [List.find?_cons_of_neg (by simp [c2]), List.find?_cons_of_neg (by simp [c2]), ih]

theorem remote_addr {s : Sys} {a : Addr} {r : Remote} (h : s.remote? a = some r) : r.addr = a := by
  have := List.find?_some h
  simpa using this

/-- The requests of `p` whose subscriber's home HLR is at `a` (in the state `s`) are
`p'`: complete, and for each subscriber in the order of arrival. -/
def AllFor (s : Sys) (a : Addr) (p p' : List Req) : Prop :=
  ∀ imsi, p'.filter (·.gsup.imsi == imsi) = if HomeAt s imsi a then p.filter (·.gsup.imsi == imsi) else []

theorem filter_isFor (a : Addr) (s : Sys) (p : List Req) :
    p.filter (fun q => !isFor a s.proxy q) = p.filter (fun q => !decide (HomeAt s q.gsup.imsi a)) := by
  apply List.filter_congr
  intro q _
  congr 1
  rw [Bool.eq_iff_iff, isFor_iff, decide_eq_true_iff]

theorem passed_eq (cfg : Cfg) (henc : ∀ m, cfg.enc m = true) (rs : List (Bytes × ConnId)) (a : Addr) (p : List Req) :
    p.reverse.flatMap (letGo cfg rs (some a)) = passed a p := by
  unfold passed
  congr 1
  funext q
  exact letGo_some cfg henc rs a q

/-- The link to a remote HLR comes up: everything waiting for that HLR is passed on to it,
each request once, for each subscriber in the order of arrival; nothing else happens. -/
theorem c38_link_up {cfg : Cfg} {s : Sys} (h : Reach s) (hu : s.ub = false) {a : Addr} {r : Remote}
    (hr : s.remote? a = some r) (hw : 0 < r.cbs) (henc : ∀ m, cfg.enc m = true) :
    ∃ p, AllFor s a s.pending p
      ∧ (step cfg s (.remoteUp a)).log = passed a p ++ s.log
      ∧ (step cfg s (.remoteUp a)).pending = s.pending.filter (fun q => !decide (HomeAt s q.gsup.imsi a)) := by
  have hn := c37_one_entry h
  have hs : step cfg s (.remoteUp a) = connectResultCb cfg a true (setRemote { r with up := true, cbs := 0 } s) := by
    unfold step
    rw [if_neg (by simp [hu])]
    show remoteUp cfg a s = _
    unfold remoteUp
    rw [hr]
    dsimp only
    obtain ⟨n, hn'⟩ : ∃ n, r.cbs = n + 1 := ⟨r.cbs - 1, by omega⟩
    rw [hn']
    exact repeatCb_eq cfg a true n (setRemote _ s) hn
  rw [hs, connectResultCb_eq cfg a true (setRemote { r with up := true, cbs := 0 } s) hn]
  refine ⟨waitFor a s.proxy s.pending, waitFor_order a s hn _, ?_, filter_isFor a s s.pending⟩
  show _ ++ s.log = _
  rw [← passed_eq cfg henc s.routes]
  rfl

/-- A lookup without a result: all waiting requests of the subscriber are refused, in the
order of their arrival; all others go on waiting. -/
theorem c38_failed {cfg : Cfg} {s : Sys} (hu : s.ub = false) {imsi : Bytes} {res : Option (Addr × Addr)} (hf : Failed res)
    (e : Env) (henc : ∀ m, cfg.enc m = true) :
    ∃ f, (∀ q, Refused cfg s.routes q (f q))
      ∧ (step cfg s (.lookup imsi res e)).log
        = (s.pending.filter (·.gsup.imsi == imsi)).reverse.flatMap f ++ s.log
      ∧ (step cfg s (.lookup imsi res e)).pending = s.pending.filter (fun q => !(q.gsup.imsi == imsi)) := by
  have hs : step cfg s (.lookup imsi res e) = proxyDel cfg imsi s := by
    unfold step
    rw [if_neg (by simp [hu])]
    show lookupResult cfg e imsi res s = _
    unfold lookupResult
    cases res with
    | none => rfl
    | some v =>
      obtain ⟨h4, h6⟩ := hf v rfl
      dsimp only
      rw [if_pos (by simp [h4, h6])]
  rw [hs]
  unfold proxyDel
  rw [deferredPop_eq]
  exact ⟨letGo cfg s.routes none, letGo_none cfg henc _, rfl, rfl⟩

/-- The address that a lookup result stands for: IPv4 if there is one. -/
def foundAddr (v : Addr × Addr) : Addr := if v.1.nonzero then v.1 else v.2

section
variable {cfg : Cfg} {s : Sys} (h : Reach s) (hu : s.ub = false) {imsi : Bytes} {v : Addr × Addr} (e : Env)
  (hv : (foundAddr v).nonzero = true) {x : ProxyEntry} (hx : x ∈ s.proxy) (hi : x.data.imsi = imsi)
  (hnew : x.data.addr ≠ foundAddr v) (hwait : ∃ q ∈ s.pending, q.gsup.imsi = imsi)
include h hu hv hx hi hnew hwait

theorem found_eq : step cfg s (.lookup imsi (some v) e)
    = connectRemote cfg e (foundAddr v) (proxyPut e.clock { x.data with addr := foundAddr v } s) := by
  have hlk := (c37_lookup h imsi x.data).1.2 ⟨hi, x, hx, rfl⟩
  unfold step
  rw [if_neg (by simp [hu])]
  show lookupResult cfg e imsi (some v) s = _
  unfold lookupResult
  dsimp only
  have hnz : (v.1.nonzero || v.2.nonzero) = true := by
    unfold foundAddr at hv
    split at hv
    · rename_i c; simp [c]
    · simp [hv]
  rw [if_neg (by simp [hnz]), hlk]
  dsimp only
  unfold remoteResolved
  rw [if_neg (fun hc => hnew hc.2)]
  dsimp only
  rw [if_pos]
  · rfl
  · obtain ⟨q, hq, hqi⟩ := hwait
    exact List.any_eq_true.2 ⟨q, hq, by simp [hqi, hi]⟩

omit hu hv hnew hwait in
theorem found_home : HomeAt (proxyPut e.clock { x.data with addr := foundAddr v } s) imsi (foundAddr v)
    ∧ ((proxyPut e.clock { x.data with addr := foundAddr v } s).proxy.map (·.data.imsi)).Nodup := by
  have hn := c37_one_entry h
  have hn' : ((proxyPut e.clock { x.data with addr := foundAddr v } s).proxy.map (·.data.imsi)).Nodup :=
    (grows_put (clk := e.clock) (L := fun _ _ _ => True) (V := fun _ _ _ => True)
      (SubOk.addr (SubOk.of_mem hx) (foundAddr v))).nodup hn
  refine ⟨(homeAt_iff hn' _ _).2 ?_, hn'⟩
  rw [addrOf_put, if_pos hi.symm]

/-- A lookup finds the home HLR of a subscriber with waiting requests, and the link to it
is up: the requests (and all others waiting for that HLR) are passed on to it, for each
subscriber in the order of their arrival. -/
theorem c38_found_linked {r : Remote} (hr : s.remote? (foundAddr v) = some r) (hup : r.up = true)
    (henc : ∀ m, cfg.enc m = true) :
    let t := step cfg s (.lookup imsi (some v) e)
    HomeAt t imsi (foundAddr v)
    ∧ ∃ p, AllFor t (foundAddr v) s.pending p ∧ t.log = passed (foundAddr v) p ++ s.log
      ∧ t.pending = s.pending.filter (fun q => !decide (HomeAt t q.gsup.imsi (foundAddr v))) := by
  dsimp only
  rw [found_eq h hu e hv hx hi hnew hwait]
  obtain ⟨hh, hn⟩ := found_home h e (v := v) hx hi
  have hc : connectRemote cfg e (foundAddr v) (proxyPut e.clock { x.data with addr := foundAddr v } s)
      = connectResultCb cfg (foundAddr v) true (proxyPut e.clock { x.data with addr := foundAddr v } s) := by
    unfold connectRemote
    rw [show Sys.remote? (proxyPut e.clock { x.data with addr := foundAddr v } s) (foundAddr v) = some r from hr]
    dsimp only
    rw [if_pos hup]
  rw [hc, connectResultCb_eq _ _ _ _ hn]
  refine ⟨hh, waitFor (foundAddr v) (proxyPut e.clock { x.data with addr := foundAddr v } s).proxy s.pending,
    waitFor_order (foundAddr v) (proxyPut e.clock { x.data with addr := foundAddr v } s) hn _, ?_, ?_⟩
  · show _ ++ s.log = _
    rw [← passed_eq cfg henc s.routes]
    rfl
  · exact filter_isFor (foundAddr v) (proxyPut e.clock { x.data with addr := foundAddr v } s) s.pending

/-- A lookup finds the home HLR, the link to it is not up (yet): the link is being set up,
nothing is lost, nothing is sent. -/
theorem c38_found_unlinked (hr : ∀ r, s.remote? (foundAddr v) = some r → r.up = false)
    (hok : s.remote? (foundAddr v) = none → e.connectOk = true) :
    let t := step cfg s (.lookup imsi (some v) e)
    HomeAt t imsi (foundAddr v) ∧ t.log = s.log ∧ t.pending = s.pending
    ∧ ∃ r, t.remote? (foundAddr v) = some r ∧ r.up = false ∧ 0 < r.cbs := by
  dsimp only
  rw [found_eq h hu e hv hx hi hnew hwait]
  obtain ⟨hh, hn⟩ := found_home h e (v := v) hx hi
  unfold connectRemote
  cases hr' : s.remote? (foundAddr v) with
  | none =>
    rw [show Sys.remote? (proxyPut e.clock { x.data with addr := foundAddr v } s) (foundAddr v) = none from hr']
    dsimp only
    rw [if_pos (hok hr')]
    refine ⟨hh, rfl, rfl, { addr := foundAddr v, cbs := 1 }, ?_, rfl, Nat.zero_lt_one⟩
    unfold Sys.remote?
    rw [List.find?_cons_of_pos (by simp)]
  | some r =>
    rw [show Sys.remote? (proxyPut e.clock { x.data with addr := foundAddr v } s) (foundAddr v) = some r from hr']
    dsimp only
    rw [if_neg (by simp [hr r hr'])]
    refine ⟨hh, rfl, rfl, { r with cbs := r.cbs + 1 }, ?_, hr r hr', by simp⟩
    have ha := remote_addr hr'
    rw [← ha] at hr' ⊢
    exact remote_set_same (s := proxyPut e.clock { x.data with addr := foundAddr v } s) (r' := { r with cbs := r.cbs + 1 }) hr'

/-- A lookup finds the home HLR, but no link can be set up: the requests waiting for it are
refused. -/
theorem c38_found_no_link (hr : s.remote? (foundAddr v) = none) (hno : e.connectOk = false)
    (henc : ∀ m, cfg.enc m = true) :
    let t := step cfg s (.lookup imsi (some v) e)
    HomeAt t imsi (foundAddr v)
    ∧ ∃ p f, AllFor t (foundAddr v) s.pending p ∧ (∀ q, Refused cfg s.routes q (f q)) ∧ t.log = p.reverse.flatMap f ++ s.log
      ∧ t.pending = s.pending.filter (fun q => !decide (HomeAt t q.gsup.imsi (foundAddr v))) := by
  dsimp only
  rw [found_eq h hu e hv hx hi hnew hwait]
  obtain ⟨hh, hn⟩ := found_home h e (v := v) hx hi
  have hc : connectRemote cfg e (foundAddr v) (proxyPut e.clock { x.data with addr := foundAddr v } s)
      = connectResultCb cfg (foundAddr v) false (proxyPut e.clock { x.data with addr := foundAddr v } s) := by
    unfold connectRemote
    rw [show Sys.remote? (proxyPut e.clock { x.data with addr := foundAddr v } s) (foundAddr v) = none from hr]
    dsimp only
    rw [if_neg (by simp [hno])]
  rw [hc, connectResultCb_eq _ _ _ _ hn]
  refine ⟨hh, waitFor (foundAddr v) (proxyPut e.clock { x.data with addr := foundAddr v } s).proxy s.pending,
    letGo cfg s.routes none,
    waitFor_order (foundAddr v) (proxyPut e.clock { x.data with addr := foundAddr v } s) hn _,
    letGo_none cfg henc _, rfl, ?_⟩
  exact filter_isFor (foundAddr v) (proxyPut e.clock { x.data with addr := foundAddr v } s) s.pending
end

/-! ### Nothing waits in vain -/

/-- Something will come of the request: the home HLR is being looked up, or the link to it
is being set up and its arrival will let the request go. -/
def Pends (s : Sys) (a : Addr) : Prop :=
  a.nonzero = false ∨ ∃ r, s.remote? a = some r ∧ r.up = false ∧ 0 < r.cbs

def Waits (s : Sys) : Prop := ∀ q ∈ s.pending, ∃ a, addrOf s.proxy q.gsup.imsi = some a ∧ Pends s a

/-- As `Waits`, except for requests waiting for the HLR at `b`. -/
def WaitsBut (b : Addr) (s : Sys) : Prop :=
  ∀ q ∈ s.pending, ∃ a, addrOf s.proxy q.gsup.imsi = some a ∧ (a = b ∨ Pends s a)

theorem Waits.but {s : Sys} (h : Waits s) (b : Addr) : WaitsBut b s := fun q hq => by
  obtain ⟨a, h1, h2⟩ := h q hq
  exact ⟨a, h1, .inr h2⟩

theorem waits_cb {cfg : Cfg} {s : Sys} (hn : (s.proxy.map (·.data.imsi)).Nodup) {b : Addr} (h : WaitsBut b s) (up : Bool) :
    Waits (connectResultCb cfg b up s) := by
  rw [connectResultCb_eq _ _ _ _ hn]
  intro q hq
  obtain ⟨hq1, hq2⟩ := List.mem_filter.1 hq
  obtain ⟨a, h1, h2⟩ := h q hq1
  refine ⟨a, h1, ?_⟩
  rcases h2 with h2 | h2
  · exfalso
    rw [← h2] at hq2
    have := (isFor_iff a s q).2 ((homeAt_iff hn _ _).2 h1)
    rw [this] at hq2
    cases hq2
  · exact h2

theorem waits_connect {cfg : Cfg} {e : Env} {s : Sys} (hn : (s.proxy.map (·.data.imsi)).Nodup) {b : Addr} (h : WaitsBut b s) :
    Waits (connectRemote cfg e b s) := by
  unfold connectRemote
  cases hr : s.remote? b with
  | none =>
    dsimp only
    split
    · intro q hq
      obtain ⟨a, h1, h2⟩ := h q hq
      refine ⟨a, h1, ?_⟩
      by_cases c : a = b
      · refine .inr ⟨{ addr := b, cbs := 1 }, ?_, rfl, Nat.zero_lt_one⟩
        unfold Sys.remote?
        rw [c, List.find?_cons_of_pos (by simp)]
      · rcases h2 with h2 | h2 | ⟨r, h2, h3⟩
        · exact absurd h2 c
        · exact .inl h2
        · refine .inr ⟨r, ?_, h3⟩
          unfold Sys.remote?
          rw [List.find?_cons_of_neg (by simp [Ne.symm c])]
          exact h2
    · exact waits_cb hn h false
  | some r =>
    dsimp only
    split
    · exact waits_cb hn h true
    · rename_i hup
      intro q hq
      obtain ⟨a, h1, h2⟩ := h q hq
      refine ⟨a, h1, ?_⟩
      have hb := remote_addr hr
      by_cases c : a = b
      · refine .inr ⟨{ r with cbs := r.cbs + 1 }, ?_, by simpa using hup, by simp⟩
        rw [c, ← hb]
        rw [← hb] at hr
        exact remote_set_same (r' := { r with cbs := r.cbs + 1 }) hr
      · rcases h2 with h2 | h2 | ⟨r', h2, h3⟩
        · exact absurd h2 c
        · exact .inl h2
        · refine .inr ⟨r', ?_, h3⟩
          rw [remote_set_ne (by rw [hb]; exact c)]
          exact h2

theorem nodup_put {s : Sys} (hn : (s.proxy.map (·.data.imsi)).Nodup) (clk : Int) (d : ProxySub) :
    ((proxyPut clk d s).proxy.map (·.data.imsi)).Nodup :=
  (grows_put (clk := clk) (L := fun _ _ _ => True) (V := fun _ _ _ => True) (s := s) (d := d)
    ⟨fun _ => .inr (.inr trivial), fun _ => .inr (.inr trivial)⟩).nodup hn

/-- An entry is changed, but for the address. -/
theorem waits_put {s : Sys} (h : Waits s) {clk : Int} {d : ProxySub} (hd : addrOf s.proxy d.imsi = some d.addr) :
    Waits (proxyPut clk d s) := by
  intro q hq
  obtain ⟨a, h1, h2⟩ := h q hq
  refine ⟨a, ?_, h2⟩
  rw [addrOf_put]
  split
  · rename_i c
    rw [c, hd] at h1
    exact h1
  · exact h1

theorem waits_resolved {cfg : Cfg} {e : Env} {s : Sys} (hn : (s.proxy.map (·.data.imsi)).Nodup) (h : Waits s)
    (d : ProxySub) (b : Addr) : Waits (remoteResolved cfg e d b s) := by
  unfold remoteResolved
  split
  · exact h
  · dsimp only
    split
    · refine waits_connect (nodup_put hn _ _) ?_
      intro q hq
      obtain ⟨a, h1, h2⟩ := h q hq
      by_cases c : q.gsup.imsi = d.imsi
      · refine ⟨b, ?_, .inl rfl⟩
        rw [addrOf_put, if_pos c]
      · refine ⟨a, ?_, .inr h2⟩
        rw [addrOf_put, if_neg c]
        exact h1
    · rename_i hno
      intro q hq
      obtain ⟨a, h1, h2⟩ := h q hq
      have c : q.gsup.imsi ≠ d.imsi := by
        intro c
        exact hno (List.any_eq_true.2 ⟨q, hq, by simp [c]⟩)
      refine ⟨a, ?_, h2⟩
      rw [addrOf_put, if_neg c]
      exact h1

theorem waits_ack {e : Env} {s : Sys} (hn : (s.proxy.map (·.data.imsi)).Nodup) (h : Waits s) {d : ProxySub} {q : Req}
    (hd : addrOf s.proxy d.imsi = some d.addr) :
    Waits (ackToRemote e d q s) ∧ ((ackToRemote e d q s).proxy.map (·.data.imsi)).Nodup
      ∧ addrOf (ackToRemote e d q s).proxy d.imsi = some d.addr := by
  unfold ackToRemote
  split
  · dsimp only
    split
    · have hi := ackToSub_imsi d q
      have ha := ackToSub_addr d q
      refine ⟨waits_put h (by rw [hi, ha]; exact hd), nodup_put hn _ _, ?_⟩
      rw [addrOf_put, if_pos hi.symm, ha]
    · exact ⟨h, hn, hd⟩
  · exact ⟨h, hn, hd⟩

theorem waits_forward {cfg : Cfg} {e : Env} {s : Sys} (hn : (s.proxy.map (·.data.imsi)).Nodup) (h : Waits s) {d : ProxySub}
    {q : Req} (hi : d.imsi = q.gsup.imsi) (hd : addrOf s.proxy d.imsi = some d.addr) :
    Waits (forwardToRemoteHlr cfg e d q s) := by
  unfold forwardToRemoteHlr
  dsimp only
  obtain ⟨h1, hn1, hd1⟩ := waits_ack (e := e) (q := q) hn h hd
  generalize ackToRemote e d q s = t at h1 hn1 hd1
  rw [hi] at hd1
  have hbut : WaitsBut d.addr (deferReq q t) := by
    intro q' hq'
    rcases List.mem_append.1 hq' with h2 | h2
    · obtain ⟨a, h3, h4⟩ := h1 q' h2
      exact ⟨a, h3, .inr h4⟩
    · rw [List.mem_singleton] at h2
      rw [h2]
      exact ⟨d.addr, hd1, .inl rfl⟩
  split
  · rename_i hz
    intro q' hq'
    obtain ⟨a, h3, h4⟩ := hbut q' hq'
    refine ⟨a, h3, ?_⟩
    rcases h4 with h4 | h4
    · rw [h4]; exact .inl (by simpa using hz)
    · exact h4
  · cases hr : t.remote? d.addr with
    | none => exact waits_connect (s := deferReq q t) hn1 hbut
    | some r =>
      dsimp only
      split
      · rw [connectResult_eq]; exact h1
      · exact waits_connect (s := deferReq q t) hn1 hbut

theorem addrOf_some {l : List ProxyEntry} {imsi : Bytes} {d : ProxySub} (h : proxyByImsi l imsi = some d) :
    d.imsi = imsi ∧ addrOf l d.imsi = some d.addr := by
  have hi := (byImsi_some h).1
  refine ⟨hi, ?_⟩
  unfold addrOf
  rw [hi, h]
  rfl

theorem waits_fresh {s : Sys} (h : Waits s) {clk : Int} {imsi : Bytes} (hno : proxyByImsi s.proxy imsi = none) :
    Waits (proxyPut clk { imsi := imsi } s) := by
  intro q hq
  obtain ⟨a, h1, h2⟩ := h q hq
  refine ⟨a, ?_, h2⟩
  rw [addrOf_put, if_neg]
  · exact h1
  · intro c
    unfold addrOf at h1
    rw [show q.gsup.imsi = imsi from c, hno] at h1
    cases h1

theorem nodup_resolved {cfg : Cfg} {e : Env} {s : Sys} (hn : (s.proxy.map (·.data.imsi)).Nodup) (d : ProxySub) (b : Addr) :
    ((remoteResolved cfg e d b s).proxy.map (·.data.imsi)).Nodup := by
  unfold remoteResolved
  split
  · exact hn
  · dsimp only
    split
    · rw [connectRemote_proxy]; exact nodup_put hn _ _
    · exact nodup_put hn _ _

theorem waits_proxied {cfg : Cfg} {e : Env} {s : Sys} (hn : (s.proxy.map (·.data.imsi)).Nodup) (h : Waits s) (q : Req) :
    Waits (proxied cfg e q s) := by
  unfold proxied
  split
  · rename_i d hd
    obtain ⟨h1, h2⟩ := addrOf_some hd
    exact waits_forward hn h h1 h2
  · rename_i hno
    have hw := waits_fresh (clk := e.clock) h hno
    have hn' := nodup_put hn e.clock { imsi := q.gsup.imsi }
    split
    · have hw2 := waits_resolved (cfg := cfg) (e := e) hn' hw { imsi := q.gsup.imsi } e.gateway
      have hn2 := nodup_resolved (cfg := cfg) (e := e) hn' { imsi := q.gsup.imsi } e.gateway
      split
      · rw [respondErr_frame]; exact hw2
      · rename_i d hd
        obtain ⟨h1, h2⟩ := addrOf_some hd
        exact waits_forward hn2 hw2 h1 h2
    · refine waits_forward hn' hw rfl ?_
      rw [addrOf_put, if_pos rfl]

/-- The event does not take away what requests are waiting for: no link in use for waiting
requests is reported down, and no garbage collection finds the entry of a subscriber with
waiting requests outdated. -/
def Calm (s : Sys) : Ev → Prop
  | .remoteDown a => ∀ q ∈ s.pending, ¬ HomeAt s q.gsup.imsi a
  | .proxyGc c => ∀ q ∈ s.pending, ∀ x ∈ s.proxy, x.data.imsi = q.gsup.imsi →
      x.lastUpdate ≤ c ∧ c ≤ x.lastUpdate + 3600
  | _ => True

theorem pfr_waits {s t : Sys} (h : PFr s t) (hw : Waits s) : Waits t := by
  obtain ⟨l, -, ⟨h1, h2, h3⟩ | ⟨-, h1, h2, h3⟩⟩ := h
  · intro q hq
    rw [h2] at hq
    obtain ⟨a, h4, h5⟩ := hw q hq
    refine ⟨a, by rw [h1]; exact h4, ?_⟩
    unfold Pends Sys.remote? at *
    rw [h3]
    exact h5
  · intro q hq
    rw [h2] at hq
    cases hq

theorem waits_readCb {cfg : Cfg} {e : Env} {s : Sys} (hn : (s.proxy.map (·.data.imsi)).Nodup) (h : Waits s) (k : Conn) (q : Req) :
    Waits (readCb cfg e k q s) := by
  have pr := pfr_prims cfg
  rw [readCb_eq]
  split
  · exact pfr_waits (pr.readCbForward s (q := q) trivial) h
  · split
    · split
      · exact pfr_waits (pr.crash s) h
      · split
        · exact pfr_waits (pfr_dispatch ..) h
        · exact waits_proxied hn h q
    · exact pfr_waits (pfr_dispatch ..) h

theorem waits_rx {cfg : Cfg} {e : Env} {s : Sys} (hn : (s.proxy.map (·.data.imsi)).Nodup) (h : Waits s) (c : ConnId)
    (mo : Option Msg) : Waits (rx cfg e c mo s) := by
  unfold rx
  split
  · exact h
  · rename_i k hk
    dsimp only
    split
    · exact h
    · rename_i m
      split
      · rw [respondMsgt_frame]; exact h
      · split
        · rw [respondErr_frame]; exact h
        · unfold connRx
          split
          · exact waits_readCb (s := { s with nextReq := s.nextReq + 1, log := .rx s.nextReq c (some m) :: s.log }) hn h _ _
          · dsimp only
            split
            · rw [respondMsgt_frame]; exact h
            · have h' : Waits { s with nextReq := s.nextReq + 1, log := .rx s.nextReq c (some m) :: s.log,
                                       routes := (routeAdd s.routes k.id (mkReq k s.nextReq m).source.name).2 } := h
              exact waits_readCb (by exact hn) h' _ _

theorem waits_remoteRx {cfg : Cfg} {e : Env} {s : Sys} (h : Waits s) (a : Addr) (m : Msg) :
    Waits (remoteRx cfg e a m s) := by
  have hack : ∀ {d k t}, Passes cfg e m (s.emit (.remoteRx a m)) d k t → Waits t := by
    intro d k t hp
    have hd := addrOf_some hp.entry
    have h' : Waits (s.emit (.remoteRx a m)) := h
    rcases ackFromRemote_some hp.ack with ⟨rfl, -⟩ | ⟨x, -, rfl⟩ | ⟨y, -, hy, rfl⟩
    · exact h'
    · exact waits_put h' hd.2
    · obtain ⟨h1, h2, -⟩ := ackLuResult_some hy
      exact waits_put h' (by rw [h1, h2]; exact hd.2)
  cases hr : s.remote? a with
  | none => unfold remoteRx; rw [hr]; exact h
  | some r =>
    rcases remoteRx_cases cfg e m hr with ⟨d, k, t, -, hp, ⟨-, h1⟩ | ⟨-, l, h1, -⟩⟩ | ⟨-, l, h1, -⟩
    · rw [h1]; have := hack hp; exact this
    · rw [h1]; have := hack hp; exact this
    · rw [h1]; exact h

theorem waits_del {cfg : Cfg} {s : Sys} (h : Waits s) (imsi : Bytes) : Waits (proxyDel cfg imsi s) := by
  unfold proxyDel
  rw [deferredPop_eq]
  intro q hq
  obtain ⟨hq1, hq2⟩ := List.mem_filter.1 hq
  have hne : q.gsup.imsi ≠ imsi := by simpa using hq2
  obtain ⟨a, h1, h2⟩ := h q hq1
  refine ⟨a, ?_, h2⟩
  unfold addrOf
  dsimp only
  rw [byImsi_remove_ne hne]
  exact h1

theorem find_filter {α : Type} (f p : α → Bool) (l : List α) (h : ∀ x ∈ l, p x = true → f x = true) :
    (l.filter f).find? p = l.find? p := by
  induction l with
  | nil => rfl
  | cons x l ih =>
    have ih' := ih (fun y hy => h y (List.mem_cons_of_mem _ hy))
    by_cases hp : p x = true
    · rw [List.filter_cons_of_pos (h x (by simp) hp), List.find?_cons_of_pos hp, List.find?_cons_of_pos hp]
    · by_cases hf : f x = true
      · rw [List.filter_cons_of_pos hf, List.find?_cons_of_neg hp, List.find?_cons_of_neg hp, ih']
      · rw [List.filter_cons_of_neg hf, List.find?_cons_of_neg hp, ih']

theorem waits_step {cfg : Cfg} {s : Sys} (hn : (s.proxy.map (·.data.imsi)).Nodup) (h : Waits s) {ev : Ev} (hc : Calm s ev) :
    Waits (step cfg s ev) := by
  have pr := pfr_prims cfg
  by_cases hu : s.ub = true
  · unfold step; rw [if_pos hu]; exact h
  cases ev with
  | proxyGc c =>
    have hkeep : ∀ x, x ∈ (step cfg s (.proxyGc c)).proxy ↔ _ := c37_collected (cfg := cfg) (by simpa using hu) c
    unfold step
    rw [if_neg hu]
    intro q hq
    obtain ⟨a, h1, h2⟩ := h q hq
    refine ⟨a, ?_, h2⟩
    rw [← h1]
    unfold addrOf proxyByImsi
    show Option.map _ (Option.map _ ((s.proxy.filter (proxyKeeps c)).find? _)) = _
    rw [find_filter]
    intro x hx hi
    have hk := hc q hq x hx (by simpa using hi)
    have := (hkeep x).2 ⟨hx, hk⟩
    unfold step at this
    rw [if_neg hu] at this
    exact (List.mem_filter.1 this).2
  | remoteDown b =>
    unfold step
    rw [if_neg hu]
    intro q hq
    obtain ⟨a, h1, h2⟩ := h q hq
    refine ⟨a, h1, ?_⟩
    have hne : a ≠ b := by
      rintro rfl
      exact hc q hq ((homeAt_iff hn _ _).2 h1)
    rcases h2 with h2 | ⟨r, h2, h3⟩
    · exact .inl h2
    · refine .inr ⟨r, ?_, h3⟩
      rw [← h2]
      unfold Sys.remote?
      refine find_filter _ _ _ ?_
      intro x _ hx
      have : x.addr = a := by simpa using hx
      simp [this, hne]
  | connect => unfold step; rw [if_neg hu]; exact h
  | rx c m e => unfold step; rw [if_neg hu]; exact waits_rx hn h _ _
  | remoteRx a m e => unfold step; rw [if_neg hu]; exact waits_remoteRx h _ _
  | kill => unfold step; rw [if_neg hu]; exact pfr_waits (pr.crash s) h
  | luTimeout nr =>
    unfold step
    rw [if_neg hu]
    exact pfr_waits (pr.luTimeout nr (fun _ _ => trivial) (fun _ _ => .same [] rfl rfl rfl rfl)) h
  | ssTimeout imsi id =>
    unfold step
    rw [if_neg hu]
    exact pfr_waits (pr.ssTimeout (fun _ _ _ => .same [] rfl rfl rfl rfl) imsi id (fun _ _ _ _ => trivial)) h
  | ccm c sernr =>
    unfold step
    rw [if_neg hu]
    dsimp only
    split
    · exact h
    · unfold ccmCb
      split <;> exact h
  | close c =>
    unfold step
    rw [if_neg hu]
    dsimp only
    split <;> exact h
  | db op sc =>
    unfold step
    rw [if_neg hu]
    exact pfr_waits (pr.withDb (api_op trivial) (pr.refl s) (fun a d _ h => h)) h
  | notify imsi sc =>
    unfold step
    rw [if_neg hu]
    refine pfr_waits (pr.withDb (api_getByImsi _) (pr.refl s) (fun a d _ h => ?_)) h
    split
    · exact pr.trans h (pr.notify _ _ _)
    · exact h
  | nam imsi val isPs sc sc' =>
    unfold step
    rw [if_neg hu]
    refine pfr_waits (pr.withDb (api_getByImsi _) (pr.refl s) (fun a d _ h => ?_)) h
    split
    · exact pr.trans h (pr.nam _ _ _ _ _)
    · exact h
  | remoteUp b =>
    unfold step
    rw [if_neg hu]
    dsimp only
    unfold remoteUp
    cases hr : s.remote? b with
    | none => exact h
    | some r =>
      dsimp only
      have hb := remote_addr hr
      have hbut : WaitsBut b (setRemote { r with up := true, cbs := 0 } s) := by
        intro q hq
        obtain ⟨a, h1, h2⟩ := h q hq
        refine ⟨a, h1, ?_⟩
        by_cases c : a = b
        · exact .inl c
        · rcases h2 with h2 | ⟨r', h2, h3⟩
          · exact .inr (.inl h2)
          · refine .inr (.inr ⟨r', ?_, h3⟩)
            rw [remote_set_ne (by rw [hb]; exact c)]
            exact h2
      cases hcb : r.cbs with
      | zero =>
        intro q hq
        obtain ⟨a, h1, h2⟩ := h q hq
        refine ⟨a, h1, ?_⟩
        rcases h2 with h2 | ⟨r', h2, h3⟩
        · exact .inl h2
        · refine .inr ⟨r', ?_, h3⟩
          have c : a ≠ b := by
            rintro rfl
            rw [hr] at h2
            cases h2
            omega
          show Sys.remote? (setRemote _ s) a = _
          rw [remote_set_ne (by rw [hb]; exact c)]
          exact h2
      | succ n =>
        rw [repeatCb_eq cfg b true n (setRemote { r with up := true, cbs := 0 } s) hn]
        exact waits_cb (s := setRemote { r with up := true, cbs := 0 } s) hn hbut true
  | remoteLost b =>
    unfold step
    rw [if_neg hu]
    dsimp only
    unfold remoteLost
    cases hr : s.remote? b with
    | none => exact h
    | some r =>
      have hb := remote_addr hr
      intro q hq
      obtain ⟨a, h1, h2⟩ := h q hq
      refine ⟨a, h1, ?_⟩
      rcases h2 with h2 | ⟨r', h2, h3⟩
      · exact .inl h2
      · by_cases c : a = b
        · refine .inr ⟨{ r with up := false }, ?_, rfl, ?_⟩
          · rw [c, ← hb]
            rw [← hb] at hr
            exact remote_set_same (r' := { r with up := false }) hr
          · rw [c, hr] at h2
            cases h2
            exact h3.2
        · refine .inr ⟨r', ?_, h3⟩
          show Sys.remote? (setRemote _ s) a = _
          rw [remote_set_ne (by rw [hb]; exact c)]
          exact h2
  | lookup imsi res e =>
    unfold step
    rw [if_neg hu]
    dsimp only
    unfold lookupResult
    split
    · exact waits_del h imsi
    · split
      · exact waits_del h imsi
      · split
        · exact h
        · exact waits_resolved hn h _ _

/-- In a history that takes nothing away from waiting requests (`Calm`), each of them has
an entry, and either the lookup of the home HLR has not brought an address yet, or the link
to that HLR is being set up with a callback that will let the request go
(`c38_link_up`). -/
theorem c38_not_stuck_partial (d : Db) (evs : List (Cfg × Ev))
    (hc : ∀ evs1 cfg ev evs2, evs = evs1 ++ (cfg, ev) :: evs2 → Calm (run (init d) evs1) ev) :
    ∀ q ∈ (run (init d) evs).pending, ∃ x ∈ (run (init d) evs).proxy, x.data.imsi = q.gsup.imsi
      ∧ (x.data.addr.nonzero = false
        ∨ ∃ r, (run (init d) evs).remote? x.data.addr = some r ∧ r.up = false ∧ 0 < r.cbs) := by
  have gen : ∀ (l : List (Cfg × Ev)) (s : Sys), Reach s → Waits s →
      (∀ evs1 cfg ev evs2, l = evs1 ++ (cfg, ev) :: evs2 → Calm (run s evs1) ev) → Waits (run s l) := by
    intro l
    induction l with
    | nil => intro s _ h _; exact h
    | cons x l ih =>
      intro s hr h hc
      obtain ⟨cfg, ev⟩ := x
      refine ih (step cfg s ev) (hr.step cfg ev) (waits_step (c37_one_entry hr) h (hc [] cfg ev l rfl)) ?_
      intro evs1 cfg' ev' evs2 he
      exact hc ((cfg, ev) :: evs1) cfg' ev' evs2 (by rw [he]; rfl)
  have hw := gen evs (init d) ⟨d, [], rfl⟩ (fun q hq => by cases hq) hc
  intro q hq
  obtain ⟨a, h1, h2⟩ := hw q hq
  obtain ⟨x, hx, h3, rfl⟩ := (homeAt_iff (c37_one_entry ⟨d, evs, rfl⟩) _ _).2 h1
  exact ⟨x, hx, h3, h2⟩

/-! ## C40: who handles a message -/

/-- With distributed GSM switched on, a message for a subscriber of the local database is
handled exactly as if it were switched off. -/
theorem c40_local {cfg : Cfg} {s : Sys} (hr : Reach s) (hu : s.ub = false) {c : ConnId} {k : Conn} {m : Msg}
    (h : Accepted cfg s c k m) {e : Env} (hk : known e m s = some 0) :
    step cfg s (.rx c (some m) e) = step cfg s (.rx c (some m) { e with lookup := false, gateway := {} }) := by
  rw [step_accepted hr hu h e (.inr hk), step_accepted hr hu h { e with lookup := false, gateway := {} } (.inl rfl)]
  rfl

theorem forward_spec (cfg : Cfg) (e : Env) (d : ProxySub) (q : Req) (t : Sys) (hd : addrOf t.proxy d.imsi = some d.addr) :
    ∃ px, (∀ imsi, addrOf px imsi = addrOf t.proxy imsi)
      ∧ ((t.proxy.map (·.data.imsi)).Nodup → (px.map (·.data.imsi)).Nodup)
      ∧ (d.addr.nonzero = false →
        forwardToRemoteHlr cfg e d q t = { t with proxy := px, pending := t.pending ++ [q] })
      ∧ (d.addr.nonzero = true → ∀ r, t.remote? d.addr = some r →
        (r.up = true → forwardToRemoteHlr cfg e d q t
          = { t with proxy := px, log := letGo cfg t.routes (some d.addr) q ++ t.log })
        ∧ (r.up = false → forwardToRemoteHlr cfg e d q t
          = setRemote { r with cbs := r.cbs + 1 } { t with proxy := px, pending := t.pending ++ [q] }))
      ∧ (d.addr.nonzero = true → t.remote? d.addr = none →
        (e.connectOk = true → forwardToRemoteHlr cfg e d q t
          = { t with proxy := px, pending := t.pending ++ [q], remotes := { addr := d.addr, cbs := 1 } :: t.remotes })
        ∧ (e.connectOk = false → forwardToRemoteHlr cfg e d q t
          = connectResultCb cfg d.addr false { t with proxy := px, pending := t.pending ++ [q] })) := by
  obtain ⟨px, hack, hpx, hnd⟩ : ∃ px, ackToRemote e d q t = { t with proxy := px }
      ∧ (∀ imsi, addrOf px imsi = addrOf t.proxy imsi)
      ∧ ((t.proxy.map (·.data.imsi)).Nodup → (px.map (·.data.imsi)).Nodup) := by
    unfold ackToRemote
    split
    · dsimp only
      split
      · refine ⟨_, rfl, fun imsi => ?_, fun hn => nodup_put hn _ _⟩
        refine Eq.trans (addrOf_put e.clock (ackToSub d q) t imsi) ?_
        split
        · rename_i hi
          rw [ackToSub_imsi] at hi
          rw [hi, hd, ackToSub_addr]
        · rfl
      · exact ⟨_, rfl, fun _ => rfl, id⟩
    · exact ⟨_, rfl, fun _ => rfl, id⟩
  refine ⟨px, hpx, hnd, ?_⟩
  unfold forwardToRemoteHlr
  dsimp only
  rw [hack]
  have e1 : ∀ a, Sys.remote? { t with proxy := px } a = t.remote? a := fun _ => rfl
  have e2 : ∀ a, Sys.remote? (deferReq q { t with proxy := px }) a = t.remote? a := fun _ => rfl
  refine ⟨fun hz => ?_, fun hz r hr => ⟨fun hup => ?_, fun hup => ?_⟩, fun hz hr => ⟨fun hok => ?_, fun hok => ?_⟩⟩
  · rw [if_pos (by simp [hz])]; rfl
  · rw [if_neg (by simp [hz]), e1, hr]
    dsimp only
    rw [if_pos hup, connectResult_eq]
  · rw [if_neg (by simp [hz]), e1, hr]
    dsimp only
    rw [if_neg (by simp [hup])]
    unfold connectRemote
    rw [e2, hr]
    dsimp only
    rw [if_neg (by simp [hup])]
    rfl
  · rw [if_neg (by simp [hz]), e1, hr]
    dsimp only
    unfold connectRemote
    rw [e2, hr]
    dsimp only
    rw [if_pos hok]
    rfl
  · rw [if_neg (by simp [hz]), e1, hr]
    dsimp only
    unfold connectRemote
    rw [e2, hr]
    dsimp only
    rw [if_neg (by simp [hok])]
    rfl

/-- The address of the home HLR when a message of the subscriber arrives: that of the
proxy's entry if there is one, otherwise the configured gateway. -/
def homeOf (e : Env) (s : Sys) (imsi : Bytes) : Addr :=
  match proxyByImsi s.proxy imsi with
  | some d => d.addr
  | none => if e.gateway.nonzero then e.gateway else {}

theorem proxied_eq {cfg : Cfg} {e : Env} {s : Sys} {q : Req}
    (hp : (∃ q' ∈ s.pending, q'.gsup.imsi = q.gsup.imsi) → ∃ d, proxyByImsi s.proxy q.gsup.imsi = some d) :
    ∃ d px, d.addr = homeOf e s q.gsup.imsi ∧ d.imsi = q.gsup.imsi ∧ proxyByImsi px q.gsup.imsi = some d
      ∧ (∀ imsi, imsi ≠ q.gsup.imsi → proxyByImsi px imsi = proxyByImsi s.proxy imsi)
      ∧ ((s.proxy.map (·.data.imsi)).Nodup → (px.map (·.data.imsi)).Nodup)
      ∧ proxied cfg e q s = forwardToRemoteHlr cfg e d q { s with proxy := px } := by
  unfold proxied homeOf
  cases hd : proxyByImsi s.proxy q.gsup.imsi with
  | some d => exact ⟨d, s.proxy, rfl, (byImsi_some hd).1, hd, fun _ _ => rfl, id, rfl⟩
  | none =>
    dsimp only
    by_cases hg : e.gateway.nonzero = true
    · rw [if_pos hg, if_pos hg]
      have hres : remoteResolved cfg e { imsi := q.gsup.imsi } e.gateway (proxyPut e.clock { imsi := q.gsup.imsi } s)
          = proxyPut e.clock { imsi := q.gsup.imsi, addr := e.gateway } (proxyPut e.clock { imsi := q.gsup.imsi } s) := by
        unfold remoteResolved
        rw [if_neg (fun hc => absurd (show ({} : Addr).nonzero = true from hc.1) (by decide))]
        dsimp only
        rw [if_neg]
        intro hc
        obtain ⟨q', hq', h1⟩ := List.any_eq_true.1 hc
        obtain ⟨d, h2⟩ := hp ⟨q', hq', by simpa using h1⟩
        rw [hd] at h2
        cases h2
      rw [hres]
      have hb := byImsi_put e.clock { imsi := q.gsup.imsi, addr := e.gateway } (proxyPut e.clock { imsi := q.gsup.imsi } s)
      rw [show proxyByImsi _ q.gsup.imsi = _ from hb]
      refine ⟨_, _, rfl, rfl, hb, ?_, ?_, rfl⟩
      · intro imsi hne
        rw [byImsi_put_ne _ _ _ hne, byImsi_put_ne _ _ _ hne]
      · intro hn
        exact nodup_put (nodup_put hn _ _) _ _
    · rw [if_neg hg, if_neg hg]
      refine ⟨{ imsi := q.gsup.imsi }, _, rfl, rfl, byImsi_put e.clock _ s, ?_, ?_, rfl⟩
      · intro imsi hne
        exact byImsi_put_ne _ _ _ hne
      · intro hn
        exact nodup_put hn _ _

section
variable {cfg : Cfg} {s : Sys} (hr : Reach s) (hu : s.ub = false) {c : ConnId} {k : Conn} {m : Msg}
  (h : Accepted cfg s c k m) {e : Env} (hon : e.dgsm = true) {rc : Int} (hk : known e m s = some rc) (hrc : rc ≠ 0)
include hr hu h hon hk hrc

theorem step_proxied : step cfg s (.rx c (some m) e) = proxied cfg e (mkReq k s.nextReq m) (received s c k m) := by
  rw [step_arrives hr hu h.toArrives e, readCb_eq, mkReq_gsup, if_neg (by simp [h.notOther]), if_pos hon]
  rw [show known e m (received s c k m) = some rc from hk]
  dsimp only
  rw [if_neg hrc]

/-- A message for a subscriber who is not in the local database never touches the
database, a location update procedure or a USSD session of this HLR. -/
theorem c40_not_here : (step cfg s (.rx c (some m) e)).db = s.db ∧ (step cfg s (.rx c (some m) e)).lus = s.lus
    ∧ (step cfg s (.rx c (some m) e)).sess = s.sess ∧ (step cfg s (.rx c (some m) e)).conns = s.conns := by
  rw [step_proxied hr hu h hon hk hrc]
  obtain ⟨p, pe, r, l, hd⟩ := proxied_dfr cfg e (mkReq k s.nextReq m) (received s c k m)
  rw [hd]
  exact ⟨rfl, rfl, rfl, rfl⟩

variable (hp : (∃ q' ∈ s.pending, q'.gsup.imsi = m.imsi) → ∃ d, proxyByImsi s.proxy m.imsi = some d)
include hp

theorem step_forward : ∃ d px, d.addr = homeOf e s m.imsi ∧ d.imsi = m.imsi ∧ proxyByImsi px m.imsi = some d
    ∧ (∀ imsi, imsi ≠ m.imsi → proxyByImsi px imsi = proxyByImsi s.proxy imsi)
    ∧ ((s.proxy.map (·.data.imsi)).Nodup → (px.map (·.data.imsi)).Nodup)
    ∧ step cfg s (.rx c (some m) e)
      = forwardToRemoteHlr cfg e d (mkReq k s.nextReq m) { received s c k m with proxy := px } := by
  have := proxied_eq (cfg := cfg) (e := e) (s := received s c k m) (q := mkReq k s.nextReq m)
    (by rw [mkReq_gsup]; exact hp)
  rw [mkReq_gsup] at this
  rw [step_proxied hr hu h hon hk hrc]
  exact this

/-- The home HLR is known and the link to it is up: it gets the message at once, with the
name of the sender. -/
theorem c40_forwarded (ha : (homeOf e s m.imsi).nonzero = true) {r : Remote} (hl : s.remote? (homeOf e s m.imsi) = some r)
    (hup : r.up = true) (henc : ∀ m, cfg.enc m = true) :
    (step cfg s (.rx c (some m) e)).log = .concl s.nextReq .forwarded
      :: .remote (homeOf e s m.imsi) { m with src := senderName k m } (some s.nextReq)
      :: .rx s.nextReq c (some m) :: s.log
    ∧ (step cfg s (.rx c (some m) e)).pending = s.pending := by
  obtain ⟨d, px, h1, hdi, hpx, -, -, h2⟩ := step_forward hr hu h hon hk hrc hp
  obtain ⟨px', -, -, -, h3, -⟩ := forward_spec cfg e d (mkReq k s.nextReq m) { received s c k m with proxy := px }
    (by rw [hdi]; unfold addrOf; rw [hpx]; rfl)
  rw [h2, (h3 (by rw [h1]; exact ha) r (by rw [h1]; exact hl)).1 hup, letGo_some cfg henc, mkReq_nr, mkReq_gsup,
    mkReq_source (fun _ => ipaSet_ok h.src), h1]
  exact ⟨rfl, rfl⟩

/-- The home HLR is not known yet, or the link to it is not up: the message waits; nothing
is sent. If the HLR is known, the link to it is being set up. -/
theorem c40_deferred (hl : (homeOf e s m.imsi).nonzero = true → ∀ r, s.remote? (homeOf e s m.imsi) = some r → r.up = false)
    (hok : (homeOf e s m.imsi).nonzero = true → s.remote? (homeOf e s m.imsi) = none → e.connectOk = true) :
    (step cfg s (.rx c (some m) e)).log = .rx s.nextReq c (some m) :: s.log
    ∧ (step cfg s (.rx c (some m) e)).pending = s.pending ++ [mkReq k s.nextReq m]
    ∧ ((homeOf e s m.imsi).nonzero = true → ∃ r, (step cfg s (.rx c (some m) e)).remote? (homeOf e s m.imsi) = some r
      ∧ r.up = false ∧ 0 < r.cbs) := by
  obtain ⟨d, px, h1, hdi, hpx, -, -, h2⟩ := step_forward hr hu h hon hk hrc hp
  obtain ⟨px', -, -, h0, h3, h4⟩ := forward_spec cfg e d (mkReq k s.nextReq m) { received s c k m with proxy := px }
    (by rw [hdi]; unfold addrOf; rw [hpx]; rfl)
  rw [h2]
  rw [h1] at h0 h3 h4
  cases ha : (homeOf e s m.imsi).nonzero with
  | false =>
    rw [h0 ha]
    exact ⟨rfl, rfl, fun h => by cases h⟩
  | true =>
    cases hr' : s.remote? (homeOf e s m.imsi) with
    | none =>
      rw [(h4 ha hr').1 (hok ha hr')]
      refine ⟨rfl, rfl, fun _ => ⟨{ addr := homeOf e s m.imsi, cbs := 1 }, ?_, rfl, Nat.zero_lt_one⟩⟩
      unfold Sys.remote?
      rw [List.find?_cons_of_pos (by simp)]
    | some r =>
      have hup := hl ha r hr'
      have hb := remote_addr hr'
      rw [(h3 ha r hr').2 hup]
      refine ⟨rfl, rfl, fun _ => ⟨{ r with cbs := r.cbs + 1 }, ?_, hup, by simp⟩⟩
      rw [← hb] at hr' ⊢
      exact remote_set_same (r' := { r with cbs := r.cbs + 1 }) (r := r) hr'

/-- The home HLR is known, but no link to it can be set up: the request, and all others
waiting for that HLR, are refused. -/
theorem c40_no_link (ha : (homeOf e s m.imsi).nonzero = true) (hl : s.remote? (homeOf e s m.imsi) = none)
    (hok : e.connectOk = false) (henc : ∀ m, cfg.enc m = true) :
    let t := step cfg s (.rx c (some m) e)
    HomeAt t m.imsi (homeOf e s m.imsi)
    ∧ ∃ p f, AllFor t (homeOf e s m.imsi) (s.pending ++ [mkReq k s.nextReq m]) p ∧ (∀ q, Refused cfg t.routes q (f q))
      ∧ t.log = p.reverse.flatMap f ++ .rx s.nextReq c (some m) :: s.log
      ∧ t.pending = s.pending.filter (fun q => !decide (HomeAt t q.gsup.imsi (homeOf e s m.imsi))) := by
  dsimp only
  obtain ⟨d, px, h1, hdi, hpx, hpo, hpn, h2⟩ := step_forward hr hu h hon hk hrc hp
  have hd : addrOf px d.imsi = some d.addr := by rw [hdi]; unfold addrOf; rw [hpx]; rfl
  obtain ⟨px', ho, hnd, -, -, h4⟩ := forward_spec cfg e d (mkReq k s.nextReq m) { received s c k m with proxy := px } hd
  have hn : (px'.map (·.data.imsi)).Nodup := hnd (hpn (c37_one_entry hr))
  rw [h1] at h4 hd
  rw [h2, (h4 ha hl).2 hok, connectResultCb_eq _ _ _ _ hn]
  refine ⟨?_, waitFor (homeOf e s m.imsi) px' (s.pending ++ [mkReq k s.nextReq m]), letGo cfg _ none, ?_,
    letGo_none cfg henc _, rfl, ?_⟩
  · refine (homeAt_iff hn _ _).2 ?_
    rw [hdi] at hd
    exact (ho m.imsi).trans hd
  · intro imsi
    exact waitFor_order (homeOf e s m.imsi) { received s c k m with proxy := px' } hn _ imsi
  · have hh : HomeAt { received s c k m with proxy := px' } m.imsi (homeOf e s m.imsi) := by
      refine (homeAt_iff hn _ _).2 ?_
      rw [hdi] at hd
      exact (ho m.imsi).trans hd
    have := filter_isFor (homeOf e s m.imsi) { received s c k m with proxy := px' } (s.pending ++ [mkReq k s.nextReq m])
    refine this.trans ?_
    rw [List.filter_append, List.filter_cons_of_neg, List.filter_nil, List.append_nil]
    · rfl
    · rw [mkReq_gsup]; simp [hh]
end

/-- What "in the local database" means when the database works. -/
theorem c40_known (e : Env) (m : Msg) (s : Sys) (hs : firstFate e.sc0 = .ok) :
    (known e m s = some 0 ↔ ∃ r ∈ s.db.subs, r.imsi = m.imsi)
    ∧ (known e m s = some (-2) ↔ ¬ ∃ r ∈ s.db.subs, r.imsi = m.imsi) := by
  obtain ⟨h1, h2, -⟩ := Db.Props.c05_exists s.db m.imsi e.sc0 hs
  have h0 := exec_exists m.imsi s.db e.sc0
  unfold known
  refine ⟨?_, ?_⟩
  · rw [← h1]; exact ⟨fun h => Prod.ext h h0, fun h => by rw [h]⟩
  · rw [← h2]; exact ⟨fun h => Prod.ext h h0, fun h => by rw [h]⟩

/-- A message addressed to another node is not looked at but passed on to that node as it
is; if there is no such node, or the message names no source, a routing error is returned. -/
theorem c40_other_node {cfg : Cfg} {s : Sys} (hr : Reach s) (hu : s.ub = false) {c : ConnId} {k : Conn} {m : Msg}
    (h : Arrives s c k m) (e : Env) {v : Bytes} (hv : m.dst = v ++ [0]) (hl : v.length ≤ 127) (hne : m.dst ≠ myIpaName cfg) :
    (m.src ≠ [] → ∀ c', routeFind (routesFor s c (mkReq k s.nextReq m)) m.dst = some c' →
      step cfg s (.rx c (some m) e) = { received s c k m with
        log := .concl s.nextReq .forwarded :: .tx c' m none :: .rx s.nextReq c (some m) :: s.log })
    ∧ ((m.src = [] ∨ routeFind (routesFor s c (mkReq k s.nextReq m)) m.dst = none) →
      step cfg s (.rx c (some m) e)
        = (respond cfg (received s c k m) (mkReq k s.nextReq m) { typ := ROUTING_ERROR, src := m.dst } true true).2) := by
  have hlen : m.dst.length ≤ 128 := by rw [hv]; simp; omega
  have hfo : forOther cfg m = true := (forOther_iff cfg m).2 ⟨by rw [hv]; simp, hlen, hne⟩
  have hd : m.dst.isEmpty = false := by rw [hv]; simp
  rw [step_arrives hr hu h e, readCb_eq, mkReq_gsup, if_pos hfo]
  unfold readCbForward
  dsimp only
  rw [mkReq_gsup]
  have hset := ipaSet_ok (n := {}) hlen
  have hsend : ∀ t : Sys, sendToIpa t (ipaSet {} m.dst).2 m = addrSend t (v ++ [0]) m := fun t =>
    sendToIpa_terminated t _ m (by rw [name_set hset, hv])
  constructor
  · intro hs c' hc'
    rw [if_neg (by simp [hs, hd]), if_neg (fun h => h hset), hsend, addrSend_eq, ← hv]
    simp [sentTo, hc', reqFree, Sys.emit, mkReq_nr]
  · rintro (hs | hc')
    · rw [if_pos (by simp [hs])]
    · by_cases hs : m.src = []
      · rw [if_pos (by simp [hs])]
      · rw [if_neg (by simp [hs, hd]), if_neg (fun h => h hset), hsend, addrSend_eq, ← hv]
        simp [sentTo, hc']

/-! ## C39 once more: asking -/

theorem ack_asks {e : Env} {d : ProxySub} {q : Req} {t : Sys} (hd : proxyByImsi t.proxy d.imsi = some d)
    (hwf : ∀ cs, (d.dom cs).prelim.WF) (hq : q.source.WF) (ht : q.gsup.typ = UPDATE_LOCATION) {cs : Bool}
    (hcs : q.gsup.cnDomain = if cs then 2 else 1) :
    ∃ d', proxyByImsi (ackToRemote e d q t).proxy d.imsi = some d' ∧ (d'.dom cs).prelim.name = q.source.name := by
  have hn : ((ackToSub d q).dom cs).prelim = q.source := by
    unfold ackToSub
    cases cs with
    | true => rw [if_pos (by simpa using hcs)]; rfl
    | false => rw [if_neg (by rw [hcs]; decide), if_pos (by simpa using hcs)]; rfl
  unfold ackToRemote
  rw [if_pos ht]
  dsimp only
  split
  · refine ⟨ackToSub d q, ?_, by rw [hn]⟩
    rw [← ackToSub_imsi d q]
    exact byImsi_put ..
  · rename_i hc
    refine ⟨d, hd, ?_⟩
    have h0 : ipaCmp ((ackToSub d q).dom cs).prelim (d.dom cs).prelim = 0 := by
      apply Decidable.byContradiction
      intro h0
      apply hc
      cases cs
      · exact .inr h0
      · exact .inl h0
    rw [hn, Gsup.Props.c25_cmp_eq hq (hwf cs)] at h0
    exact h0.symm

theorem forward_proxy (cfg : Cfg) (e : Env) (d : ProxySub) (q : Req) (t : Sys) :
    (forwardToRemoteHlr cfg e d q t).proxy = (ackToRemote e d q t).proxy := by
  unfold forwardToRemoteHlr
  dsimp only
  split
  · rfl
  · split
    · split
      · rw [connectResult_eq]
      · rw [connectRemote_proxy]; rfl
    · rw [connectRemote_proxy]; rfl

/-- A Location Update for a subscriber of another HLR is remembered: its sender is the node
whose result will be accepted (`c39_accepted`). -/
theorem c39_asking {cfg : Cfg} {s : Sys} (hr : Reach s) (hu : s.ub = false) {c : ConnId} {k : Conn} {m : Msg}
    (h : Accepted cfg s c k m) {e : Env} (hon : e.dgsm = true) {rc : Int} (hk : known e m s = some rc) (hrc : rc ≠ 0)
    (ht : m.typ = UPDATE_LOCATION) {cs : Bool} (hcs : m.cnDomain = if cs then 2 else 1) :
    ∃ x ∈ (step cfg s (.rx c (some m) e)).proxy, x.data.imsi = m.imsi ∧ (x.data.dom cs).prelim.name = senderName k m := by
  rw [step_proxied hr hu h hon hk hrc]
  have hwf : PrelimWf s := by
    obtain ⟨d, evs, rfl⟩ := hr
    exact (asked_run d evs).2
  have hq : (mkReq k s.nextReq m).source.WF := by
    obtain ⟨P, hi, -⟩ := reach_done hr
    exact (mkReq_ok (hi.connWf k (conn?_some h.conn).1) s.nextReq m).1.src
  have fresh : ∀ a : Addr, ∀ cs, (({ imsi := m.imsi, addr := a } : ProxySub).dom cs).prelim.WF := by
    intro a cs
    cases cs <;> exact ⟨List.length_replicate, Nat.zero_le _⟩
  have hsrc := mkReq_source (k := k) (nr := s.nextReq) (m := m) (fun _ => ipaSet_ok h.src)
  have fin : ∀ (d : ProxySub) (t : Sys), d.imsi = m.imsi → proxyByImsi t.proxy m.imsi = some d → (∀ cs, (d.dom cs).prelim.WF) →
      ∃ x ∈ (forwardToRemoteHlr cfg e d (mkReq k s.nextReq m) t).proxy,
        x.data.imsi = m.imsi ∧ (x.data.dom cs).prelim.name = senderName k m := by
    intro d t hdi hd hw
    obtain ⟨d', h1, h2⟩ := ack_asks (e := e) (q := mkReq k s.nextReq m) (t := t) (d := d) (by rw [hdi]; exact hd) hw hq
      (by rw [mkReq_gsup]; exact ht) (cs := cs) (by rw [mkReq_gsup]; exact hcs)
    rw [forward_proxy]
    obtain ⟨h3, x, hx, rfl⟩ := byImsi_some h1
    exact ⟨x, hx, h3.trans hdi, h2.trans hsrc⟩
  unfold proxied
  rw [mkReq_gsup]
  cases hd : proxyByImsi (received s c k m).proxy m.imsi with
  | some d =>
    obtain ⟨h1, x, hx, rfl⟩ := byImsi_some hd
    exact fin x.data _ h1 hd (hwf x hx)
  | none =>
    dsimp only
    split
    · have hb : proxyByImsi (remoteResolved cfg e { imsi := m.imsi } e.gateway
          (proxyPut e.clock { imsi := m.imsi } (received s c k m))).proxy m.imsi
          = some { imsi := m.imsi, addr := e.gateway } := by
        unfold remoteResolved
        rw [if_neg (fun hc => absurd (show ({} : Addr).nonzero = true from hc.1) (by decide))]
        dsimp only
        split
        · rw [connectRemote_proxy]; exact byImsi_put ..
        · exact byImsi_put ..
      rw [hb]
      exact fin _ _ rfl hb (fresh _)
    · exact fin _ _ rfl (byImsi_put e.clock { imsi := m.imsi } (received s c k m)) (fresh {})

/-! ## Examples and counterexamples -/

/-- Two requests of one subscriber and one of another wait for the lookups. -/
def imsi8 : Bytes := b "262420000000008"

def exWait : List Ev := exTwo ++
  [.rx 1 (some ul9) dgsmEnv, .rx 2 (some { ul9 with imsi := imsi8 }) dgsmEnv,
   .rx 2 (some { typ := SEND_AUTH_INFO, imsi := imsi9 }) dgsmEnv]

example : (runWith exCfg (init {}) exWait).pending.map (fun q => (q.nr, q.gsup.imsi)) = [(1, imsi9), (2, imsi8), (3, imsi9)]
    ∧ (runWith exCfg (init {}) exWait).ub = false
    ∧ (runWith exCfg (init {}) exWait).proxy.map (fun x => (x.data.imsi, x.data.addr.nonzero)) = [(imsi8, false), (imsi9, false)] := by
  decide +kernel

/-- The lookup for one of them brings an address, the link is set up, then comes up: its
requests are passed on in the order of their arrival (`c38_found_unlinked`, `c38_link_up`). -/
example : (runWith exCfg (init {}) (exWait ++ [.lookup imsi9 (some (hlr9, {})) dgsmEnv])).remote? hlr9
      = some { addr := hlr9, cbs := 1 }
    ∧ ((runWith exCfg (init {}) (exWait ++ [.lookup imsi9 (some (hlr9, {})) dgsmEnv, .remoteUp hlr9])).log.filterMap
      fun | .remote a m nr => some (a, m.typ, m.src, nr) | _ => none)
      = [(hlr9, SEND_AUTH_INFO, msc2, some 3), (hlr9, UPDATE_LOCATION, msc1, some 1)]
    ∧ (runWith exCfg (init {}) (exWait ++ [.lookup imsi9 (some (hlr9, {})) dgsmEnv, .remoteUp hlr9])).pending.map (·.nr) = [2] := by
  decide +kernel

/-- `c38_found_linked`: the other one's lookup then brings the same HLR. -/
example : ((runWith exCfg (init {}) (exWait ++ [.lookup imsi9 (some (hlr9, {})) dgsmEnv, .remoteUp hlr9,
      .lookup imsi8 (some ({}, hlr9)) dgsmEnv])).log.take 2)
    = [.concl 2 .forwarded, .remote hlr9 { ul9 with imsi := imsi8, src := msc2 } (some 2)] := by decide +kernel

/-- `c38_failed`, `c38_found_no_link`: refusals reach the nodes that asked. -/
example : responses (runWith exCfg (init {}) (exWait ++ [.lookup imsi9 none dgsmEnv]))
      = [(2, SEND_AUTH_INFO + 1, 3), (1, UPDATE_LOCATION + 1, 1)]
    ∧ responses (runWith exCfg (init {}) (exWait ++ [.lookup imsi9 (some (hlr9, {})) { dgsmEnv with connectOk := false }]))
      = [(2, SEND_AUTH_INFO + 1, 3), (1, UPDATE_LOCATION + 1, 1)] := by decide +kernel

/-- The hypotheses of the C40 theorems. -/
example : known dgsmEnv ul9 (runWith exCfg (init {}) exTwo) = some (-2)
    ∧ known dgsmEnv ulMsg (runWith exCfg (init {}) exTwo) = some 0
    ∧ homeOf dgsmEnv (runWith exCfg (init {}) exAsk) imsi9 = hlr9
    ∧ homeOf { dgsmEnv with gateway := hlr9 } (runWith exCfg (init {}) exTwo) imsi9 = hlr9
    ∧ (runWith exCfg (init {}) exTwo).conns.map (fun k => (k.id, k.name.name)) = [(1, msc1), (2, msc2)] := by decide +kernel

/-- Not every waiting request gets away: when the link is reported down while requests wait
for it, they are left behind, and neither the link coming up nor the same lookup result
helps. (A new request for that HLR would.) -/
theorem c38_link_down_violated : ∃ (cfg : Cfg) (d : Db) (evs : List Ev) (a : Addr) (imsi : Bytes),
    let s := runWith cfg (init d) evs
    s.ub = false ∧ s.pending.map (·.gsup.imsi) = [imsi] ∧ HomeAt s imsi a ∧ s.remote? a = none
    ∧ step cfg s (.remoteUp a) = s ∧ ∀ e, step cfg s (.lookup imsi (some (a, {})) e) = s := by
  refine ⟨exCfg, {}, exTwo ++ [.rx 1 (some ul9) dgsmEnv, .lookup imsi9 (some (hlr9, {})) dgsmEnv, .remoteDown hlr9],
    hlr9, imsi9, by decide +kernel, by decide +kernel, by decide +kernel, by decide +kernel, ?_, ?_⟩
  · unfold step
    rw [if_neg (by decide +kernel)]
    show remoteUp _ _ _ = _
    unfold remoteUp
    rw [show Sys.remote? _ _ = none by decide +kernel]
  · intro e
    unfold step
    rw [if_neg (by decide +kernel)]
    show lookupResult _ _ _ _ _ = _
    unfold lookupResult
    dsimp only
    rw [if_neg (by decide +kernel)]
    split
    · rfl
    · rename_i d hd
      unfold remoteResolved
      rw [if_pos]
      have : (proxyByImsi (runWith exCfg (init {}) (exTwo ++ [.rx 1 (some ul9) dgsmEnv, .lookup imsi9 (some (hlr9, {})) dgsmEnv,
        .remoteDown hlr9])).proxy imsi9).map (·.addr) = some hlr9 := by decide +kernel
      rw [hd] at this
      have : d.addr = hlr9 := Option.some.inj this
      rw [this]
      decide

/-- A garbage collection can drop the entry of a subscriber with a waiting request, which
no lookup result will let go any more. -/
theorem c38_gc_violated : ∃ (cfg : Cfg) (d : Db) (evs : List Ev) (imsi : Bytes),
    let s := runWith cfg (init d) evs
    s.ub = false ∧ s.pending.map (·.gsup.imsi) = [imsi] ∧ s.proxy = []
    ∧ ∀ a e, a.nonzero = true → step cfg s (.lookup imsi (some (a, {})) e) = s := by
  refine ⟨exCfg, {}, exTwo ++ [.rx 1 (some ul9) dgsmEnv, .proxyGc 4601],
    imsi9, by decide +kernel, by decide +kernel, by decide +kernel, ?_⟩
  intro a e ha
  unfold step
  rw [if_neg (by decide +kernel)]
  show lookupResult _ _ _ _ _ = _
  unfold lookupResult
  dsimp only
  rw [if_neg (by simp [ha]), show proxyByImsi _ _ = none by decide +kernel]

/-- A failing database makes a message of a subscriber of this HLR go to the proxy. -/
theorem c40_db_failure_violated : ∃ (cfg : Cfg) (d : Db) (evs : List Ev) (c : ConnId) (m : Msg) (e : Env),
    let s := runWith cfg (init d) evs
    s.ub = false ∧ (∃ r ∈ s.db.subs, r.imsi = m.imsi) ∧ (m.dst = [])
    ∧ ((step cfg s (.rx c (some m) e)).pending.map (·.nr) = [s.nextReq]) :=
  ⟨exCfg, {}, exTwo, 1, ulMsg, { dgsmEnv with sc0 := [.ioerr] }, by decide +kernel⟩

/-- A message that came through a proxy is proxied again: two HLRs that take each other for
the home of a subscriber pass the message to and fro. -/
theorem c40_loop_violated : ∃ (cfg : Cfg) (d : Db) (evs : List Ev) (c : ConnId) (m : Msg) (e : Env) (a : Addr),
    let s := runWith cfg (init d) evs
    s.ub = false ∧ ((s.conn? c).map (fun k => decide (m.src ≠ [] ∧ m.src ≠ k.name.name)) = some true)
    ∧ (step cfg s (.rx c (some m) e)).log.head? = some (.concl s.nextReq .forwarded)
    ∧ .remote a m (some s.nextReq) ∈ (step cfg s (.rx c (some m) e)).log :=
  ⟨exCfg, {}, exAsk, 2, { ul9 with src := b "MSC-3" ++ [0] }, dgsmEnv, hlr9, by decide +kernel⟩

end Verif.Sys.Props
