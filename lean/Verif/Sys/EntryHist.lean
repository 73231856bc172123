import Verif.Sys.Props6
/-! # One entry of the proxy, one waiting request and one link, event by event -/
namespace Verif.Sys
open Verif Verif.Db Verif.Gsup Verif.Hlr Verif.Sys.Props

/-- The entry of the subscriber. -/
def entryOf (l : List ProxyEntry) (imsi : Bytes) : Option ProxyEntry := l.find? (·.data.imsi == imsi)

theorem byImsi_entry (l : List ProxyEntry) (imsi : Bytes) : proxyByImsi l imsi = (entryOf l imsi).map (·.data) := rfl

theorem entryOf_some {l : List ProxyEntry} {imsi : Bytes} {x : ProxyEntry} (h : entryOf l imsi = some x) : x ∈ l ∧ x.data.imsi = imsi :=
  ⟨List.mem_of_find?_eq_some h, by have := List.find?_some h; simpa using this⟩

theorem entryOf_put (clk : Int) (d : ProxySub) (s : Sys) (imsi : Bytes) :
    entryOf (proxyPut clk d s).proxy imsi = if imsi = d.imsi then some { lastUpdate := clk, data := d } else entryOf s.proxy imsi := by
  unfold proxyPut
  dsimp only
  split
  · rename_i h
    generalize s.proxy = l at h
    induction l with
    | nil => simp [proxyByImsi] at h
    | cons z l ih =>
      unfold setFirst
      dsimp only
      split
      · rename_i hz
        have hz' : z.data.imsi = d.imsi := by simpa using hz
        unfold entryOf
        split
        · rename_i hi; rw [List.find?_cons_of_pos (by simp [hi])]
        · rename_i hi
          rw [List.find?_cons_of_neg (by simpa using fun h => hi h.symm), List.find?_cons_of_neg (by simpa [hz'] using fun h => hi h.symm)]
      · rename_i hz
        have hz' : z.data.imsi ≠ d.imsi := by simpa using hz
        have h' : (proxyByImsi l d.imsi).isSome = true := by
          unfold proxyByImsi at h ⊢
          rw [List.find?_cons_of_neg (by simpa using hz')] at h
          exact h
        have := ih h'
        unfold entryOf at this ⊢
        by_cases hi : z.data.imsi = imsi
        · rw [List.find?_cons_of_pos (by simp [hi]), List.find?_cons_of_pos (by simp [hi]), if_neg (fun h => hz' (hi.trans h))]
        · rw [List.find?_cons_of_neg (by simpa using hi), List.find?_cons_of_neg (by simpa using hi)]
          exact this
  · unfold entryOf
    split
    · rename_i hi; rw [List.find?_cons_of_pos (by simp [hi])]
    · rename_i hi; rw [List.find?_cons_of_neg (by simpa using fun h => hi h.symm)]

theorem entryOf_remove {imsi imsi' : Bytes} (hne : imsi' ≠ imsi) (l : List ProxyEntry) :
    entryOf (proxyRemove imsi l) imsi' = entryOf l imsi' := by
  induction l with
  | nil => rfl
  | cons y l ih =>
    unfold proxyRemove
    split
    · rename_i hy
      have hy' : y.data.imsi = imsi := by simpa using hy
      unfold entryOf
      rw [List.find?_cons_of_neg (by simpa [hy'] using fun h => hne h.symm)]
    · unfold entryOf at ih ⊢
      by_cases c : y.data.imsi = imsi'
      · rw [List.find?_cons_of_pos (by simp [c]), List.find?_cons_of_pos (by simp [c])]
      · rw [List.find?_cons_of_neg (by simpa using c), List.find?_cons_of_neg (by simpa using c), ih]

theorem entryOf_filter {l : List ProxyEntry} {imsi : Bytes} {x : ProxyEntry} (h : entryOf l imsi = some x) (p : ProxyEntry → Bool)
    (hp : p x = true) : entryOf (l.filter p) imsi = some x := by
  induction l with
  | nil => cases h
  | cons y l ih =>
    unfold entryOf at h ih ⊢
    by_cases c : y.data.imsi = imsi
    · rw [List.find?_cons_of_pos (by simp [c])] at h
      cases h
      rw [List.filter_cons_of_pos hp, List.find?_cons_of_pos (by simp [c])]
    · rw [List.find?_cons_of_neg (by simpa using c)] at h
      by_cases hy : p y = true
      · rw [List.filter_cons_of_pos hy, List.find?_cons_of_neg (by simpa using c)]
        exact ih h
      · rw [List.filter_cons_of_neg hy]
        exact ih h

/-- How an event can change an entry. -/
def Changed (s : Sys) (ev : Ev) (d d' : ProxySub) : Prop :=
  (∃ v e, ev = .lookup d.imsi (some v) e ∧ (foundAddr v).nonzero = true ∧ d' = { d with addr := foundAddr v })
  ∨ (∃ c m e k, ev = .rx c (some m) e ∧ s.conn? c = some k ∧ (m.src ≠ [] → (ipaSet k.name m.src).1 = 0) ∧ m.typ = UPDATE_LOCATION
      ∧ m.imsi = d.imsi ∧ d' = ackToSub d (mkReq k s.nextReq m))
  ∨ (∃ a m e n, ev = .remoteRx a m e ∧ m.typ = INSERT_DATA ∧ m.imsi = d.imsi ∧ d' = { d with msisdn := n })
  ∨ (∃ a m e v, ev = .remoteRx a m e ∧ m.typ = UPDATE_LOCATION + 2 ∧ m.imsi = d.imsi ∧ (ipaSet {} m.dst).1 = 0
      ∧ ackLuResult e.clock d (ipaSet {} m.dst).2 v = some d')

theorem entry_ack (e : Env) {x : ProxyEntry} {q : Req} {s : Sys} {imsi : Bytes} (hx : entryOf s.proxy imsi = some x) {d : ProxySub}
    (hd : proxyByImsi s.proxy d.imsi = some d ∨ d.imsi ≠ imsi) :
    entryOf (ackToRemote e d q s).proxy imsi = some x
    ∨ (q.gsup.typ = UPDATE_LOCATION ∧ d.imsi = imsi ∧ entryOf (ackToRemote e d q s).proxy imsi = some { lastUpdate := e.clock, data := ackToSub x.data q }) := by
  unfold ackToRemote
  split
  · rename_i ht
    dsimp only
    split
    · rw [entryOf_put, ackToSub_imsi]
      split
      · rename_i hi
        rcases hd with hd | hd
        · rw [← hi, byImsi_entry, hx] at hd
          have : x.data = d := Option.some.inj hd
          exact .inr ⟨ht, hi.symm, by rw [this]⟩
        · exact absurd hi.symm hd
      · exact .inl hx
    · exact .inl hx
  · exact .inl hx

theorem entry_proxied (cfg : Cfg) (e : Env) {q : Req} {s : Sys} {imsi : Bytes} {x : ProxyEntry} (hx : entryOf s.proxy imsi = some x) :
    entryOf (proxied cfg e q s).proxy imsi = some x
    ∨ (q.gsup.typ = UPDATE_LOCATION ∧ q.gsup.imsi = imsi ∧ entryOf (proxied cfg e q s).proxy imsi = some { lastUpdate := e.clock, data := ackToSub x.data q }) := by
  unfold proxied
  split
  · rename_i d hd
    have hdi := (byImsi_some hd).1
    rw [forward_proxy]
    rcases entry_ack e hx (q := q) (d := d) (.inl (by rw [hdi]; exact hd)) with h | ⟨h1, h2, h3⟩
    · exact .inl h
    · exact .inr ⟨h1, hdi.symm.trans h2, h3⟩
  · rename_i hno
    have hne : imsi ≠ q.gsup.imsi := by
      rintro rfl
      rw [byImsi_entry, hx] at hno
      cases hno
    have hput : ∀ d : ProxySub, d.imsi = q.gsup.imsi → ∀ t : Sys, entryOf t.proxy imsi = some x → entryOf (proxyPut e.clock d t).proxy imsi = some x := by
      intro d hd t ht
      rw [entryOf_put, if_neg (by rw [hd]; exact hne)]
      exact ht
    have hfwd : ∀ d : ProxySub, d.imsi = q.gsup.imsi → ∀ t : Sys, entryOf t.proxy imsi = some x →
        entryOf (forwardToRemoteHlr cfg e d q t).proxy imsi = some x := by
      intro d hd t ht
      rw [forward_proxy]
      rcases entry_ack e ht (q := q) (d := d) (.inr (by rw [hd]; exact hne.symm)) with h | ⟨-, h, -⟩
      · exact h
      · exact absurd (h.symm.trans hd) hne
    left
    split
    · have h2 : entryOf (remoteResolved cfg e { imsi := q.gsup.imsi } e.gateway (proxyPut e.clock { imsi := q.gsup.imsi } s)).proxy imsi = some x := by
        unfold remoteResolved
        split
        · exact hput _ rfl s hx
        · dsimp only
          split
          · rw [connectRemote_proxy]; exact hput _ rfl _ (hput _ rfl s hx)
          · exact hput _ rfl _ (hput _ rfl s hx)
      split
      · rw [respondErr_frame]; exact h2
      · rename_i d hd
        exact hfwd d (byImsi_some hd).1 _ h2
    · exact hfwd _ rfl _ (hput _ rfl s hx)

theorem PFr.entry {s t : Sys} (h : PFr s t) {imsi : Bytes} {x : ProxyEntry} (hx : entryOf s.proxy imsi = some x) :
    entryOf t.proxy imsi = some x ∨ ∃ l, t.log = l ++ s.log ∧ .restart ∈ l := by
  obtain ⟨l, hl, ⟨h1, -, -⟩ | ⟨hr, -, -, -⟩⟩ := h
  · exact .inl (by rw [h1]; exact hx)
  · exact .inr ⟨l, hl, hr⟩

theorem entry_readCb (cfg : Cfg) (e : Env) (k : Conn) (q : Req) (s : Sys) {imsi : Bytes} {x : ProxyEntry} (hx : entryOf s.proxy imsi = some x) :
    entryOf (readCb cfg e k q s).proxy imsi = some x
    ∨ (q.gsup.typ = UPDATE_LOCATION ∧ q.gsup.imsi = imsi ∧ entryOf (readCb cfg e k q s).proxy imsi = some { lastUpdate := e.clock, data := ackToSub x.data q })
    ∨ ∃ l, (readCb cfg e k q s).log = l ++ s.log ∧ .restart ∈ l := by
  have pr := pfr_prims cfg
  have fin : ∀ t, PFr s t → entryOf t.proxy imsi = some x
      ∨ (q.gsup.typ = UPDATE_LOCATION ∧ q.gsup.imsi = imsi ∧ entryOf t.proxy imsi = some { lastUpdate := e.clock, data := ackToSub x.data q })
      ∨ ∃ l, t.log = l ++ s.log ∧ .restart ∈ l := by
    intro t h
    rcases h.entry hx with h | h
    · exact .inl h
    · exact .inr (.inr h)
  rw [readCb_eq]
  split
  · exact fin _ (pr.readCbForward s (q := q) trivial)
  · split
    · split
      · exact fin _ (pr.crash s)
      · split
        · exact fin _ (pfr_dispatch ..)
        · rcases entry_proxied cfg e (q := q) hx with h | h
          · exact .inl h
          · exact .inr (.inl h)
    · exact fin _ (pfr_dispatch ..)

theorem entry_rx (cfg : Cfg) (e : Env) (c : ConnId) (mo : Option Msg) (s : Sys) {imsi : Bytes} {x : ProxyEntry} (hx : entryOf s.proxy imsi = some x) :
    entryOf (rx cfg e c mo s).proxy imsi = some x
    ∨ (∃ m k, mo = some m ∧ s.conn? c = some k ∧ (m.src ≠ [] → (ipaSet k.name m.src).1 = 0) ∧ m.typ = UPDATE_LOCATION ∧ m.imsi = imsi
        ∧ entryOf (rx cfg e c mo s).proxy imsi = some { lastUpdate := e.clock, data := ackToSub x.data (mkReq k s.nextReq m) })
    ∨ ∃ l, (rx cfg e c mo s).log = l ++ s.log ∧ .restart ∈ l := by
  unfold rx
  split
  · exact .inl hx
  · rename_i k hk
    dsimp only
    split
    · exact .inl hx
    · rename_i m
      split
      · rw [respondMsgt_frame]; exact .inl hx
      · rename_i hset
        have hset' : m.src ≠ [] → (ipaSet k.name m.src).1 = 0 := by
          intro hne
          apply Decidable.byContradiction
          intro h0
          exact hset ⟨by cases hm : m.src with
            | nil => exact absurd hm hne
            | cons x l => rfl, h0⟩
        split
        · rw [respondErr_frame]; exact .inl hx
        · have fin : ∀ t : Sys, t.proxy = s.proxy → t.log = .rx s.nextReq c (some m) :: s.log →
              entryOf (readCb cfg e k (mkReq k s.nextReq m) t).proxy imsi = some x
              ∨ (∃ m' k', some m = some m' ∧ s.conn? c = some k' ∧ (m'.src ≠ [] → (ipaSet k'.name m'.src).1 = 0) ∧ m'.typ = UPDATE_LOCATION ∧ m'.imsi = imsi
                ∧ entryOf (readCb cfg e k (mkReq k s.nextReq m) t).proxy imsi
                  = some { lastUpdate := e.clock, data := ackToSub x.data (mkReq k' s.nextReq m') })
              ∨ ∃ l, (readCb cfg e k (mkReq k s.nextReq m) t).log = l ++ s.log ∧ .restart ∈ l := by
            intro t h1 h2
            rcases entry_readCb cfg e k (mkReq k s.nextReq m) t (x := x) (imsi := imsi) (by rw [h1]; exact hx) with h | ⟨h3, h4, h5⟩ | ⟨l, h3, h4⟩
            · exact .inl h
            · rw [mkReq_gsup] at h3 h4
              exact .inr (.inl ⟨m, k, rfl, hk, hset', h3, h4, h5⟩)
            · exact .inr (.inr ⟨l ++ [.rx s.nextReq c (some m)], by rw [h3, h2]; simp, by simp [h4]⟩)
          unfold connRx
          split
          · exact fin _ rfl rfl
          · dsimp only
            split
            · rw [respondMsgt_frame]; exact .inl hx
            · exact fin _ rfl rfl

theorem entry_remoteRx (cfg : Cfg) (e : Env) (a : Addr) (m : Msg) (s : Sys) {imsi : Bytes} {x : ProxyEntry} (hx : entryOf s.proxy imsi = some x) :
    entryOf (remoteRx cfg e a m s).proxy imsi = some x
    ∨ ∃ d', entryOf (remoteRx cfg e a m s).proxy imsi = some { lastUpdate := e.clock, data := d' } ∧ m.imsi = imsi
      ∧ ((m.typ = INSERT_DATA ∧ ∃ n, d' = { x.data with msisdn := n })
        ∨ (m.typ = UPDATE_LOCATION + 2 ∧ (ipaSet {} m.dst).1 = 0 ∧ ∃ v, ackLuResult e.clock x.data (ipaSet {} m.dst).2 v = some d')) := by
  cases hr : s.remote? a with
  | none =>
    unfold remoteRx
    rw [hr]
    exact .inl hx
  | some r =>
    have main : ∀ d k t, Passes cfg e m (s.emit (.remoteRx a m)) d k t → entryOf t.proxy imsi = some x
        ∨ ∃ d', entryOf t.proxy imsi = some { lastUpdate := e.clock, data := d' } ∧ m.imsi = imsi
          ∧ ((m.typ = INSERT_DATA ∧ ∃ n, d' = { x.data with msisdn := n })
            ∨ (m.typ = UPDATE_LOCATION + 2 ∧ (ipaSet {} m.dst).1 = 0 ∧ ∃ v, ackLuResult e.clock x.data (ipaSet {} m.dst).2 v = some d')) := by
      intro d k t hp
      have hdi := (byImsi_some hp.entry).1
      have hd : imsi = d.imsi → x.data = d := by
        intro h
        have := hp.entry
        rw [← hdi, ← h, byImsi_entry] at this
        have hx' : entryOf (s.emit (.remoteRx a m)).proxy imsi = some x := hx
        rw [hx'] at this
        exact Option.some.inj this
      rcases ackFromRemote_some hp.ack with ⟨rfl, -⟩ | ⟨n, ht, rfl⟩ | ⟨y, ht, hy, rfl⟩
      · exact .inl hx
      · rw [entryOf_put]
        split
        · rename_i hi
          have hi : imsi = d.imsi := hi
          exact .inr ⟨_, rfl, by rw [← hdi, hi], .inl ⟨ht, n, by rw [hd hi]⟩⟩
        · exact .inl hx
      · rw [entryOf_put]
        have hyi := (ackLuResult_some hy).1
        split
        · rename_i hi
          have hi : imsi = d.imsi := hi.trans hyi
          exact .inr ⟨_, rfl, by rw [← hdi, hi], .inr ⟨ht, hp.dst, k.name, by rw [hd hi]; exact hy⟩⟩
        · exact .inl hx
    rcases remoteRx_cases cfg e m hr with ⟨d, k, t, -, hp, ⟨-, h⟩ | ⟨-, l, h, -⟩⟩ | ⟨-, l, h, -⟩
    · rw [h]; exact main d k t hp
    · rw [h]; exact main d k t hp
    · rw [h]; exact .inl hx

/-- What one event does to the entry of a subscriber: nothing, one of the changes above, or it is lost. -/
theorem step_entry (cfg : Cfg) (s : Sys) (ev : Ev) {imsi : Bytes} {x : ProxyEntry} (hx : entryOf s.proxy imsi = some x) :
    entryOf (step cfg s ev).proxy imsi = some x
    ∨ (∃ d', entryOf (step cfg s ev).proxy imsi = some { lastUpdate := ev.clock, data := d' } ∧ Changed s ev x.data d')
    ∨ (∃ res e, ev = .lookup imsi res e ∧ Failed res)
    ∨ (∃ c, ev = .proxyGc c ∧ proxyKeeps c x = false)
    ∨ ∃ l, (step cfg s ev).log = l ++ s.log ∧ .restart ∈ l := by
  have hxi := (entryOf_some hx).2
  have pr := pfr_prims cfg
  have fin : ∀ {t : Sys}, PFr s t → entryOf t.proxy imsi = some x
      ∨ (∃ d', entryOf t.proxy imsi = some { lastUpdate := ev.clock, data := d' } ∧ Changed s ev x.data d')
      ∨ (∃ res e, ev = .lookup imsi res e ∧ Failed res)
      ∨ (∃ c, ev = .proxyGc c ∧ proxyKeeps c x = false)
      ∨ ∃ l, t.log = l ++ s.log ∧ .restart ∈ l := by
    intro t h
    rcases h.entry hx with h | h
    · exact .inl h
    · exact .inr (.inr (.inr (.inr h)))
  unfold step
  by_cases hu : s.ub = true
  · rw [if_pos hu]; exact .inl hx
  · rw [if_neg hu]
    cases ev with
    | connect => exact .inl hx
    | ccm c sernr =>
      dsimp only
      split
      · exact .inl hx
      · unfold ccmCb
        split <;> exact .inl hx
    | close c =>
      dsimp only
      split <;> exact .inl hx
    | rx c m e =>
      dsimp only
      rcases entry_rx cfg e c m s hx with h | ⟨m', k, rfl, h2, h3, h4, h5, h6⟩ | h
      · exact .inl h
      · exact .inr (.inl ⟨_, h6, .inr (.inl ⟨c, m', e, k, rfl, h2, h3, h4, h5.trans hxi.symm, rfl⟩)⟩)
      · exact .inr (.inr (.inr (.inr h)))
    | luTimeout nr => exact fin (pr.luTimeout nr (fun _ _ => trivial) (fun _ _ => .same [] rfl rfl rfl rfl))
    | ssTimeout imsi id =>
      exact fin (pr.ssTimeout (fun _ _ _ => .same [] rfl rfl rfl rfl) imsi id (fun _ _ _ _ => trivial))
    | db op sc => exact fin (pr.withDb (api_op trivial) (pr.refl s) (fun a d _ h => h))
    | notify imsi sc =>
      refine fin (pr.withDb (api_getByImsi _) (pr.refl s) (fun a d _ h => ?_))
      split
      · exact pr.trans h (pr.notify _ _ _)
      · exact h
    | nam imsi val isPs sc sc' =>
      refine fin (pr.withDb (api_getByImsi _) (pr.refl s) (fun a d _ h => ?_))
      split
      · exact pr.trans h (pr.nam _ _ _ _ _)
      · exact h
    | remoteUp a =>
      dsimp only
      unfold remoteUp
      split
      · exact .inl hx
      · rename_i r _
        obtain ⟨p, l, h⟩ := repeatCb_frame cfg a true r.cbs (setRemote { r with up := true, cbs := 0 } s)
        rw [h]
        exact .inl hx
    | remoteDown a => exact .inl hx
    | remoteLost a =>
      dsimp only
      unfold remoteLost
      split <;> exact .inl hx
    | remoteRx a m e =>
      dsimp only
      rcases entry_remoteRx cfg e a m s hx with h | ⟨d', h1, h2, ⟨h3, n, h4⟩ | ⟨h3, h4, v, h5⟩⟩
      · exact .inl h
      · exact .inr (.inl ⟨d', h1, .inr (.inr (.inl ⟨a, m, e, n, rfl, h3, h2.trans hxi.symm, h4⟩))⟩)
      · exact .inr (.inl ⟨d', h1, .inr (.inr (.inr ⟨a, m, e, v, rfl, h3, h2.trans hxi.symm, h4, h5⟩))⟩)
    | lookup imsi' res e =>
      dsimp only
      have hdel : (proxyDel cfg imsi' s).proxy = proxyRemove imsi' s.proxy := by
        unfold proxyDel
        dsimp only
        rw [deferredPop_eq]
      have del : Failed res → entryOf (proxyDel cfg imsi' s).proxy imsi = some x ∨ ∃ res' e', Ev.lookup imsi' res e = .lookup imsi res' e' ∧ Failed res' := by
        intro hf
        by_cases hi : imsi = imsi'
        · exact .inr ⟨res, e, by rw [hi], hf⟩
        · exact .inl (by rw [hdel, entryOf_remove hi]; exact hx)
      unfold lookupResult
      split
      · rcases del (fun v h => (by cases h)) with h | h
        · exact .inl h
        · exact .inr (.inr (.inl h))
      · rename_i v4 v6
        split
        · rename_i hz
          rcases del (fun v h => by cases h; simpa using hz) with h | h
          · exact .inl h
          · exact .inr (.inr (.inl h))
        · rename_i hz
          split
          · exact .inl hx
          · rename_i d hd
            have hdi := (byImsi_some hd).1
            have ha : (if v4.nonzero = true then v4 else v6) = foundAddr (v4, v6) := rfl
            have hnz : (foundAddr (v4, v6)).nonzero = true := by
              unfold foundAddr
              dsimp only
              cases h4 : v4.nonzero with
              | true => rw [if_pos rfl]; exact h4
              | false => rw [if_neg (by simp)]; simpa [h4] using hz
            rw [ha]
            unfold remoteResolved
            split
            · exact .inl hx
            · have hput : entryOf (proxyPut e.clock { d with addr := foundAddr (v4, v6) } s).proxy imsi = some x
                  ∨ (∃ d', entryOf (proxyPut e.clock { d with addr := foundAddr (v4, v6) } s).proxy imsi
                      = some { lastUpdate := e.clock, data := d' } ∧ Changed s (.lookup imsi' (some (v4, v6)) e) x.data d') := by
                rw [entryOf_put]
                split
                · rename_i hi
                  have hi : imsi = d.imsi := hi
                  refine .inr ⟨_, rfl, .inl ⟨(v4, v6), e, ?_, hnz, ?_⟩⟩
                  · rw [hxi, hi, hdi]
                  · rw [← hdi, ← hi, byImsi_entry, hx] at hd
                    rw [← Option.some.inj hd]
                · exact .inl hx
              dsimp only
              split
              · rw [connectRemote_proxy]
                rcases hput with h | h
                · exact .inl h
                · exact .inr (.inl h)
              · rcases hput with h | h
                · exact .inl h
                · exact .inr (.inl h)
    | proxyGc clock =>
      cases hk : proxyKeeps clock x with
      | true => exact .inl (entryOf_filter hx _ hk)
      | false => exact .inr (.inr (.inr (.inl ⟨clock, rfl, hk⟩)))
    | kill => exact fin (pr.crash s)

end Verif.Sys
