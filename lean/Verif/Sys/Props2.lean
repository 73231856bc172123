import Verif.Sys.LuHist
import Verif.Sys.Props1
/-!
# Property theorems C26 – C29 (location update)

`run (init d) evs` ranges over every run of the HLR: `evs` is an arbitrary list of
events (messages, timers, connections, provisioning, crashes) and `d` an arbitrary
database.
-/
namespace Verif.Sys.Props
open Verif Verif.Db Verif.Gsup Verif.Hlr

/-! ## Lemmas about histories -/

theorem isNew_eqs {s : Sys} {c : ConnId} {m : Msg} {q : Req} (h : IsNew s c m q) :
    q.nr = s.nextReq ∧ q.conn = c ∧ q.gsup = m := by
  obtain ⟨k, hk, h⟩ := h
  rcases h with ⟨-, -, rfl⟩ | ⟨-, rfl⟩
  · exact ⟨rfl, rfl, rfl⟩
  · have hid := (conn?_some hk).2
    unfold mkReq
    split
    · exact ⟨rfl, hid, rfl⟩
    · exact ⟨rfl, hid, rfl⟩

/-- Every procedure was begun by a message of the history. -/
theorem lus_hist : ∀ (evs : List (Cfg × Ev)) (s : Sys) (lu : Lu), lu ∈ (run s evs).lus → lu ∈ s.lus
    ∨ ∃ e1 cfg c m e e2, evs = e1 ++ (cfg, .rx c (some m) e) :: e2
      ∧ IsNew (run s e1) c m lu.req ∧ m.typ = UPDATE_LOCATION ∧ imsiValid m.imsi = true
      ∧ LuBegun cfg e lu.req (run s e1).db (run s (e1 ++ [(cfg, .rx c (some m) e)])).db lu
  | [], _, _, h => .inl h
  | ev :: l, s, lu, h => by
    obtain ⟨cfg, ev⟩ := ev
    rcases lus_hist l (step cfg s ev) lu h with h1 | ⟨e1, cfg', c, m, e, e2, rfl, h1⟩
    · rcases step_lus cfg s ev lu h1 with h2 | ⟨c, m, e, rfl, h2⟩
      · exact .inl h2
      · exact .inr ⟨[], cfg, c, m, e, l, rfl, h2⟩
    · exact .inr ⟨(cfg, ev) :: e1, cfg', c, m, e, e2, rfl, h1⟩

/-- An Update Location Result is sent only when an acknowledgement of the subscriber data
arrives while the procedure waits. -/
theorem result_hist {c' : ConnId} {m' : Msg} {nr : Nat} (ht : m'.typ = UPDATE_LOCATION + 2) :
    ∀ (evs : List (Cfg × Ev)) (s : Sys), .tx c' m' (some nr) ∈ (run s evs).log → .tx c' m' (some nr) ∈ s.log
    ∨ ∃ e1 cfg c ack e e2, evs = e1 ++ (cfg, .rx c (some ack) e) :: e2 ∧ ack.typ = INSERT_DATA + 2
      ∧ ∃ lu ∈ (run s e1).lus, lu.req.nr = nr
        ∧ (m'.dst = lu.req.gsup.src ∧ m'.imsi = lu.req.gsup.imsi) ∧ ack.imsi = lu.subscr.imsi
  | [], _, h => .inl h
  | ev :: l, s, h => by
    obtain ⟨cfg, ev⟩ := ev
    rcases result_hist ht l (step cfg s ev) h with h0 | ⟨e1, cfg', c, ack, e, e2, rfl, h0⟩
    · obtain ⟨lg, el, hr⟩ := step_resp (s := s) cfg ev
      rw [el] at h0
      rcases List.mem_append.1 h0 with h3 | h3
      · rcases hr with ⟨c, mo, e, rs, rfl, -, hr⟩ | ⟨-, hr⟩
        · obtain ⟨lu, hl, hn, hd, m, rfl, h1, h2⟩ := (hr _ _ _ h3).2 ht
          exact .inr ⟨[], cfg, c, m, e, l, rfl, h1, lu, hl, hn, hd, h2⟩
        · exact absurd ((hr _ _ _ h3).2 ht) id
      · exact .inl h3
    · exact .inr ⟨(cfg, ev) :: e1, cfg', c, ack, e, e2, rfl, h0⟩

theorem strlcpy_valid {imsi : Bytes} (h : imsiValid imsi = true) : strlcpy 16 imsi = imsi := by
  have := (isNDigits_spec.1 h).2.1
  unfold strlcpy
  exact List.take_of_length_le (by omega)

/-! ## C27: granted only when allowed and recorded -/

/-- An Update Location Result is sent only after: an Update Location Request was received, for the
same subscriber and with the source name that the result has as its destination;
when it was handled, the subscriber existed, was allowed in the domain, and the database
had stored the name of the requesting node, that of its proxy and the time; and then the
subscriber data was acknowledged. -/
theorem c27_granted (d : Db) (evs : List (Cfg × Ev)) {c' : ConnId} {m' : Msg} {nr : Nat}
    (h : .tx c' m' (some nr) ∈ (run (init d) evs).log) (ht : m'.typ = UPDATE_LOCATION + 2) :
    ∃ e1 cfg c m e e2 cfga ca ack ea e3,
      evs = e1 ++ (cfg, .rx c (some m) e) :: e2 ++ (cfga, .rx ca (some ack) ea) :: e3
      ∧ m.typ = UPDATE_LOCATION ∧ nr = (run (init d) e1).nextReq
      ∧ m'.dst = m.src ∧ m'.imsi = m.imsi ∧ ack.typ = INSERT_DATA + 2 ∧ ack.imsi = m.imsi
      ∧ ∃ q n via t, IsNew (run (init d) e1) c m q ∧ q.source.isEmpty = false
        ∧ q.source.cstr = some n ∧ viaName q.viaProxy = some via ∧ e.now = some t
        ∧ Recorded (run (init d) (e1 ++ [(cfg, .rx c (some m) e)])).db m.imsi (!m.isCs) n via t := by
  rcases result_hist ht evs (init d) h with h | ⟨e0, cfga, ca, ack, ea, e3, rfl, hack, lu, hl, hn, hd, hi⟩
  · simp [init] at h
  rcases lus_hist e0 (init d) lu hl with h | ⟨e1, cfg, c, m, e, e2, rfl, hq, htyp, hv, hb⟩
  · simp [init] at h
  obtain ⟨h1, h2, h3⟩ := isNew_eqs hq
  have hp := (luStart_post cfg e lu.req).exec (run (init d) e1).db e.sc trivial
  rw [hb.exec] at hp
  obtain ⟨hs, hsub, n, via, t, hn', hv', ht', hr⟩ := hp _ rfl
  rw [h3] at hsub hr
  refine ⟨e1, cfg, c, m, e, e2, cfga, ca, ack, ea, e3, rfl, htyp, ?_, by rw [hd.1, h3], by rw [hd.2, h3], hack, ?_,
    lu.req, n, via, t, hq, hs, hn', hv', ht', hr⟩
  · rw [← hn, h1]
  · rw [hi, hsub, strlcpy_valid hv]

/-- The subscriber data, too, is sent to a requester only in that case: no procedure waits
that did not record the serving node. -/
theorem c27_waiting (d : Db) (evs : List (Cfg × Ev)) {lu : Lu} (h : lu ∈ (run (init d) evs).lus) :
    ∃ e1 cfg c e e2, evs = e1 ++ (cfg, .rx c (some lu.req.gsup) e) :: e2
      ∧ IsNew (run (init d) e1) c lu.req.gsup lu.req ∧ lu.req.gsup.typ = UPDATE_LOCATION
      ∧ lu.isPs = !lu.req.gsup.isCs ∧ lu.subscr.imsi = lu.req.gsup.imsi
      ∧ ∃ n via t, lu.req.source.cstr = some n ∧ viaName lu.req.viaProxy = some via ∧ e.now = some t
        ∧ Recorded (run (init d) (e1 ++ [(cfg, .rx c (some lu.req.gsup) e)])).db lu.req.gsup.imsi lu.isPs n via t := by
  rcases lus_hist evs (init d) lu h with h | ⟨e1, cfg, c, m, e, e2, rfl, hq, htyp, hv, hb⟩
  · simp [init] at h
  obtain ⟨h1, h2, h3⟩ := isNew_eqs hq
  subst h3
  have hp := (luStart_post cfg e lu.req).exec (run (init d) e1).db e.sc trivial
  rw [hb.exec] at hp
  obtain ⟨hs, hsub, n, via, t, hn', hv', ht', hr⟩ := hp _ rfl
  rw [← hb.isPs] at hr
  exact ⟨e1, cfg, c, e, e2, rfl, hq, htyp, hb.isPs, hsub.trans (strlcpy_valid hv), n, via, t, hn', hv', ht', hr⟩

/-- When nothing fails, the outcome of an Update Location Request: network failure without
a name of the requester, the configured cause if the subscriber does not exist (after
creation on demand), "PLMN not allowed" or "GPRS services not allowed" if the domain is
disabled, else the procedure goes on. -/
theorem c27_outcome (cfg : Cfg) (e : Env) (q : Req) (d : Db) (hU : Unique d) (hs : AllOk e.sc) {t : Int}
    (ht : e.now = some t) {n : Bytes} (hn : q.source.cstr = some n) {via : Option Bytes}
    (hv : viaName q.viaProxy = some via) :
    let d1 := (exec (createOnDemand cfg.hlr e.rnd q.gsup.imsi) d []).2
    let r := exec (luStartDb cfg e q) d e.sc
    (q.source.isEmpty = true → r = (some (.fail .netFail), d1))
    ∧ (q.source.isEmpty = false →
      ((∀ row ∈ d1.subs, row.imsi ≠ q.gsup.imsi) → r = (some (.fail cfg.hlr.rejectCause), d1))
      ∧ (∀ row ∈ d1.subs, row.imsi = q.gsup.imsi →
        (q.gsup.isCs = true → row.namCs = false → r = (some (.fail .plmnNotAllowed), d1))
        ∧ (q.gsup.isCs = false → row.namPs = false → r = (some (.fail .gprsNotAllowed), d1))
        ∧ ((if q.gsup.isCs then row.namCs else row.namPs) = true →
          ∃ d2, r = (some (.wait (HlrSubscr.ofRow row)), d2)))) := by
  intro d1 r
  have hu : Uniform (luStartDb cfg e q) := by
    unfold luStartDb
    refine .bind (createOnDemand_uniform _ _ _) (fun _ => .ite (.pure _) (.bind (dbSel_uniform _) (fun x => ?_)))
    have fin : ∀ id n ps via sub, Uniform (do
        let rc ← subscrLu id n ps via e.now
        if rc ≠ 0 then pure (.fail .netFail) else pure (.wait sub) : DbM LuRes) :=
      fun _ _ _ _ _ => .bind (subscrLu_uniform _ _ _ _ _) (fun _ => .ite (.pure _) (.pure _))
    split
    · exact .pure _
    · dsimp only
      refine .ite (.pure _) (.ite (.pure _) ?_)
      split
      · exact .pure _
      · exact fin _ _ _ _ _
      · refine .ite (fin _ _ _ _ _) ?_
        split
        · exact .pure _
        · exact fin _ _ _ _ _
  have hr : r = exec (luStartDb cfg e q) d [] := hu.exec d hs
  obtain ⟨rc, d', h1, -⟩ := createOnDemand_uniform cfg.hlr e.rnd q.gsup.imsi d
  have hd1 : d1 = d' := by simp only [d1, exec, h1]
  have hU1 : Unique d1 := Linked.keeps ((api_cod (fun _ _ => trivial) cfg.hlr e.rnd q.gsup.imsi).linked d []) unique_op hU
  rw [hd1] at hU1 ⊢
  rw [hr]
  clear_value d1 r
  subst hd1
  unfold exec luStartDb
  rw [bind_run, h1]
  dsimp only
  constructor
  · intro h; rw [if_pos h]; rfl
  · intro h
    rw [if_neg (by simp [h])]
    constructor
    · intro hk
      rw [bind_run]
      have : getByImsi q.gsup.imsi { db := d1, script := [] }
          = (some (-ENOENT, none), { db := d1, script := [] }) := by
        unfold getByImsi dbSel
        rw [bind_run, stmt_ok]
        simp only [sqlSel]
        cases hf : d1.subs.find? (fun r => r.imsi == q.gsup.imsi) with
        | none => rfl
        | some r =>
          have h2 := List.find?_some hf
          exact absurd (by simpa using h2) (hk r (List.mem_of_find?_eq_some hf))
      rw [this]
      rfl
    · intro row hrow hi
      have hg : getByImsi q.gsup.imsi { db := d1, script := [] }
          = (some (0, some row), { db := d1, script := [] }) := by
        unfold getByImsi dbSel
        rw [bind_run, stmt_ok]
        simp only [sqlSel]
        cases hf : d1.subs.find? (fun r => r.imsi == q.gsup.imsi) with
        | none =>
          have := List.find?_eq_none.mp hf row hrow
          simp [hi] at this
        | some r =>
          have h2 := List.find?_some hf
          have h3 : r.imsi = row.imsi := by rw [hi]; simpa using h2
          rw [eq_of_nodup_map hU1.imsis (List.mem_of_find?_eq_some hf) hrow h3]
          rfl
      rw [bind_run, hg]
      dsimp only
      have e1 : (HlrSubscr.ofRow row).namCs = row.namCs := rfl
      have e2 : (HlrSubscr.ofRow row).namPs = row.namPs := rfl
      have e3 : (HlrSubscr.ofRow row).id = row.id := rfl
      rw [e1, e2, e3]
      have fin : ∀ via', via' = via → ∃ d2, ((do
            let rc ← subscrLu row.id n (!q.gsup.isCs) via' e.now
            if rc ≠ 0 then pure (.fail .netFail) else pure (.wait (HlrSubscr.ofRow row)) : DbM LuRes)
              { db := d1, script := [] }).1 = some (.wait (HlrSubscr.ofRow row)) ∧ ((do
            let rc ← subscrLu row.id n (!q.gsup.isCs) via' e.now
            if rc ≠ 0 then pure (.fail .netFail) else pure (.wait (HlrSubscr.ofRow row)) : DbM LuRes)
              { db := d1, script := [] }).2.db = d2 := by
        rintro via' rfl
        obtain ⟨rc', d2, h4, -⟩ := subscrLu_uniform row.id n (!q.gsup.isCs) via' e.now d1
        have h5 : rc' = 0 := by
          have hex : exec (subscrLu row.id n (!q.gsup.isCs) via' e.now) d1 [] = (some rc', d2) := by
            simp only [exec, h4]
          have hc1 : d1.subs.countP (·.id == row.id) = 1 := by
            rcases countP_id_cases d1 hU1 row.id with ⟨h, -⟩ | ⟨-, h⟩
            · exact h
            · exact absurd ⟨row, hrow, rfl⟩ h
          rcases exec_lu d1 [] row.id n (!q.gsup.isCs) via' e.now with ⟨hf, -⟩ | ⟨hf, -⟩ | ⟨-, hc, -⟩ | ⟨-, -, h⟩
          · cases hf
          · cases hf
          · exact absurd hc1 hc
          · rcases h with ⟨h6, -⟩ | ⟨t, -, hf, -⟩ | ⟨t, -, hf, -⟩ | ⟨t, -, -, h6⟩
            · rw [ht] at h6; cases h6
            · cases hf
            · cases hf
            · rw [hex] at h6
              exact Option.some.inj (congrArg Prod.fst h6)
        subst h5
        refine ⟨d2, ?_, ?_⟩ <;> rw [bind_run, h4] <;> rfl
      refine ⟨?_, ?_, ?_⟩
      · intro h1 h2; rw [if_pos (by simp [h1, h2])]; rfl
      · intro h1 h2; rw [if_neg (by simp [h1]), if_pos (by simp [h1, h2])]; rfl
      · intro h1
        rw [if_neg (by revert h1; cases q.gsup.isCs <;> cases row.namCs <;> simp),
          if_neg (by revert h1; cases q.gsup.isCs <;> cases row.namPs <;> simp), hn]
        cases hp : q.viaProxy with
        | empty =>
          rw [hp] at hv
          obtain ⟨d2, h2, h3⟩ := fin none (Option.some.inj hv)
          exact ⟨d2, Prod.ext h2 h3⟩
        | ipa p =>
          rw [hp] at hv
          simp only [viaName] at hv
          dsimp only
          by_cases he : p.isEmpty = true
          · rw [if_pos he] at hv ⊢
            obtain ⟨d2, h2, h3⟩ := fin none (Option.some.inj hv)
            exact ⟨d2, Prod.ext h2 h3⟩
          · rw [if_neg he] at hv ⊢
            cases hc : p.cstr with
            | none => rw [hc] at hv; cases hv
            | some pn =>
              rw [hc] at hv
              obtain ⟨d2, h2, h3⟩ := fin (some pn) (Option.some.inj hv)
              exact ⟨d2, Prod.ext h2 h3⟩

/-- The conditions under which a message is looked at: the source name IE is acceptable,
the IMSI valid, and the name of a proxied source is not taken. -/
structure Arrives (s : Sys) (c : ConnId) (k : Conn) (m : Msg) : Prop where
  conn : s.conn? c = some k
  src : m.src.length ≤ 128
  imsi : Digits 6 15 m.imsi
  free : m.src = [] ∨ m.src = k.name.name ∨ ∀ c', routeFind s.routes m.src = some c' → c' = c

/-- The name this HLR is addressed by, as it appears in messages. -/
def myIpaName (cfg : Cfg) : Bytes := cfg.myName.take 127 ++ [0]

/-- The conditions under which a message is handed to its handler: it is addressed to
nobody or to this HLR. -/
structure Accepted (cfg : Cfg) (s : Sys) (c : ConnId) (k : Conn) (m : Msg) : Prop extends Arrives s c k m where
  mine : m.dst = [] ∨ m.dst = myIpaName cfg

/-- A message is for another node if it names a destination (of a length that a name can
have) that is not this HLR. -/
theorem forOther_iff (cfg : Cfg) (m : Msg) : forOther cfg m = true
    ↔ m.dst ≠ [] ∧ m.dst.length ≤ 128 ∧ m.dst ≠ myIpaName cfg := by
  have wf : ({} : IpaName).WF := ⟨List.length_replicate, Nat.zero_le _⟩
  unfold forOther
  rw [Bool.and_eq_true, Bool.and_eq_true]
  have h1 : (ipaSet {} m.dst).1 = 0 ↔ m.dst.length ≤ 128 := by
    unfold ipaSet
    split
    · rename_i h
      have : m.dst = [] := by simpa using h
      simp [this]
    · split
      · rename_i h; exact ⟨fun h' => absurd h' (by decide), fun h' => absurd h' (by omega)⟩
      · rename_i h; exact ⟨fun _ => by omega, fun _ => rfl⟩
  constructor
  · rintro ⟨⟨ha, hb⟩, hc⟩
    have hb' : (ipaSet {} m.dst).1 = 0 := by simpa using hb
    refine ⟨by simpa using ha, h1.1 hb', fun he => ?_⟩
    have hc' : ipaCmp (ipaSet {} m.dst).2 (ipaSetStr {} cfg.myName).2 ≠ 0 := by simpa using hc
    apply hc'
    rw [Gsup.Props.c25_cmp_eq (ipaSet_wf wf _) (ipaSetStr_wf wf _), name_set hb', Gsup.Props.c25_set_str]
    exact he
  · rintro ⟨ha, hb, hc⟩
    have hb' := h1.2 hb
    refine ⟨⟨by simpa using ha, by simpa using hb'⟩, ?_⟩
    have : ipaCmp (ipaSet {} m.dst).2 (ipaSetStr {} cfg.myName).2 ≠ 0 := by
      intro h0
      rw [Gsup.Props.c25_cmp_eq (ipaSet_wf wf _) (ipaSetStr_wf wf _), name_set hb', Gsup.Props.c25_set_str] at h0
      exact hc h0
    simpa using this

theorem Accepted.notOther {cfg : Cfg} {s : Sys} {c : ConnId} {k : Conn} {m : Msg} (h : Accepted cfg s c k m) :
    forOther cfg m = false := by
  cases hf : forOther cfg m with
  | false => rfl
  | true =>
    obtain ⟨a, -, b⟩ := (forOther_iff cfg m).1 hf
    rcases h.mine with h | h
    · exact absurd h a
    · exact absurd h b

theorem ipaSet_ok {n : IpaName} {v : Bytes} (h : v.length ≤ 128) : (ipaSet n v).1 = 0 := by
  unfold ipaSet
  split
  · rfl
  · rw [if_neg (by omega)]

/-- The state when a message is looked at. -/
abbrev received (s : Sys) (c : ConnId) (k : Conn) (m : Msg) : Sys :=
  { s with nextReq := s.nextReq + 1, routes := routesFor s c (mkReq k s.nextReq m),
           log := .rx s.nextReq c (some m) :: s.log }

theorem mkReq_gsup (k : Conn) (nr : Nat) (m : Msg) : (mkReq k nr m).gsup = m := by unfold mkReq; split <;> rfl
theorem mkReq_nr (k : Conn) (nr : Nat) (m : Msg) : (mkReq k nr m).nr = nr := by unfold mkReq; split <;> rfl

theorem step_arrives {cfg : Cfg} {s : Sys} (hr : Reach s) (hu : s.ub = false) {c : ConnId} {k : Conn} {m : Msg}
    (h : Arrives s c k m) (e : Env) :
    step cfg s (.rx c (some m) e) = readCb cfg e k (mkReq k s.nextReq m) (received s c k m) := by
  obtain ⟨P, hi, hP⟩ := reach_done hr
  obtain ⟨hm, hid⟩ := conn?_some h.conn
  unfold step
  rw [if_neg (by simp [hu])]
  show rx cfg e c (some m) s = _
  unfold rx
  rw [h.conn]
  dsimp only
  have hsr := ipaSet_ok (n := k.name) h.src
  rw [if_neg (by simp [hsr]), if_neg (by simp [imsiValid, isNDigits_spec.2 h.imsi])]
  unfold received connRx routesFor
  split
  · rfl
  · rename_i hv
    have hv' : (mkReq k s.nextReq m).viaProxy.isEmpty = false := by simpa using hv
    have hsrc : m.src.isEmpty = false ∧ ipaCmp (ipaSet k.name m.src).2 k.name ≠ 0
        ∧ (mkReq k s.nextReq m).source = (ipaSet k.name m.src).2 := by
      unfold mkReq at hv'
      unfold mkReq
      split at hv'
      · simp [PeerId.isEmpty] at hv'
      · rename_i hs
        dsimp only at hv'
        rw [if_neg hs]
        refine ⟨by simpa using hs, ?_, rfl⟩
        intro h0
        rw [if_neg (by simp [h0])] at hv'
        simp [PeerId.isEmpty] at hv'
    obtain ⟨h1, h2, h3⟩ := hsrc
    have hne : m.src ≠ [] := by intro h0; rw [h0] at h1; simp at h1
    have hname : (mkReq k s.nextReq m).source.name = m.src := by rw [h3]; exact name_set hsr
    have hadd : (routeAdd s.routes k.id (mkReq k s.nextReq m).source.name).1 = 0 := by
      unfold routeAdd
      rw [hname]
      split
      · rename_i c' hc'
        rcases h.free with h0 | h0 | h0
        · exact absurd h0 hne
        · exfalso
          apply h2
          have wf := hi.connWf k hm
          rw [ipaCmp_eq (ipaSet_wf wf _) wf, lexCmp_eq_zero, name_set hsr, h0]
        · rw [if_pos ((h0 c' hc').trans hid.symm)]
      · rfl
    dsimp only
    rw [if_neg (by simp [hadd])]
    rw [hid]

/-- An accepted message of a subscriber of this HLR (`Local`: distributed GSM is off, or
the subscriber is in the local database) reaches its handler. -/
theorem step_accepted {cfg : Cfg} {s : Sys} (hr : Reach s) (hu : s.ub = false) {c : ConnId} {k : Conn} {m : Msg}
    (h : Accepted cfg s c k m) (e : Env) (hloc : Local e m s) :
    step cfg s (.rx c (some m) e) = dispatch cfg e k (mkReq k s.nextReq m) (received s c k m) := by
  rw [step_arrives hr hu h.toArrives e]
  refine readCb_local ?_ (by rw [mkReq_gsup]; exact h.notOther)
  rw [mkReq_gsup]
  exact hloc

/-- An error response to a request, when the peer is registered and the message can be
encoded. -/
theorem respondErr_log (cfg : Cfg) (s : Sys) (q : Req) (cause : Cause) (hreq : isRequest q.gsup.typ = true)
    {c : ConnId} (hr : routeFind s.routes q.source.name = some c)
    (henc : ∀ m, cfg.enc m = true) (hne : toError q.gsup.typ ≠ ROUTING_ERROR) :
    ∃ M, M.typ = toError q.gsup.typ ∧ M.cause = some cause ∧ M.imsi = q.gsup.imsi
      ∧ (respondErr cfg s q cause).log = .concl q.nr .answered :: .tx c M (some q.nr) :: s.log := by
  unfold respondErr
  rw [if_neg (by simp [hreq])]
  refine ⟨(makeResponse { cause := some cause } q.gsup true true).2, by simp [makeResponse, fillResponse],
    by simp [makeResponse, fillResponse], by simp [makeResponse, fillResponse], ?_⟩
  rw [c22_response_sent]
  have hrt : q.routing (makeResponse { cause := some cause } q.gsup true true).2 = q.source := by
    unfold Req.routing
    split
    · rw [if_neg]
      rintro ⟨h, -⟩
      exact hne (by simpa [makeResponse, fillResponse] using h)
    · rfl
  rw [hrt, hr]
  simp [henc, makeResponse, responseRc, fillResponse]

/-- An Update Location Request that is refused is answered at once with an Update Location
Error carrying the cause of `c27_outcome`, and no procedure is started. -/
theorem c27_refused {cfg : Cfg} {s : Sys} (hr : Reach s) (hu : s.ub = false) {c : ConnId} {k : Conn} {m : Msg}
    (h : Accepted cfg s c k m) (ht : m.typ = UPDATE_LOCATION) (e : Env) (hloc : Local e m s)
    {cause : Cause} {d' : Db}
    (hx : exec (luStartDb cfg e (mkReq k s.nextReq m)) s.db e.sc = (some (.fail cause), d'))
    (hreg : routeFind (routesFor s c (mkReq k s.nextReq m)) (mkReq k s.nextReq m).source.name = some c)
    (henc : ∀ m, cfg.enc m = true) :
    ∃ M, M.typ = UPDATE_LOCATION + 1 ∧ M.cause = some cause ∧ M.imsi = m.imsi
      ∧ (step cfg s (.rx c (some m) e)).log
        = .concl s.nextReq .answered :: .tx c M (some s.nextReq) :: .rx s.nextReq c (some m) :: s.log
      ∧ (step cfg s (.rx c (some m) e)).lus = s.lus ∧ (step cfg s (.rx c (some m) e)).db = d' := by
  have hg : (mkReq k s.nextReq m).gsup = m := by unfold mkReq; split <;> rfl
  have hnr : (mkReq k s.nextReq m).nr = s.nextReq := by unfold mkReq; split <;> rfl
  rw [step_accepted hr hu h e hloc]
  unfold dispatch
  rw [if_neg (by rw [hg, ht]; decide), if_pos (by rw [hg, ht])]
  unfold rxUpdLocReq
  dsimp only
  generalize (if (mkReq k s.nextReq m).gsup.isCs = true then ({ k with supportsCs := true } : Conn)
    else { k with supportsPs := true }) = k'
  unfold withDb
  dsimp only [setConn]
  rw [hx]
  dsimp only
  generalize hT : ({ s with
    db := d', conns := s.conns.map (fun x => if x.id == k'.id then k' else x),
    routes := routesFor s c (mkReq k s.nextReq m), nextReq := s.nextReq + 1,
    log := .rx s.nextReq c (some m) :: s.log } : Sys) = T
  obtain ⟨M, h1, h2, h3, h4⟩ := respondErr_log cfg T (mkReq k s.nextReq m) cause
    (by rw [hg, ht]; decide) (by rw [← hT]; exact hreg) henc (by rw [hg, ht]; decide)
  rw [hg, ht] at h1
  rw [hg] at h3
  refine ⟨M, h1, h2, h3, ?_, ?_, ?_⟩
  · rw [h4, hnr, ← hT]
  · rw [respondErr_frame, ← hT]
  · rw [respondErr_frame, ← hT]

/-! ## C28: every location update ends -/

/-- Requests and procedures belong together, one to one: the request of a procedure is an
open Update Location Request, no two procedures share one, and an open Update Location
Request has a procedure (or waits for a remote HLR). -/
theorem c28_no_orphans {s : Sys} (h : Reach s) (hu : s.ub = false) :
    (s.lus.map (·.req.nr)).Nodup
    ∧ (∀ lu ∈ s.lus, isOpen lu.req.nr s.log = true ∧ lu.req.gsup.typ = UPDATE_LOCATION
        ∧ .rx lu.req.nr lu.req.conn (some lu.req.gsup) ∈ s.log)
    ∧ (∀ nr c m, .rx nr c (some m) ∈ s.log → m.typ = UPDATE_LOCATION → isOpen nr s.log = true →
        (∃ lu ∈ s.lus, lu.req.nr = nr ∧ lu.req.gsup = m) ∨ ∃ q ∈ s.pending, q.nr = nr ∧ q.gsup = m) := by
  obtain ⟨P, hi, hP⟩ := reach_done h
  cases hP hu
  refine ⟨?_, ?_, ?_⟩
  · have := hi.nodup
    unfold waiting at this
    simp only [List.nil_append, List.map_append, List.map_map] at this
    exact (List.nodup_append.1 (List.nodup_append.1 this).1).1
  · intro lu hl
    have hw : lu.req ∈ [] ++ waiting s := by
      simp only [List.nil_append, waiting]
      exact waiting_lu hl
    exact ⟨(hi.isopen _).2 (List.mem_map_of_mem hw), (hi.lus lu hl).1, hi.logged _ hw⟩
  · intro nr c m hrx ht ho
    rw [hi.isopen] at ho
    obtain ⟨q, hq, rfl⟩ := List.mem_map.1 ho
    obtain ⟨-, hm⟩ := rx_once hi.good hrx (hi.logged q hq)
    cases hm
    rw [List.nil_append] at hq
    rcases waiting_cases hq with ⟨lu, hl, rfl⟩ | ⟨x, hx, hr⟩ | hq
    · exact .inl ⟨lu, hl, rfl, rfl⟩
    · have := (hi.sessReq x hx q hr).1
      rw [ht] at this
      exact absurd this (by unfold IsSs; decide)
    · exact .inr ⟨q, hq, rfl, rfl⟩

/-- When the timer of a procedure expires, its request is answered with an Update Location
Error and concluded, and the procedure, and no other, is gone. -/
theorem c28_timer {cfg : Cfg} {s : Sys} (h : Reach s) (hu : s.ub = false) {lu : Lu} (hl : lu ∈ s.lus)
    (henc : ∀ m, cfg.enc m = true) :
    ∃ M, M.typ = UPDATE_LOCATION + 1 ∧ M.cause = some .netFail ∧
      (step cfg s (.luTimeout lu.req.nr)).log = .concl lu.req.nr .answered ::
        ((routeFind s.routes lu.req.source.name).toList.map (fun c => .tx c M (some lu.req.nr)) ++ s.log)
      ∧ (step cfg s (.luTimeout lu.req.nr)).lus = s.lus.erase lu
      ∧ (step cfg s (.luTimeout lu.req.nr)).sess = s.sess := by
  obtain ⟨hn, ho, -⟩ := c28_no_orphans h hu
  have ht := (ho lu hl).2.1
  have hf : s.lus.find? (fun x => x.req.nr == lu.req.nr) = some lu := by
    cases hx : s.lus.find? (fun x => x.req.nr == lu.req.nr) with
    | none => exact absurd (List.find?_eq_none.1 hx lu hl) (by simp)
    | some y =>
      have h1 : (y.req.nr == lu.req.nr) = true := by have := List.find?_some hx; exact this
      have h2 : y.req.nr = lu.req.nr := by simpa using h1
      rw [eq_of_nodup_map (f := fun x : Lu => x.req.nr) hn (List.mem_of_find?_eq_some hx) hl h2]
  have e : step cfg s (.luTimeout lu.req.nr)
      = { respondErr cfg s lu.req .netFail with lus := (respondErr cfg s lu.req .netFail).lus.erase lu } := by
    unfold step
    rw [if_neg (by simp [hu])]
    show luTimeout cfg lu.req.nr s = _
    unfold luTimeout
    rw [hf]
  rw [e]
  cases hr : routeFind s.routes lu.req.source.name with
  | some c =>
    obtain ⟨M, h1, h2, -, h4⟩ := respondErr_log cfg s lu.req .netFail (by rw [ht]; decide) hr henc
      (by rw [ht]; decide)
    rw [ht] at h1
    exact ⟨M, h1, h2, h4, by dsimp only; rw [respondErr_frame], by dsimp only; rw [respondErr_frame]⟩
  | none =>
    refine ⟨{ typ := UPDATE_LOCATION + 1, cause := some .netFail }, rfl, rfl, ?_,
      by dsimp only; rw [respondErr_frame], by dsimp only; rw [respondErr_frame]⟩
    have hrq : isRequest lu.req.gsup.typ = true := by rw [ht]; decide
    dsimp only
    unfold respondErr
    rw [if_neg (by simp [hrq]), c22_response_sent]
    have hrt : lu.req.routing (makeResponse { cause := some .netFail } lu.req.gsup true true).2 = lu.req.source := by
      unfold Req.routing
      split
      · rw [if_neg]
        rintro ⟨h, -⟩
        have : toError lu.req.gsup.typ = ROUTING_ERROR := by simpa [makeResponse, fillResponse] using h
        rw [ht] at this
        exact absurd this (by decide)
      · rfl
    rw [hrt, hr]
    simp

/-- An Update Location Request is concluded by an answer (or by passing it on, if it is for
another node), never silently. -/
theorem c28_answered {s : Sys} (h : Reach s) {nr : Nat} {c : ConnId} {m : Msg} {how : How}
    (hrx : .rx nr c (some m) ∈ s.log) (ht : m.typ = UPDATE_LOCATION) (hc : .concl nr how ∈ s.log) :
    how = .answered ∨ how = .forwarded := by
  cases how with
  | answered => exact .inl rfl
  | forwarded => exact .inr rfl
  | dropped => exact absurd (.inr (.inl ht)) (c22_not_dropped_partial h hrx hc)
  | session =>
    have := c22_session_only_ss h hrx hc
    rw [ht] at this
    exact absurd this (by unfold IsSs; decide)

/-- At most one Update Location Result or Error (or Routing Error): after any response to
an Update Location Request other than the subscriber data nothing more is sent, it is not
passed on to another HLR, and the request is concluded. -/
theorem c28_one_answer {s : Sys} (h : Reach s) {nr : Nat} {c c0 : ConnId} {m m0 : Msg}
    {l1 l2 : List Out} (hl : s.log = l1 ++ .tx c m (some nr) :: l2) (hrx : .rx nr c0 (some m0) ∈ s.log)
    (ht : m0.typ = UPDATE_LOCATION) (hm : m.typ ≠ INSERT_DATA) :
    (∀ c' m', .tx c' m' (some nr) ∉ l1)
    ∧ (∀ a m', .remote a m' (some nr) ∉ l1)
    ∧ (s.ub = false → (∃ how, .concl nr how ∈ l1) ∨ .restart ∈ l1) := by
  refine c22_one_final_response h hl hrx ?_
  rintro (⟨-, h1⟩ | h1)
  · exact hm h1
  · rw [ht] at h1
    exact absurd h1 (by unfold IsSs; decide)

/-! ## C29: only the own acknowledgement completes -/

/-- Only an acknowledgement of subscriber data, for the IMSI of the procedure, completes
it.  Missing from the full
property: that it comes from the requesting node and is about the same domain. -/
theorem c29_completed_partial (d : Db) (evs : List (Cfg × Ev)) {c' : ConnId} {m' : Msg} {nr : Nat}
    (h : .tx c' m' (some nr) ∈ (run (init d) evs).log) (ht : m'.typ = UPDATE_LOCATION + 2) :
    ∃ e1 cfg c ack e e2, evs = e1 ++ (cfg, .rx c (some ack) e) :: e2 ∧ ack.typ = INSERT_DATA + 2
      ∧ ∃ lu ∈ (run (init d) e1).lus, lu.req.nr = nr ∧ ack.imsi = lu.req.gsup.imsi := by
  rcases result_hist ht evs (init d) h with h | ⟨e1, cfg, c, ack, ea, e2, rfl, hack, lu, hl, hn, hd, hi⟩
  · simp [init] at h
  · obtain ⟨-, -, -, -, -, -, -, -, -, h2, -⟩ := c27_waiting d e1 hl
    exact ⟨e1, cfg, c, ack, ea, e2, rfl, hack, lu, hl, hn, hi.trans h2⟩

/-! ## The database of the running HLR

What Verif.Db.Props proves of every sequence of database calls holds at every point of
every run of the HLR. -/

/-- C01 in the running HLR: identities stay unique. -/
theorem c01_running (d : Db) (hd : Unique d) (evs : List (Cfg × Ev)) : Unique (run (init d) evs).db :=
  (run_linked (init d) evs).keeps unique_op hd

/-- C07 in the running HLR: stored key material stays valid. -/
theorem c07_running (d : Db) (hd : KeysOk d) (evs : List (Cfg × Ev)) : KeysOk (run (init d) evs).db :=
  (run_linked (init d) evs).keeps keysOk_op hd

/-- C09 in the running HLR: stored identities stay valid. -/
theorem c09_running (d : Db) (hd : IdentitiesOk d) (evs : List (Cfg × Ev)) :
    IdentitiesOk (run (init d) evs).db :=
  (run_linked (init d) evs).keeps identitiesOk_op hd

/-! ## C26: the stored name -/

/-- A name without NUL in it. -/
def NoNul (v : Bytes) : Prop := ∀ x ∈ v, x ≠ 0

theorem cstr_terminated {l v w : Bytes} (hv : NoNul v) (h : l = v ++ 0 :: w) : l.takeWhile (· != 0) = v := by
  subst h
  rw [List.takeWhile_append_of_pos (fun x hx => by simpa using hv x hx)]
  simp

/-- The name of the request, read as C string, is what the node called itself: in the
source name IE if there is one, else when it identified itself on its connection; provided
the name was sent with its terminating NUL. -/
theorem c26_name_partial {s : Sys} {c : ConnId} {k : Conn} {m : Msg} {q : Req} (h : IsNew s c m q)
    (hk : s.conn? c = some k) {v : Bytes} (hv : NoNul v) (hlen : v.length < 128)
    (hs : m.src = v ++ [0] ∨ (m.src = [] ∧ k.name.name = v ++ [0])) : q.source.cstr = some v := by
  obtain ⟨k', hk', h⟩ := h
  rw [hk] at hk'
  cases hk'
  have term : ∀ (n : IpaName) w, n.val = v ++ 0 :: w → n.cstr = some v := by
    intro n w e
    unfold IpaName.cstr
    rw [if_pos (by rw [e]; simp), cstr_terminated hv e]
  rcases hs with hs | ⟨hs, hn⟩
  · have hset : (ipaSet k.name m.src).1 = 0 := ipaSet_ok (by rw [hs]; simp; omega)
    rcases h with ⟨-, h1, -⟩ | ⟨-, rfl⟩
    · exact absurd hset h1
    · have e1 : (mkReq k s.nextReq m).source = (ipaSet k.name m.src).2 := by
        unfold mkReq
        rw [if_neg (by rw [hs]; simp)]
      rw [e1]
      refine term _ (k.name.val.drop (v.length + 1)) ?_
      unfold ipaSet
      rw [if_neg (by rw [hs]; simp), if_neg (by rw [hs]; simp; omega), hs]
      simp
  · have e1 : q.source = k.name := by
      rcases h with ⟨-, -, rfl⟩ | ⟨-, rfl⟩
      · rfl
      · unfold mkReq; rw [if_pos (by rw [hs]; rfl)]
    rw [e1]
    refine term _ (k.name.val.drop k.name.len) ?_
    have hn' : k.name.val.take k.name.len = v ++ [0] := hn
    exact (List.take_append_drop k.name.len k.name.val).symm.trans (by rw [hn']; simp)

/-- The name of the proxy: none if the node speaks for itself, else what the connection
called itself (sent with its NUL). -/
theorem c26_via_partial {s : Sys} {c : ConnId} {k : Conn} {m : Msg} {q : Req} (h : IsNew s c m q)
    (hk : s.conn? c = some k) (hwf : k.name.WF) {v w : Bytes} (hv : v.length < 128) (hw : NoNul w)
    (hs : m.src = v ++ [0]) (hc : k.name.name = w ++ [0]) :
    viaName q.viaProxy = some (if v = w then none else some w) := by
  obtain ⟨k', hk', h⟩ := h
  rw [hk] at hk'
  cases hk'
  have hset : (ipaSet k.name m.src).1 = 0 := ipaSet_ok (by rw [hs]; simp; omega)
  have hcmp : ipaCmp (ipaSet k.name m.src).2 k.name = 0 ↔ v = w := by
    rw [ipaCmp_eq (ipaSet_wf hwf _) hwf, lexCmp_eq_zero, name_set hset, hs, hc]
    simp
  rcases h with ⟨-, h1, -⟩ | ⟨-, rfl⟩
  · exact absurd hset h1
  · unfold mkReq
    rw [if_neg (by rw [hs]; simp)]
    dsimp only
    by_cases e : v = w
    · rw [if_neg (by simp [hcmp.2 e]), if_pos e]; rfl
    · rw [if_pos (fun h => e (hcmp.1 h)), if_neg e]
      have hne : k.name.isEmpty = false := by
        unfold IpaName.isEmpty
        rw [beq_eq_false_iff_ne]
        intro h0
        unfold IpaName.name at hc
        rw [h0] at hc
        simp at hc
      simp only [viaName, hne, Bool.false_eq_true, if_false]
      have hv : k.name.val = w ++ 0 :: k.name.val.drop k.name.len := by
        have hn' : k.name.val.take k.name.len = w ++ [0] := hc
        exact (List.take_append_drop k.name.len k.name.val).symm.trans (by rw [hn']; simp)
      unfold IpaName.cstr
      rw [if_pos (by rw [hv]; simp), cstr_terminated hw hv]
      rfl

/-- C26 for one request: when a location update goes on, the database holds the name the
requesting node gave itself (sent with its NUL). -/
theorem c26_stored_partial (d : Db) (evs : List (Cfg × Ev)) {lu : Lu} (hl : lu ∈ (run (init d) evs).lus) :
    ∃ e1 cfg c k e e2, evs = e1 ++ (cfg, .rx c (some lu.req.gsup) e) :: e2 ∧ (run (init d) e1).conn? c = some k
      ∧ ∃ via t, (∀ v, NoNul v → v.length < 128 →
        (lu.req.gsup.src = v ++ [0] ∨ (lu.req.gsup.src = [] ∧ k.name.name = v ++ [0])) →
        Recorded (run (init d) (e1 ++ [(cfg, .rx c (some lu.req.gsup) e)])).db
          lu.req.gsup.imsi lu.isPs v via t)
      ∧ (∀ v w, v.length < 128 → NoNul w → lu.req.gsup.src = v ++ [0] → k.name.name = w ++ [0] →
          via = if v = w then none else some w) := by
  obtain ⟨e1, cfg, c, e, e2, rfl, hq, -, -, -, n, via, t, hn, hvia, -, hr⟩ := c27_waiting d evs hl
  obtain ⟨P, hi, -⟩ := reach_done (s := run (init d) e1) ⟨_, _, rfl⟩
  obtain ⟨k, hk, -⟩ := id hq
  have hwf := hi.connWf k (conn?_some hk).1
  refine ⟨e1, cfg, c, k, e, e2, rfl, hk, via, t, ?_, ?_⟩
  · intro v hv hlen hs
    have := c26_name_partial hq hk hv hlen hs
    rw [hn] at this
    cases this
    exact hr
  · intro v w hlen hw hs hc
    have := c26_via_partial hq hk hwf hlen hw hs hc
    rw [hvia] at this
    exact Option.some.inj this

/-! ## Witnesses and examples -/

/-- The names stored for the subscriber of the example. -/
def stored (s : Sys) : List (Option Bytes × Option Bytes × Option Bytes × Option Bytes) :=
  s.db.subs.map fun r => (r.vlr, r.vlrViaProxy, r.sgsn, r.sgsnViaProxy)

/-- C26: a node named "AB" sends its name without NUL over the connection of MSC-1; what is
stored is its name continued with the rest of the connection's name. -/
theorem c26_no_nul_violated : ∃ s, Reach s ∧ s.ub = false
    ∧ .rx 1 1 (some { ulMsg with src := b "AB" }) ∈ s.log
    ∧ stored s = [(some (b "ABC-1"), some (b "MSC-1"), none, none)] :=
  ⟨runWith exCfg (init {}) (exTwo ++ [.rx 1 (some { ulMsg with src := b "AB" }) {}]), ⟨_, _, rfl⟩,
    by decide +kernel, by decide +kernel, by decide +kernel⟩

/-- C26: a name that fills the buffer without NUL is read beyond its end. -/
theorem c26_full_name_violated : ∃ s, Reach s ∧ s.ub = true
    ∧ .rx 1 1 (some { ulMsg with src := List.replicate 128 65 }) ∈ s.log :=
  ⟨runWith exCfg (init {}) (exTwo ++ [.rx 1 (some { ulMsg with src := List.replicate 128 65 }) {}]), ⟨_, _, rfl⟩,
    by decide +kernel, by decide +kernel⟩

/-- C29: MSC-1 asks for a location update, MSC-2 acknowledges; the procedure of MSC-1 is
completed. -/
theorem c29_other_node_violated : ∃ s, Reach s ∧ s.ub = false
    ∧ s.log.filterMap (fun | .rx nr c (some m) => some (nr, c, m.typ) | _ => none)
        = [(2, 2, INSERT_DATA + 2), (1, 1, UPDATE_LOCATION)]
    ∧ responses s = [(1, UPDATE_LOCATION + 2, 1), (1, INSERT_DATA, 1)] :=
  ⟨runWith exCfg (init {}) (exTwo ++ [.rx 1 (some ulMsg) {}, .rx 2 (some ackMsg) {}]), ⟨_, _, rfl⟩,
    by decide +kernel, by decide +kernel, by decide +kernel⟩

/-- C29: one node updates the location in both domains.  The acknowledgement about the CS
domain completes the location update in the PS domain. -/
theorem c29_other_domain_violated : ∃ s, Reach s ∧ s.ub = false
    ∧ s.log.filterMap (fun | .rx nr _ (some m) => some (nr, m.typ, m.cnDomain) | _ => none)
        = [(3, INSERT_DATA + 2, 2), (2, UPDATE_LOCATION, 1), (1, UPDATE_LOCATION, 2)]
    ∧ responses s = [(1, UPDATE_LOCATION + 2, 2), (1, INSERT_DATA, 2), (1, INSERT_DATA, 1)] :=
  ⟨runWith exCfg (init {}) (exTwo ++ [.rx 1 (some { ulMsg with cnDomain := 2 }) {},
      .rx 1 (some { ulMsg with cnDomain := 1 }) {}, .rx 1 (some { ackMsg with cnDomain := 2 }) {}]), ⟨_, _, rfl⟩,
    by decide +kernel, by decide +kernel, by decide +kernel⟩

/-- A granted location update in each domain, one of them through a proxy: hypotheses of
`c27_granted`, `c27_waiting`, `c26_stored_partial`. -/
example : responses (runWith exCfg (init {}) (exTwo ++ [.rx 1 (some ulMsg) {}, .rx 1 (some ackMsg) {}]))
      = [(1, UPDATE_LOCATION + 2, 1), (1, INSERT_DATA, 1)]
    ∧ stored (runWith exCfg (init {}) (exTwo ++ [.rx 1 (some ulMsg) {},
        .rx 2 (some { ulMsg with cnDomain := 1, src := b "SGSN" ++ [0] }) {}]))
      = [(some (b "MSC-1"), none, some (b "SGSN"), some (b "MSC-2"))] := by decide +kernel

/-- Refused location updates: an unknown subscriber, and a subscriber whose CS domain is
disabled. -/
example :
    let s := runWith exCfg (init {}) (exTwo ++ [.rx 1 (some { ulMsg with imsi := b "001019999999999" }) {},
      .nam imsi1 false false [] [], .rx 1 (some ulMsg) {}])
    s.log.filterMap (fun | .tx _ m (some nr) => some (nr, m.typ, m.cause) | _ => none)
      = [(2, UPDATE_LOCATION + 1, some .plmnNotAllowed),
         (1, UPDATE_LOCATION + 1, some exCfg.hlr.rejectCause)] := by decide +kernel

/-- A timeout: hypotheses of `c28_timer` and `c28_one_answer`. -/
example :
    let s := runWith exCfg (init {}) (exTwo ++ [.rx 1 (some ulMsg) {}, .rx 2 (some ulMsg) {}])
    s.lus.map (·.req.nr) = [2, 1]
    ∧ (step exCfg s (.luTimeout 1)).lus.map (·.req.nr) = [2]
    ∧ responses (step exCfg s (.luTimeout 1)) = [(1, UPDATE_LOCATION + 1, 1), (2, INSERT_DATA, 2),
        (1, INSERT_DATA, 1)] := by decide +kernel

/-- The message of the example is accepted (hypothesis of `c27_refused`). -/
example : Accepted exCfg (runWith exCfg (init {}) exTwo) 1
    { id := 1, name := { len := 6, val := msc1 ++ List.replicate 122 0 }, ccm := some msc1 } ulMsg :=
  ⟨⟨by decide +kernel, by decide +kernel, isNDigits_spec.1 (by decide +kernel), .inl (by decide +kernel)⟩,
    .inl (by decide +kernel)⟩

end Verif.Sys.Props
