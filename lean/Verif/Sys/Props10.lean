import Verif.Sys.Props9
import Verif.Auc.Props
/-!
# Property theorems C73, continued: authentication data, purging, IMEI checks
-/
namespace Verif.Sys.Props
open Verif Verif.Db Verif.Gsup Verif.Hlr Verif.Auc

/-- The statement for the index of a VLR leaves subscribers and keys alone. -/
def SameRows (d d' : Db) : Prop := d'.subs = d.subs ∧ d'.auc2 = d.auc2 ∧ d'.auc3 = d.auc3

theorem SameRows.pre : Pre SameRows :=
  ⟨fun _ => ⟨rfl, rfl, rfl⟩, fun _ _ _ h h' => ⟨h'.1.trans h.1, h'.2.1.trans h.2.1, h'.2.2.trans h.2.2⟩⟩

theorem dbInd_rows (r : Bytes) : Sat SameRows (dbInd r) :=
  dbInd_sat SameRows.pre r (Sat.op SameRows.pre _ (fun g hg d => by
    cases hg; dsimp only [sqlIndAdd]; split <;> exact ⟨rfl, rfl, rfl⟩))

/-- A request for authentication data of a subscriber with keys is answered with as many
vectors as were asked for. -/
theorem rxSai_serves (cfg : Hlr.Cfg) {c : Crypto} {rands : Nat → Option Bytes} (rnd : Nat → Option (Nat → UInt8)) {q : SaiReq} {d : Db}
    (hG : Auc.Good d) {row : SubRow} (hrow : row ∈ d.subs) (hi : row.imsi = q.imsi) (hk : key2 d row.id ≠ none ∨ key3 d row.id ≠ none)
    (hra : q.rand = none) (hau : q.auts = none) (hrand : ∀ i, rands i ≠ none) (hgsm : ∀ al k r, c.gsm al k r ≠ none)
    (humts : ∀ al k o p s q r, c.umts al k o p s q r ≠ none) {sc : Script} (hs : AllOk sc) :
    ∃ vs d', exec (rxSai cfg c rands rnd q) d sc = (some (.result vs), d') ∧ vs.length = saiNum q.num := by
  rw [(rxSai_uniform cfg c rands rnd q).exec _ hs]
  obtain ⟨a, d1, h1, _⟩ := createOnDemand_uniform cfg rnd q.imsi d
  have e1 : d1 = d := by
    have := cod_there (cfg := cfg) (rnd := rnd) hG.1 hrow hi []
    unfold exec at this
    rw [h1] at this
    exact this
  subst e1
  obtain ⟨r, d2, h2, _⟩ := dbInd_uniform q.source d1
  have g2 : Auc.Good d2 := by
    have := dbInd_sat (Keeps.pre _) q.source (Auc.good_op _) { db := d1, script := [] } hG
    rw [h2] at this; exact this
  have hsame : SameRows d1 d2 := by
    have := dbInd_rows q.source { db := d1, script := [] }
    rw [h2] at this; exact this
  have hrow2 : row ∈ d2.subs := by rw [hsame.1]; exact hrow
  have hk2 : key2 d2 row.id = key2 d1 row.id := by unfold key2; rw [hsame.2.1]
  have hk3 : key3 d2 row.id = key3 d1 row.id := by unfold key3; rw [hsame.2.2]
  rw [← hk2, ← hk3] at hk
  have hno : ¬ (key2 d2 row.id = none ∧ key3 d2 row.id = none) := by rintro ⟨a, b⟩; rcases hk with h | h <;> contradiction
  have hkeys := authKeys_ok g2.2 g2.1 hrow2
  rw [if_neg hno, hi] at hkeys
  have hok := dbGetAuc_ok c rands q.imsi (if r.1 = 0 then r.2 else 0) (saiNum q.num) none none q.sgs d2 g2
  rw [hkeys] at hok
  dsimp only at hok
  generalize hg : (key2 d2 row.id).bind load2 = g at hkeys hok
  generalize hu : (key3 d2 row.id).bind load3 = u at hkeys hok
  have hgo : ∀ x, g = some x → x.algo ≠ .none := fun x hx => authKeys_g g2.2 (hx ▸ hkeys)
  obtain ⟨vs, hvs⟩ := computeVectors_some c rands (saiNum q.num) g
    (u.map (fun a => { a with ind := (if r.1 = 0 then r.2 else 0) % 2 ^ a.bl, sep := q.sgs })) hgo
    (by
      intro a ha
      cases u with
      | none => simp at ha
      | some u => cases ha; exact (authKeys_u g2.2 hkeys).2)
    (by
      rcases hk with h | h
      · left
        cases hk2 : key2 d2 row.id with
        | none => exact absurd hk2 h
        | some x =>
          obtain ⟨y, hy, -⟩ := load2_total (g2.2.1 x (List.mem_of_find?_eq_some hk2))
          rw [hk2] at hg
          rw [← hg]; simp [hy]
      · right
        cases hk3 : key3 d2 row.id with
        | none => exact absurd hk3 h
        | some x =>
          obtain ⟨y, hy, -⟩ := load3_total (g2.2.2 x (List.mem_of_find?_eq_some hk3))
          rw [hk3] at hu
          rw [← hu]; simp [hy])
  have hlen : vs.length = saiNum q.num := by
    rcases hcv : computeVectors c rands (saiNum q.num) g
      (u.map (fun a => { a with ind := (if r.1 = 0 then r.2 else 0) % 2 ^ a.bl, sep := q.sgs })) none none with ⟨x, y⟩
    rw [hcv] at hvs
    cases hvs
    exact (compute_ok (imsi := q.imsi) (d' := d2) hgo (fun a ha => ⟨(authKeys_u g2.2 (ha ▸ hkeys)).2, (authKeys_u g2.2 (ha ▸ hkeys)).1⟩) hcv).full hrand hgsm humts rfl
  rw [hvs] at hok
  have hne : ∃ v l, vs = v :: l := by
    cases vs with
    | nil => simp at hlen; unfold saiNum at hlen; split at hlen <;> omega
    | cons v l => exact ⟨v, l, rfl⟩
  obtain ⟨v, l, rfl⟩ := hne
  rcases hm : dbGetAuc c rands q.imsi (if r.1 = 0 then r.2 else 0) (saiNum q.num) none none q.sgs { db := d2, script := [] } with ⟨o, w'⟩
  have ho : o = some (.vecs (v :: l)) := by
    unfold exec at hok
    rw [hm] at hok
    exact hok
  refine ⟨v :: l, w'.db, ?_, hlen⟩
  unfold exec rxSai
  rw [hra, hau]
  simp only [bind_run, h1, h2, hm, ho]
  rfl

/-- The route by which a peer that is ready gets the answer to its request. -/
theorem ready_route {s : Sys} (hreach : Reach s) (hu : s.ub = false) {c : ConnId} {k : Conn} {m : Msg} (h : Arrives s c k m) (hr : Ready s c k) :
    routeFind (routesFor s c (mkReq k s.nextReq m)) (mkReq k s.nextReq m).source.name = some c := by
  obtain ⟨P, hi', hP⟩ := reach_done hreach
  have hP := hP hu
  subst hP
  have hok : IsNew s c m (mkReq k s.nextReq m) := ⟨k, h.conn, .inr ⟨by simp [ipaSet_ok (n := k.name) h.src], rfl⟩⟩
  obtain ⟨hqc, -, -, hmem, hknown, -⟩ := known_new hi' (hr.proper h {}) hok
  have := hknown.src hmem
  rw [hqc] at this
  exact this

/-- A final answer to a peer that is ready reaches it. -/
theorem answer_there {s : Sys} (hreach : Reach s) (hu : s.ub = false) {c : ConnId} {k : Conn} {m : Msg} (h : Arrives s c k m) (hr : Ready s c k)
    {t : Sys} (ht : t.routes = routesFor s c (mkReq k s.nextReq m)) (M : Msg) :
    answer t (mkReq k s.nextReq m) M = [.concl s.nextReq .answered, .tx c M (some s.nextReq)] := by
  unfold answer
  rw [ht, ready_route hreach hu h hr, mkReq_nr]
  rfl

/-- Who asks for authentication data of a subscriber that has keys gets as many vectors as
it asked for (five, if it does not say), unless the random source or an algorithm fails. -/
theorem c73_vectors {evs : List (Cfg × Ev)} {s : Sys} (hs : s = run (init {}) evs) (hu : s.ub = false)
    {cfg : Cfg} {c : ConnId} {k : Conn} {m : Msg} {e : Env} (h : Accepted cfg s c k m) (hr : Ready s c k)
    (ht : m.typ = SEND_AUTH_INFO) (hw : Works e) {row : SubRow} (hrow : row ∈ s.db.subs) (hi : row.imsi = m.imsi)
    (hk : key2 s.db row.id ≠ none ∨ key3 s.db row.id ≠ none) (hra : m.rand = none) (hau : m.auts = none)
    (hrand : ∀ i, e.rands i ≠ none) (hgsm : ∀ al k r, cfg.crypto.gsm al k r ≠ none)
    (humts : ∀ al k o p s q r, cfg.crypto.umts al k o p s q r ≠ none) (henc : ∀ x, cfg.enc x = true) :
    ∃ M, (step cfg s (.rx c (some m) e)).log = .concl s.nextReq .answered :: .tx c M (some s.nextReq) :: .rx s.nextReq c (some m) :: s.log
      ∧ M.typ = SEND_AUTH_INFO + 2 ∧ M.imsi = m.imsi ∧ M.dst = m.src
      ∧ M.vecs.length = if 1 ≤ m.numVectors ∧ m.numVectors ≤ 5 then m.numVectors else 5 := by
  have hreach : Reach s := ⟨_, evs, hs⟩
  have hG : Auc.Good s.db := by
    obtain ⟨past, hp⟩ := run_db evs
    rw [hs, ← hp]
    exact Auc.reach_good past
  obtain ⟨vs, d', hex, hlen⟩ := rxSai_serves cfg.hlr (c := cfg.crypto) (rands := e.rands) e.rnd (q := saiReq (mkReq k s.nextReq m)) hG hrow
    (by unfold saiReq; rw [mkReq_gsup]; exact hi) hk (by unfold saiReq; rw [mkReq_gsup]; exact hra) (by unfold saiReq; rw [mkReq_gsup]; exact hau)
    hrand hgsm humts hw.sc
  have hrun := (c17_running hreach hu h e (.inr (known_row hw.sc0 hrow hi)) henc ht).1 vs (by rw [hex])
  obtain ⟨M, ⟨h1, h2, h5⟩, h3, h4⟩ := hrun
  refine ⟨M, ?_, by rw [h1, ht], h2, h5, ?_⟩
  · rw [h4]
    show answer _ _ _ ++ _ = _
    rw [answer_there hreach hu h.toArrives hr rfl]
    rfl
  · rw [h3, hlen]
    unfold saiReq
    rw [mkReq_gsup]
    rfl

/-- Who reports a subscriber as purged gets a confirmation, and the flag is set. -/
theorem c73_purged {d : Db} (hd : Unique d) {evs : List (Cfg × Ev)} {s : Sys} (hs : s = run (init d) evs) (hu : s.ub = false)
    {cfg : Cfg} {c : ConnId} {k : Conn} {m : Msg} {e : Env} (h : Accepted cfg s c k m) (hr : Ready s c k)
    (ht : m.typ = PURGE_MS) (hw : Works e) (hk : Db.Known s.db m.imsi) (henc : ∀ x, cfg.enc x = true) :
    ∃ M, (step cfg s (.rx c (some m) e)).log = .concl s.nextReq .answered :: .tx c M (some s.nextReq) :: .rx s.nextReq c (some m) :: s.log
      ∧ M.typ = PURGE_MS + 2 ∧ M.imsi = m.imsi ∧ M.dst = m.src
      ∧ (step cfg s (.rx c (some m) e)).db = withRow s.db m.imsi (fun r => if m.cnDomain = 2 then { r with purgedCs := true } else { r with purgedPs := true }) := by
  have hreach : Reach s := ⟨_, evs, hs⟩
  have hU : Unique s.db := by rw [hs]; exact c01_running d hd evs
  obtain ⟨row, hrow, hi⟩ := hk
  have hf : firstFate e.sc = .ok := by
    unfold firstFate
    cases hsc : e.sc with
    | nil => rfl
    | cons f l => exact hw.sc f (by rw [hsc]; simp)
  obtain ⟨M, ⟨h1, h2, h5⟩, h4⟩ := (c30_purge_running hreach hu h e (.inr (known_row hw.sc0 hrow hi)) henc hU ht).1 hf ⟨row, hrow, hi⟩
  refine ⟨M, ?_, by rw [h1, ht], h2, h5, by rw [h4]⟩
  rw [h4]
  show answer _ _ _ ++ _ = _
  rw [answer_there hreach hu h.toArrives hr rfl]
  rfl

/-- A well-formed IMEI of a subscriber is accepted. -/
theorem imei_accepted (cfg : Hlr.Cfg) (rnd : Nat → Option (Nat → UInt8)) {imsi i : Bytes} {d : Db} (hU : Unique d) {sc : Script}
    (hs : AllOk sc) {row : SubRow} (hrow : row ∈ d.subs) (hri : row.imsi = imsi) (hi : Digits 14 14 i) :
    (exec (rxCheckImei cfg rnd imsi (some i)) d sc).1 = some .ack := by
  have hk : Db.Known d imsi := ⟨row, hrow, hri⟩
  have hv : imeiValid i = true := isNDigits_spec.mpr hi
  have hu : Uniform (rxCheckImei cfg rnd imsi (some i)) := by
    unfold rxCheckImei
    simp only [hv, Bool.not_true, Bool.false_eq_true, if_false]
    refine .bind (createOnDemand_uniform _ _ _) (fun _ => .ite ?_ ?_)
    · exact .bind (updateImei_uniform _ _) (fun _ => .ite (.pure _) (.pure _))
    · exact .bind (dbSel_uniform _) (fun _ => .ite (.pure _) (.pure _))
  rw [hu.exec _ hs]
  have hc := cod_there (cfg := cfg) (rnd := rnd) hU hrow hri []
  obtain ⟨rc, d', h1, _⟩ := createOnDemand_uniform cfg rnd imsi d
  simp only [exec, h1] at hc
  subst hc
  unfold exec rxCheckImei
  simp only [hv, Bool.not_true, Bool.false_eq_true, if_false, bind_run, h1]
  split
  · have hct := contract_imei d' hU [] imsi (some i)
    have h0 := hct.success.mpr ⟨by rintro x h; cases h; exact hi, hk, trivial, rfl⟩
    obtain ⟨rc, d2, h2, _⟩ := updateImei_uniform imsi (some i) d'
    simp only [exec, h2, Option.some.injEq] at h0
    subst h0
    simp only [bind_run, h2]
    rfl
  · obtain ⟨r, h2⟩ := Hlr.Props.getByImsi_known hk
    simp only [bind_run, h2]
    rfl

/-- Who asks about a well-formed IMEI of a subscriber is told that it is fine, and the IMEI
is stored if so configured. -/
theorem c73_imei {d : Db} (hd : Unique d) {evs : List (Cfg × Ev)} {s : Sys} (hs : s = run (init d) evs) (hu : s.ub = false)
    {cfg : Cfg} {c : ConnId} {k : Conn} {m : Msg} {e : Env} (h : Accepted cfg s c k m) (hr : Ready s c k)
    (ht : m.typ = CHECK_IMEI) (hw : Works e) (hk : Db.Known s.db m.imsi) {i : Bytes} (hi : m.imeiEnc.bind cfg.imeiDec = some i)
    (hd14 : Digits 14 14 i) (henc : ∀ x, cfg.enc x = true) :
    ∃ M, (step cfg s (.rx c (some m) e)).log = .concl s.nextReq .answered :: .tx c M (some s.nextReq) :: .rx s.nextReq c (some m) :: s.log
      ∧ M.typ = CHECK_IMEI + 2 ∧ M.imsi = m.imsi ∧ M.dst = m.src ∧ M.imeiAck = true
      ∧ (cfg.hlr.storeImei = true → (step cfg s (.rx c (some m) e)).db = withRow s.db m.imsi (fun r => { r with imei := some i })) := by
  have hreach : Reach s := ⟨_, evs, hs⟩
  have hU : Unique s.db := by rw [hs]; exact c01_running d hd evs
  obtain ⟨row, hrow, hri⟩ := hk
  have hack := imei_accepted cfg.hlr e.rnd hU hw.sc hrow hri hd14
  rw [← hi] at hack
  have hstep : step cfg s (.rx c (some m) e) = withDb (received s c k m) e.sc
      (rxCheckImei cfg.hlr e.rnd m.imsi (m.imeiEnc.bind cfg.imeiDec))
      fun r s' => match r with
        | .ack => (respond cfg s' (mkReq k s.nextReq m) { typ := CHECK_IMEI + 2, imeiAck := true } false true).2
        | .error c => respondErr cfg s' (mkReq k s.nextReq m) c := by
    rw [step_accepted hreach hu h e (.inr (known_row hw.sc0 hrow hri))]
    have : dispatch cfg e k (mkReq k s.nextReq m) (received s c k m)
        = rxCheckImeiReq cfg e (mkReq k s.nextReq m) (received s c k m) := by
      unfold dispatch
      rw [mkReq_gsup, ht]
      rfl
    rw [this]
    unfold rxCheckImeiReq
    rw [mkReq_gsup]
    rfl
  have hdb : (received s c k m).db = s.db := rfl
  unfold withDb at hstep
  rw [hdb] at hstep
  obtain ⟨d1, h1, h2⟩ := Hlr.Props.check_imei_outcome cfg.hlr e.rnd m.imsi (m.imeiEnc.bind cfg.imeiDec) hU e.sc
  have hd1 : d1 = s.db := by
    rcases h1 with h1 | ⟨-, num, h1⟩
    · exact h1
    · exact absurd ⟨row, hrow, hri⟩ h1.1
  subst hd1
  generalize exec (rxCheckImei cfg.hlr e.rnd m.imsi (m.imeiEnc.bind cfg.imeiDec)) s.db e.sc = x at hstep h2 hack
  obtain ⟨o, d'⟩ := x
  dsimp only at hack h2 hstep
  subst hack
  dsimp only at hstep
  rw [respond_final cfg _ _ _ _ henc rfl rfl rfl rfl (by simp [fillResponse]; decide), mkReq_gsup] at hstep
  refine ⟨fillResponse { typ := CHECK_IMEI + 2, imeiAck := true } m false true, ?_, ?_, ?_, ?_, ?_, ?_⟩
  · rw [hstep]
    show answer _ _ _ ++ _ = _
    rw [answer_there hreach hu h.toArrives hr rfl]
    rfl
  · simp [fillResponse]
  · simp [fillResponse]
  · simp [fillResponse]
  · simp [fillResponse]
  · intro hst
    rw [hstep]
    rcases h2 with ⟨-, -, i', hi', -, h2⟩ | ⟨h2 | h2, -⟩
    · rw [if_pos hst] at h2
      rw [hi] at hi'
      cases hi'
      exact h2
    · cases h2
    · cases h2

/-- The condition of `c73_served` that no other location update is begun cannot be dropped:
a phone attaches to both domains at a time; MSC-1 takes the data and says so, and this
confirms the location update of the other node, MSC-2, which has not; MSC-1 gets an error
when the time is up, although it did all it had to. -/
theorem c73_both_domains_violated :
    let s := runWith exCfg (init {}) (exTwo ++ [.rx 1 (some ulMsg) {}, .rx 2 (some { ulMsg with cnDomain := 1 }) {}, .rx 1 (some ackMsg) {}, .luTimeout 1])
    responses s = [(1, UPDATE_LOCATION + 1, 1), (2, UPDATE_LOCATION + 2, 2), (2, INSERT_DATA, 2), (1, INSERT_DATA, 1)] ∧ s.ub = false := by
  decide +kernel

/-! ## Examples -/

/-- The hypotheses of `c73_vectors`, `c73_purged` and `c73_imei` are met. -/
example (s : Sys) (hs : s = runWith exCfg (init {}) exKeys) :
    ∃ M, (step exCfg s (.rx 1 (some saiMsg) exEnv)).log
        = .concl s.nextReq .answered :: .tx 1 M (some s.nextReq) :: .rx s.nextReq 1 (some saiMsg) :: s.log
      ∧ M.typ = SEND_AUTH_INFO + 2 ∧ M.imsi = saiMsg.imsi ∧ M.dst = saiMsg.src
      ∧ M.vecs.length = if 1 ≤ saiMsg.numVectors ∧ saiMsg.numVectors ≤ 5 then saiMsg.numVectors else 5 := by
  have hsr : s = run (init {}) (exKeys.map fun ev => (exCfg, ev)) := hs
  obtain ⟨row, hrow, hp⟩ := List.any_eq_true.1 (show (s.db.subs.any fun r => r.imsi == imsi1 && (key3 s.db r.id).isSome) = true by
    rw [hs]; decide +kernel)
  rw [Bool.and_eq_true] at hp
  exact c73_vectors hsr (by rw [hs]; decide +kernel) (k := exConn1)
    (by rw [hs]; exact ex_accepted (by decide +kernel) rfl rfl rfl)
    (by rw [hs]; exact ⟨by decide +kernel, by decide +kernel, by decide +kernel⟩) rfl
    ⟨by simp [exEnv, AllOk], by simp [exEnv, AllOk], ⟨_, rfl⟩⟩ hrow (eq_of_beq hp.1)
    (.inr (fun h => by rw [h] at hp; cases hp.2)) rfl rfl (by intro i; simp [exEnv, Auc.Props.exRands]) (by intro _ _ _; simp [exCfg, Auc.Props.exCrypto])
    (by intro _ _ _ _ _ _ _; simp [exCfg, Auc.Props.exCrypto]) (fun _ => rfl)

example (s : Sys) (hs : s = runWith exCfg (init {}) exTwo) :
    ∃ M, (step exCfg s (.rx 1 (some purgeMsg) {})).log
        = .concl s.nextReq .answered :: .tx 1 M (some s.nextReq) :: .rx s.nextReq 1 (some purgeMsg) :: s.log
      ∧ M.typ = PURGE_MS + 2 := by
  have hsr : s = run (init {}) (exTwo.map fun ev => (exCfg, ev)) := hs
  obtain ⟨row, hrow, hp, -⟩ := ex_may
  obtain ⟨M, h1, h2, -⟩ := c73_purged Db.Props.unique_empty hsr (by rw [hs]; decide +kernel) (cfg := exCfg) (m := purgeMsg) (e := {}) (k := exConn1)
    (by rw [hs]; exact ex_accepted (by decide +kernel) rfl rfl rfl) (by rw [hs]; exact ex_ready) rfl ex_works
    ⟨row, by rw [hs]; exact hrow, hp⟩ (fun _ => rfl)
  exact ⟨M, h1, h2⟩

/-- A question about an IMEI. -/
def exImei : Msg := { typ := CHECK_IMEI, imsi := imsi1, imeiEnc := some (b "12345678901234") }

example (s : Sys) (hs : s = runWith imeiCfg (init {}) exTwo) :
    ∃ M, (step imeiCfg s (.rx 1 (some exImei) {})).log
        = .concl s.nextReq .answered :: .tx 1 M (some s.nextReq) :: .rx s.nextReq 1 (some exImei) :: s.log
      ∧ M.imeiAck = true := by
  have hsr : s = run (init {}) (exTwo.map fun ev => (imeiCfg, ev)) := hs
  obtain ⟨row, hrow, hp⟩ := List.any_eq_true.1 (show (s.db.subs.any fun r => r.imsi == imsi1) = true by rw [hs]; decide +kernel)
  obtain ⟨M, h1, -, -, -, h2, -⟩ := c73_imei Db.Props.unique_empty hsr (by rw [hs]; decide +kernel) (cfg := imeiCfg) (c := 1) (m := exImei) (e := {}) (k := exConn1)
    ⟨⟨by rw [hs]; decide +kernel, by decide, isNDigits_spec.1 (by decide +kernel), .inl rfl⟩, .inl rfl⟩
    (by rw [hs]; exact ⟨by decide +kernel, by decide +kernel, by decide +kernel⟩) rfl ex_works
    ⟨row, hrow, eq_of_beq hp⟩ (i := b "12345678901234") rfl (isNDigits_spec.1 (by decide +kernel)) (fun _ => rfl)
  exact ⟨M, h1, h2⟩

end Verif.Sys.Props
