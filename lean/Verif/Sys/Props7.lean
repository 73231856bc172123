import Verif.Sys.AucHist
import Verif.Sys.Props3
import Verif.Sys.Props5
import Verif.Hlr.Props
/-!
# Property theorems C12 – C17 and C30 for the running HLR

The theorems of Verif.Auc.Props and Verif.Hlr.Props speak about the handlers.  Here the
same is said about what is sent on the wire by a whole run, and how a run gets there.
-/
namespace Verif.Sys.Props
open Verif Verif.Db Verif.Gsup Verif.Hlr

/-! ## Where vectors come from -/

/-- Every Send Auth Info Result that was ever sent answers a Send Auth Info Request of the
history, and carries exactly the vectors made for that request. -/
theorem sai_sent (d : Db) (evs : List (Cfg × Ev)) {c : ConnId} {m : Msg} {nr : Nat}
    (h : .tx c m (some nr) ∈ (run (init d) evs).log) (ht : m.typ = SEND_AUTH_INFO + 2) :
    ∃ e1 cfg c0 m0 e e2 q, evs = e1 ++ (cfg, .rx c0 (some m0) e) :: e2 ∧ m0.typ = SEND_AUTH_INFO
      ∧ m.imsi = m0.imsi ∧ nr = (run (init d) e1).nextReq ∧ IsNew (run (init d) e1) c0 m0 q
      ∧ exec (rxSai cfg.hlr cfg.crypto e.rands e.rnd (saiReq q)) (run (init d) e1).db e.sc
        = (some (.result m.vecs), (run (init d) (e1 ++ [(cfg, .rx c0 (some m0) e)])).db) := by
  suffices hs : ∀ (evs : List (Cfg × Ev)) (s : Sys), .tx c m (some nr) ∈ (run s evs).log → .tx c m (some nr) ∈ s.log
      ∨ ∃ e1 cfg c0 m0 e e2 q, evs = e1 ++ (cfg, .rx c0 (some m0) e) :: e2 ∧ m0.typ = SEND_AUTH_INFO
        ∧ m.imsi = m0.imsi ∧ nr = (run s e1).nextReq ∧ IsNew (run s e1) c0 m0 q
        ∧ exec (rxSai cfg.hlr cfg.crypto e.rands e.rnd (saiReq q)) (run s e1).db e.sc
          = (some (.result m.vecs), (run s (e1 ++ [(cfg, .rx c0 (some m0) e)])).db) by
    rcases hs evs (init d) h with h | h
    · simp [init] at h
    · exact h
  intro evs
  induction evs with
  | nil => exact fun _ h => .inl h
  | cons x l ih =>
    intro s h
    obtain ⟨cfg1, ev⟩ := x
    rcases ih (step cfg1 s ev) h with h | ⟨e1, cfg, c0, m0, e, e2, q, rfl, h'⟩
    · rcases step_auth cfg1 s ev with ha | ⟨op, sc, lg, rfl, -, h2, h3⟩ | ⟨c0, m0, e, k, rts, rfl, h1, h2, h3⟩
      · obtain ⟨lg, h1, h2⟩ := ha.log
        rw [h1] at h
        rcases List.mem_append.1 h with h | h
        · exact absurd ht (h2 _ _ _ h)
        · exact .inl h
      · rw [h2] at h
        rcases List.mem_append.1 h with h | h
        · exact absurd h (h3 _ _ _)
        · exact .inl h
      · obtain ⟨hdb, lg, hl, hc⟩ := sai_cases cfg1 e (mkReq k s.nextReq m0) (entered s c0 m0 rts)
        rw [h3, hl] at h
        have hin : .tx c m (some nr) ∈ (entered s c0 m0 rts).log → .tx c m (some nr) ∈ s.log := by
          intro h
          simpa [entered] using h
        rcases List.mem_append.1 h with h | h
        · rcases hc with hc | ⟨c', m', v, rfl, a1, a2, a3, a4⟩
          · exact absurd ht (hc _ _ _ h)
          · have : c = c' ∧ m = m' ∧ nr = (mkReq k s.nextReq m0).nr := by simpa using h
            obtain ⟨rfl, rfl, rfl⟩ := this
            refine .inr ⟨[], cfg1, c0, m0, e, l, _, rfl, h1, ?_, ?_, h2, ?_⟩
            · rw [a2, mkReq_gsup]
            · rw [mkReq_nr]; rfl
            · show exec _ s.db e.sc = (_, (step cfg1 s (.rx c0 (some m0) e)).db)
              rw [h3, hdb, a3]
              exact Prod.ext a4 rfl
        · exact .inl (hin h)
    · exact .inr ⟨(cfg1, ev) :: e1, cfg, c0, m0, e, e2, q, rfl, h'⟩

/-! ## C12 -/

/-- C12 for the running HLR, for all algorithms but XOR-3G: take any state with consistent database (C06) in which the
subscriber has 3G keys `a`.  Whatever happens from there - requests from any number of
peers, failing statements, crashes and restarts, location updates, connections coming and
going, other subscribers being provisioned - as long as these keys are not re-provisioned
and the subscriber does not re-synchronise, the sequence numbers in all the vectors that are
sent for it are strictly increasing and above the one stored in the beginning. -/
theorem c12_running_partial (s : Sys) (evs : List (Cfg × Ev)) (id : Int) (imsi : Bytes) (a : Auc3) (hU : Unique s.db)
    (hrow : ∃ r ∈ s.db.subs, r.id = id ∧ r.imsi = imsi) (hkey : key3 s.db id = some a)
    (halg : a.algo ≠ .xor3g)
    (hplain : ∀ x ∈ evs, x.2.Plain id imsi)
    (hbound : (a.sqn / 2 ^ a.indBitlen + 5 * numSai evs + 1) * 2 ^ a.indBitlen ≤ 2 ^ 48) :
    ∃ l, (run s evs).log = l ++ s.log ∧ (sentSqns imsi l).Pairwise (· < ·)
      ∧ ∀ x ∈ sentSqns imsi l, a.sqn < x ∧ x < 2 ^ 48 := by
  obtain ⟨hist, l, h1, -, h3, h4, h5⟩ := run_auc s evs
  have hb : (Auc.slot a + 5 * Auc.numSai hist + 1) * 2 ^ a.indBitlen ≤ 2 ^ 48 := by
    refine Nat.le_trans (Nat.mul_le_mul_right _ ?_) hbound
    unfold Auc.slot
    omega
  obtain ⟨h6, h7⟩ := Auc.issued_increasing id imsi hist a s.db ⟨hU, hrow, hkey⟩ halg (h4 id imsi hplain) hb
  refine ⟨l, h1, h6.sublist (h3 imsi), fun x hx => ?_⟩
  obtain ⟨h8, h9⟩ := h7 x ((h3 imsi).subset hx)
  refine ⟨?_, h9⟩
  have := Nat.lt_div_mul_add (a := a.sqn) (Nat.two_pow_pos a.indBitlen)
  unfold Auc.slot at h8
  rw [Nat.add_mul, Nat.one_mul] at h8
  omega

/-! ## C13, C14, C15, C16 -/

/-- The database of a run from an empty database. -/
theorem run_db (evs : List (Cfg × Ev)) : ∃ past, Auc.runEvs {} past = (run (init {}) evs).db := by
  obtain ⟨hist, l, -, h, -⟩ := run_auc (init {}) evs
  exact ⟨hist, h⟩

section
variable (evs : List (Cfg × Ev)) {c : ConnId} {m : Msg} {nr : Nat}
  (h : .tx c m (some nr) ∈ (run (init {}) evs).log) (ht : m.typ = SEND_AUTH_INFO + 2)
include h ht

/-- C13: by the time the vectors are sent, the sequence number of the last of them is the
one stored in the database. -/
theorem c13_running :
    ∃ e1 cfg c0 m0 e e2, evs = e1 ++ (cfg, .rx c0 (some m0) e) :: e2 ∧ nr = (run (init {}) e1).nextReq ∧ m0.imsi = m.imsi
      ∧ ((∀ al k r, cfg.crypto.gsm al k r ≠ none) → ∀ v x y, m.vecs.getLast? = some v → v.umts = some (x, y) →
        ∃ r ∈ (run (init {}) (e1 ++ [(cfg, .rx c0 (some m0) e)])).db.subs, r.imsi = m.imsi
          ∧ ∃ a, key3 (run (init {}) (e1 ++ [(cfg, .rx c0 (some m0) e)])).db r.id = some a ∧ x = a.sqn % 2 ^ 48) := by
  obtain ⟨e1, cfg, c0, m0, e, e2, q, h1, h2, h3, h4, h5, h6⟩ := sai_sent {} evs h ht
  obtain ⟨past, hp⟩ := run_db e1
  rw [← hp] at h6
  refine ⟨e1, cfg, c0, m0, e, e2, h1, h4, h3.symm, ?_⟩
  intro hgsm v x y hl hv
  have hi : (saiReq q).imsi = m.imsi := by
    rw [h3, ← (isNew_eqs h5).2.2]; rfl
  have := Auc.Props.c13_sqn_persisted past _ _ _ _ _ _ _ _ h6 hgsm v x y hl hv
  rw [hi] at this
  exact this

/-- C14, for all algorithms but XOR-3G: all the vectors sent in one answer carry the IND of the requesting node, i.e. the
one recorded for its name (or 0 if it could not be determined). -/
theorem c14_running_partial : ∃ e1 cfg c0 m0 e e2 q, evs = e1 ++ (cfg, .rx c0 (some m0) e) :: e2
      ∧ nr = (run (init {}) e1).nextReq ∧ IsNew (run (init {}) e1) c0 m0 q
      ∧ ∀ r ∈ (run (init {}) (e1 ++ [(cfg, .rx c0 (some m0) e)])).db.subs, r.imsi = m.imsi →
        ∀ a, key3 (run (init {}) (e1 ++ [(cfg, .rx c0 (some m0) e)])).db r.id = some a → a.algo ≠ .xor3g →
        ∃ ind, (ind = 0 ∨ indOf (run (init {}) (e1 ++ [(cfg, .rx c0 (some m0) e)])).db (cstr q.source.name) = some ind)
          ∧ ∀ x ∈ Auc.sqnsOf m.vecs, x % 2 ^ a.indBitlen = ind % 2 ^ a.indBitlen := by
  obtain ⟨e1, cfg, c0, m0, e, e2, q, h1, h2, h3, h4, h5, h6⟩ := sai_sent {} evs h ht
  obtain ⟨past, hp⟩ := run_db e1
  rw [← hp] at h6
  refine ⟨e1, cfg, c0, m0, e, e2, q, h1, h4, h5, ?_⟩
  intro r hr hri a ha halg
  have hi : (saiReq q).imsi = m.imsi := by
    rw [h3, ← (isNew_eqs h5).2.2]; rfl
  exact Auc.Props.c14_sqn_carries_ind_partial past _ _ _ _ _ _ _ _ h6 r hr (hri.trans hi.symm) a ha halg

/-- C15: an answer carries between one and five vectors, never more than asked for, all
derived from the keys that the database holds for the subscriber. -/
theorem c15_running : ∃ e1 cfg c0 m0 e e2, evs = e1 ++ (cfg, .rx c0 (some m0) e) :: e2
      ∧ nr = (run (init {}) e1).nextReq ∧ m0.imsi = m.imsi
      ∧ m.vecs ≠ [] ∧ m.vecs.length ≤ 5 ∧ (1 ≤ m0.numVectors → m0.numVectors ≤ 5 → m.vecs.length ≤ m0.numVectors)
      ∧ ∃ id g u, Auc.authKeys (run (init {}) (e1 ++ [(cfg, .rx c0 (some m0) e)])).db m.imsi = .keys id g u
        ∧ (∀ v ∈ m.vecs, Auc.VecFrom cfg.crypto g (u.map (fun a => { a with sep := m0.ratSgs })) v)
        ∧ (m0.rand.isSome ↔ m0.auts.isSome) ∧ (m0.auts.isSome → u.isSome) := by
  obtain ⟨e1, cfg, c0, m0, e, e2, q, h1, h2, h3, h4, h5, h6⟩ := sai_sent {} evs h ht
  obtain ⟨past, hp⟩ := run_db e1
  rw [← hp] at h6
  have hg := (isNew_eqs h5).2.2
  obtain ⟨⟨a1, a2, a3⟩, a4⟩ := Auc.Props.c15_number_and_kind past _ _ _ _ _ _ _ _ h6
  subst hg
  refine ⟨e1, cfg, c0, q.gsup, e, e2, h1, h4, h3.symm, a1, a2, a3, ?_⟩
  rw [h3]
  exact a4

/-- C15: and exactly as many as asked for, if nothing is wrong with the random source and
the cryptographic functions. -/
theorem c15_running_exact :
    ∃ e1 cfg c0 m0 e e2, evs = e1 ++ (cfg, .rx c0 (some m0) e) :: e2
      ∧ nr = (run (init {}) e1).nextReq ∧ m0.imsi = m.imsi
      ∧ ((∀ al k r, cfg.crypto.gsm al k r ≠ none) → (∀ al k o p s q r, cfg.crypto.umts al k o p s q r ≠ none) →
        (∀ i, e.rands i ≠ none) → m0.rand = none →
        m.vecs.length = if 1 ≤ m0.numVectors ∧ m0.numVectors ≤ 5 then m0.numVectors else 5) := by
  obtain ⟨e1, cfg, c0, m0, e, e2, q, h1, h2, h3, h4, h5, h6⟩ := sai_sent {} evs h ht
  obtain ⟨past, hp⟩ := run_db e1
  rw [← hp] at h6
  have hg := (isNew_eqs h5).2.2
  subst hg
  refine ⟨e1, cfg, c0, q.gsup, e, e2, h1, h4, h3.symm, ?_⟩
  intro hgsm humts hr hn
  exact Auc.Props.c15_exact_number past _ _ _ _ _ _ _ _ h6 hn hr hgsm humts

/-- C16, for all algorithms but XOR-3G: the answer to a re-synchronisation whose AUTS verifies carries 3G vectors only
above the sequence number of the subscriber. -/
theorem c16_running_partial : ∃ e1 cfg c0 m0 e e2, evs = e1 ++ (cfg, .rx c0 (some m0) e) :: e2
      ∧ nr = (run (init {}) e1).nextReq ∧ m0.imsi = m.imsi
      ∧ ∀ r t, m0.rand = some r → m0.auts = some t →
        ∃ id g u, Auc.authKeys (run (init {}) (e1 ++ [(cfg, .rx c0 (some m0) e)])).db m.imsi = .keys id g (some u)
          ∧ ∀ ms, u.algo ≠ .xor3g → cfg.crypto.auts u.algo u.k u.opc u.isOp r t = some ms →
            (ms % 2 ^ 48 / 2 ^ u.bl + 6) * 2 ^ u.bl ≤ 2 ^ 48 →
            (Auc.sqnsOf m.vecs).length = m.vecs.length ∧ (Auc.sqnsOf m.vecs).Pairwise (· < ·)
            ∧ ∀ x ∈ Auc.sqnsOf m.vecs, ms % 2 ^ 48 < x := by
  obtain ⟨e1, cfg, c0, m0, e, e2, q, h1, h2, h3, h4, h5, h6⟩ := sai_sent {} evs h ht
  obtain ⟨past, hp⟩ := run_db e1
  rw [← hp] at h6
  have hg := (isNew_eqs h5).2.2
  subst hg
  refine ⟨e1, cfg, c0, q.gsup, e, e2, h1, h4, h3.symm, ?_⟩
  intro r t hr ht'
  obtain ⟨-, id, g, u, a1, a2, a3, a4⟩ := Auc.Props.c15_number_and_kind past _ _ _ _ _ _ _ _ h6
  have hau : (saiReq q).auts = some t := ht'
  have := a4 (by rw [hau]; rfl)
  obtain ⟨u, rfl⟩ := Option.isSome_iff_exists.1 this
  refine ⟨id, g, u, ?_, ?_⟩
  · rw [h3]; exact a1
  · intro ms halg hms hb
    exact Auc.Props.c16_resync_partial past _ _ _ _ _ _ _ _ h6 r t hr ht' id g u a1 halg ms hms hb

end

/-! ## C17 and C30: the answers -/

section
variable {cfg : Cfg} {s : Sys} (hr : Reach s) (hu : s.ub = false) {c : ConnId} {k : Conn} {m : Msg}
  (h : Accepted cfg s c k m) (e : Env) (hloc : Local e m s) (henc : ∀ m, cfg.enc m = true)
include hr hu h hloc henc

/-- The Result or Error response to `m` in state `t`. -/
def Answered (m M : Msg) : Option Cause → Prop
  | none => M.typ = m.typ + 2 ∧ M.imsi = m.imsi ∧ M.dst = m.src
  | some cause => ErrorAnswer m M ∧ M.cause = some cause

omit hr hu h hloc henc in
theorem respondErr_answered {c' : Cause} (henc : ∀ m, cfg.enc m = true) (t : Sys) (hq : isRequest m.typ = true)
    (hne : toError m.typ ≠ ROUTING_ERROR) : ∃ M, Answered m M (some c')
      ∧ respondErr cfg t (mkReq k s.nextReq m) c'
        = { t with log := answer t (mkReq k s.nextReq m) M ++ t.log } := by
  refine ⟨fillResponse { cause := some c' } m true true, ⟨errorAnswer _ _ rfl rfl rfl rfl, rfl⟩, ?_⟩
  rw [respondErr_final cfg _ _ _ henc (by rw [mkReq_gsup]; exact hq) (by rw [mkReq_gsup]; exact hne), mkReq_gsup]

/-- C17: a Send Auth Info Request gets exactly one answer: the vectors if they were made,
else an error with the cause that `c17_outcomes` and `c17_fault_free` tell; unless the
process dies in the middle (the database then does not). -/
theorem c17_running (ht : m.typ = SEND_AUTH_INFO) :
    let x := exec (rxSai cfg.hlr cfg.crypto e.rands e.rnd (saiReq (mkReq k s.nextReq m))) s.db e.sc
    let t := { received s c k m with db := x.2 }
    (∀ v, x.1 = some (.result v) → ∃ M, Answered m M none ∧ M.vecs = v
      ∧ step cfg s (.rx c (some m) e) = { t with log := answer t (mkReq k s.nextReq m) M ++ t.log })
    ∧ (∀ cause, x.1 = some (.error cause) → ∃ M, Answered m M (some cause)
      ∧ step cfg s (.rx c (some m) e) = { t with log := answer t (mkReq k s.nextReq m) M ++ t.log })
    ∧ (x.1 = none → step cfg s (.rx c (some m) e) = t.crash) := by
  intro x t
  have hne : toError m.typ ≠ ROUTING_ERROR := by rw [ht]; decide
  have hq : isRequest m.typ = true := by rw [ht]; decide
  have hs : step cfg s (.rx c (some m) e) = (match x.1 with
      | none => t.crash
      | some (.result v) => (respond cfg t (mkReq k s.nextReq m) { typ := SEND_AUTH_INFO + 2, vecs := v } false true).2
      | some (.error c) => respondErr cfg t (mkReq k s.nextReq m) c
      | some .ub => { t with ub := true }) := by
    rw [step_accepted hr hu h e hloc]
    have : dispatch cfg e k (mkReq k s.nextReq m) (received s c k m)
        = rxSaiReq cfg e (mkReq k s.nextReq m) (received s c k m) := by
      unfold dispatch
      rw [mkReq_gsup, ht]
      rfl
    rw [this]
    have e1 : rxSaiReq cfg e (mkReq k s.nextReq m) (received s c k m)
        = withDb (received s c k m) e.sc
          (rxSai cfg.hlr cfg.crypto e.rands e.rnd (saiReq (mkReq k s.nextReq m)))
          fun r s' => match r with
            | .result v => (respond cfg s' (mkReq k s.nextReq m) { typ := SEND_AUTH_INFO + 2, vecs := v } false true).2
            | .error c => respondErr cfg s' (mkReq k s.nextReq m) c
            | .ub => { s' with ub := true } := rfl
    have hdb : (received s c k m).db = s.db := rfl
    rw [e1]
    unfold withDb
    rw [hdb]
    clear hdb e1 this
    subst t
    subst x
    generalize exec (rxSai cfg.hlr cfg.crypto e.rands e.rnd (saiReq (mkReq k s.nextReq m))) s.db e.sc = x
    obtain ⟨o, d⟩ := x
    cases o with
    | none => rfl
    | some o => cases o <;> rfl
  rw [hs]
  refine ⟨?_, ?_, ?_⟩
  · intro v hx
    rw [hx]
    refine ⟨fillResponse { typ := SEND_AUTH_INFO + 2, vecs := v } m false true, ⟨?_, ?_, ?_⟩, ?_, ?_⟩
    · simp [fillResponse, ht]
    · simp [fillResponse]
    · simp [fillResponse]
    · simp [fillResponse]
    · dsimp only
      rw [respond_final cfg _ _ _ _ henc rfl rfl rfl rfl (by simp [fillResponse]; decide), mkReq_gsup]
  · intro c' hx
    rw [hx]
    exact respondErr_answered henc t hq hne
  · intro hx
    rw [hx]

/-- C30: a Purge MS Request sets the purged flag of its own domain, and of no other, and
nothing else; it gets a Result if and only if the flag is set, else "IMSI unknown" or, if
the database fails, "network failure". -/
theorem c30_purge_running (hU : Unique s.db) (ht : m.typ = PURGE_MS) :
    (firstFate e.sc = .ok → Db.Known s.db m.imsi → ∃ M, Answered m M none
      ∧ step cfg s (.rx c (some m) e) = { received s c k m with
          db := withRow s.db m.imsi (fun r => if m.cnDomain = 2 then { r with purgedCs := true }
            else { r with purgedPs := true })
          log := answer (received s c k m) (mkReq k s.nextReq m) M ++ (received s c k m).log })
    ∧ (firstFate e.sc = .ok → ¬ Db.Known s.db m.imsi → ∃ M, Answered m M (some .imsiUnknown)
      ∧ step cfg s (.rx c (some m) e) = { received s c k m with
          log := answer (received s c k m) (mkReq k s.nextReq m) M ++ (received s c k m).log })
    ∧ (firstFate e.sc = .ioerr → ∃ M, Answered m M (some .netFail)
      ∧ step cfg s (.rx c (some m) e) = { received s c k m with
          log := answer (received s c k m) (mkReq k s.nextReq m) M ++ (received s c k m).log })
    ∧ (firstFate e.sc = .crash → step cfg s (.rx c (some m) e) = (received s c k m).crash) := by
  have hne : toError m.typ ≠ ROUTING_ERROR := by rw [ht]; decide
  have hq : isRequest m.typ = true := by rw [ht]; decide
  have hs : step cfg s (.rx c (some m) e) = withDb (received s c k m) e.sc (rxPurge m.imsi m.isCs)
      fun r s' => match r with
        | .result => respondMsgt cfg s' (mkReq k s.nextReq m) (PURGE_MS + 2)
        | .error c => respondErr cfg s' (mkReq k s.nextReq m) c := by
    rw [step_accepted hr hu h e hloc]
    have : dispatch cfg e k (mkReq k s.nextReq m) (received s c k m)
        = rxPurgeReq cfg e (mkReq k s.nextReq m) (received s c k m) := by
      unfold dispatch
      rw [mkReq_gsup, ht]
      rfl
    rw [this]
    unfold rxPurgeReq
    rw [mkReq_gsup]
    rfl
  have hp := Hlr.Props.purge_outcome hU e.sc m.imsi m.isCs
  have hdb : (received s c k m).db = s.db := rfl
  rw [hs]
  unfold withDb
  rw [hdb]
  generalize exec (rxPurge m.imsi m.isCs) s.db e.sc = x at hp ⊢
  obtain ⟨o, d⟩ := x
  obtain ⟨p1, p2, p3, p4, p5, p6⟩ := hp
  dsimp only at p1 p2 p3 p4 p5 p6 ⊢
  have hsame : { received s c k m with db := s.db } = received s c k m := rfl
  refine ⟨?_, ?_, ?_, ?_⟩
  · intro hf hk
    have ho := p1.2 ⟨hk, hf⟩
    have hd := p2 ho
    subst ho hd
    refine ⟨fillResponse { typ := PURGE_MS + 2 } m false true, ⟨?_, ?_, ?_⟩, ?_⟩
    · simp [fillResponse, ht]
    · simp [fillResponse]
    · simp [fillResponse]
    · dsimp only
      unfold respondMsgt
      rw [respond_final cfg _ _ _ _ henc rfl rfl rfl rfl (by simp [fillResponse]; decide), mkReq_gsup]
      have : m.isCs = decide (m.cnDomain = 2) := by
        unfold Msg.isCs
        rw [Bool.beq_eq_decide_eq]
      simp only [this, decide_eq_true_eq]
      rfl
  · intro hf hk
    have ho := p4.2 ⟨hk, hf⟩
    have hd := p3 (by rw [ho]; simp)
    subst ho hd
    exact respondErr_answered henc (received s c k m) hq hne
  · intro hf
    have ho := p5.2 hf
    have hd := p3 (by rw [ho]; simp)
    subst ho hd
    exact respondErr_answered henc (received s c k m) hq hne
  · intro hf
    have ho := p6.2 hf
    have hd := p3 (by rw [ho]; simp)
    subst ho hd
    rfl

/-- C30: a Check IMEI Request.  Let `d1` be the database after creation on demand, if any.
"Known" (ACK) is answered only for a well-formed IMEI of an existing subscriber, and the
IMEI is then stored if so configured and nothing else changes; otherwise an error is
answered, or the process dies, and nothing changes. -/
theorem c30_check_imei_running (hU : Unique s.db) (ht : m.typ = CHECK_IMEI) :
    ∃ d1, (d1 = s.db ∨ (cfg.hlr.cod ≠ .disabled ∧ ∃ num, Added cfg.hlr m.imsi num s.db d1))
    ∧ ((∃ M i, Answered m M none ∧ M.imeiAck = true ∧ Db.Known d1 m.imsi
        ∧ m.imeiEnc.bind cfg.imeiDec = some i ∧ Digits 14 14 i
        ∧ step cfg s (.rx c (some m) e) = { received s c k m with
            db := if cfg.hlr.storeImei then withRow d1 m.imsi (fun r => { r with imei := some i }) else d1
            log := answer (received s c k m) (mkReq k s.nextReq m) M ++ (received s c k m).log })
      ∨ (∃ M, Answered m M (some .invMandInfo)
        ∧ step cfg s (.rx c (some m) e) = { received s c k m with
            db := d1
            log := answer (received s c k m) (mkReq k s.nextReq m) M ++ (received s c k m).log })
      ∨ step cfg s (.rx c (some m) e) = ({ received s c k m with db := d1 } : Sys).crash) := by
  have hne : toError m.typ ≠ ROUTING_ERROR := by rw [ht]; decide
  have hq : isRequest m.typ = true := by rw [ht]; decide
  have hs : step cfg s (.rx c (some m) e) = withDb (received s c k m) e.sc
      (rxCheckImei cfg.hlr e.rnd m.imsi (m.imeiEnc.bind cfg.imeiDec))
      fun r s' => match r with
        | .ack => (respond cfg s' (mkReq k s.nextReq m) { typ := CHECK_IMEI + 2, imeiAck := true } false true).2
        | .error c => respondErr cfg s' (mkReq k s.nextReq m) c := by
    rw [step_accepted hr hu h e hloc]
    have : dispatch cfg e k (mkReq k s.nextReq m) (received s c k m)
        = rxCheckImeiReq cfg e (mkReq k s.nextReq m) (received s c k m) := by
      unfold dispatch
      rw [mkReq_gsup, ht]
      rfl
    rw [this]
    unfold rxCheckImeiReq
    rw [mkReq_gsup]
    rfl
  obtain ⟨d1, h1, h2⟩ := Hlr.Props.check_imei_outcome cfg.hlr e.rnd m.imsi (m.imeiEnc.bind cfg.imeiDec) hU e.sc
  refine ⟨d1, h1, ?_⟩
  have hdb : (received s c k m).db = s.db := rfl
  rw [hs]
  unfold withDb
  rw [hdb]
  generalize exec (rxCheckImei cfg.hlr e.rnd m.imsi (m.imeiEnc.bind cfg.imeiDec)) s.db e.sc = x at h2 ⊢
  obtain ⟨o, d⟩ := x
  dsimp only at h2 ⊢
  rcases h2 with ⟨rfl, hk, i, hi, hd, rfl⟩ | ⟨rfl | rfl, rfl⟩
  · left
    refine ⟨fillResponse { typ := CHECK_IMEI + 2, imeiAck := true } m false true, i, ⟨?_, ?_, ?_⟩, ?_, hk, hi, hd, ?_⟩
    · simp [fillResponse, ht]
    · simp [fillResponse]
    · simp [fillResponse]
    · simp [fillResponse]
    · dsimp only
      rw [respond_final cfg _ _ _ _ henc rfl rfl rfl rfl (by simp [fillResponse]; decide), mkReq_gsup]
      rfl
  · right; right
    rfl
  · right; left
    exact respondErr_answered henc { received s c k m with db := d } hq hne

end

/-! ## C24: claiming the name of another node -/

/-- A message of an identified node (registered under its name) that claims the source
name of another connected node has no effect at all: the sender, not the node whose name
was used, gets a routing error. -/
theorem c24_foreign_source_refused {cfg : Cfg} {s : Sys} (hr : Reach s) (hu : s.ub = false) {c c' : ConnId}
    {k : Conn} {m : Msg} (e : Env) (hk : s.conn? c = some k) (hname : k.name.isEmpty = false)
    (hreg : (k.name.name, c) ∈ s.routes) (hl : m.src.length ≤ 128) (hi : Digits 6 15 m.imsi)
    (hsrc : (m.src, c') ∈ s.routes) (hne : c' ≠ c) (h0 : m.src ≠ []) :
    ∃ lg, step cfg s (.rx c (some m) e)
        = { s with nextReq := s.nextReq + 1, log := .concl s.nextReq .answered :: lg ++ .rx s.nextReq c (some m) :: s.log }
      ∧ (∀ o ∈ lg, ∃ M, M.typ = ROUTING_ERROR ∧ M.imsi = m.imsi ∧ o = .tx c M (some s.nextReq))
      ∧ ((∀ m, cfg.enc m = true) → lg ≠ []) := by
  obtain ⟨P, hv, hP⟩ := reach_done hr
  obtain ⟨hm, hid⟩ := conn?_some hk
  have hsr := ipaSet_ok (n := k.name) hl
  have e1 := (routeFind_some hv.routesNodup).2 hsrc
  have e2 := (routeFind_some hv.routesNodup).2 hreg
  have hs0 : m.src.isEmpty = false := by simpa using h0
  have hcmp : ipaCmp (ipaSet k.name m.src).2 k.name ≠ 0 := by
    intro hc
    have hwf : k.name.WF := hv.connWf k hm
    rw [Gsup.Props.c25_cmp_eq (ipaSet_wf hwf _) hwf, name_set hsr] at hc
    rw [hc, e2] at e1
    exact hne (Option.some.inj e1).symm
  have hq : mkReq k s.nextReq m = { nr := s.nextReq, conn := k.id, gsup := m, source := (ipaSet k.name m.src).2, viaProxy := .ipa k.name } := by
    unfold mkReq
    rw [if_neg (by simp [hs0])]
    dsimp only
    rw [if_pos hcmp]
  have hstep : step cfg s (.rx c (some m) e) = respondMsgt cfg (entered s c m s.routes) (mkReq k s.nextReq m) ROUTING_ERROR := by
    unfold step
    rw [if_neg (by simp [hu])]
    show rx cfg e c (some m) s = _
    unfold rx
    rw [hk]
    dsimp only
    rw [if_neg (by simp [hsr]), if_neg (by simp [imsiValid, isNDigits_spec.2 hi])]
    unfold connRx
    rw [if_neg (by rw [hq]; simp [PeerId.isEmpty, hname])]
    dsimp only
    have hn : (mkReq k s.nextReq m).source.name = m.src := by rw [hq]; exact name_set hsr
    rw [hn]
    have hadd : routeAdd s.routes k.id m.src = (-EEXIST, s.routes) := by
      unfold routeAdd
      rw [e1]
      dsimp only
      rw [hid, if_neg hne]
    rw [hadd]
    rfl
  rw [hstep]
  unfold respondMsgt
  rw [respond_frame, c22_response_sent]
  have hro : (mkReq k s.nextReq m).routing (makeResponse { typ := ROUTING_ERROR } (mkReq k s.nextReq m).gsup (ROUTING_ERROR % 4 == 1) true).2 = k.name := by
    rw [hq]
    unfold Req.routing
    dsimp only
    rw [if_pos ⟨by simp [makeResponse, fillResponse], by simp [hname]⟩]
  rw [hro]
  have e3 : routeFind (entered s c m s.routes).routes k.name.name = some c := e2
  rw [e3, mkReq_nr, mkReq_gsup]
  dsimp only
  refine ⟨if (makeResponse { typ := ROUTING_ERROR } m (ROUTING_ERROR % 4 == 1) true).1 = 0 ∧ cfg.enc (makeResponse { typ := ROUTING_ERROR } m (ROUTING_ERROR % 4 == 1) true).2 = true
    then [.tx c (makeResponse { typ := ROUTING_ERROR } m (ROUTING_ERROR % 4 == 1) true).2 (some s.nextReq)] else [], rfl, ?_, ?_⟩
  · intro o ho
    split at ho
    · refine ⟨_, ?_, ?_, List.mem_singleton.1 ho⟩ <;> simp [makeResponse, fillResponse]
    · cases ho
  · intro henc
    rw [if_pos ⟨by simp [makeResponse, responseRc, fillResponse], henc _⟩]
    simp

/-! ## Examples -/

/-- The hypotheses of `c24_foreign_source_refused`: MSC-2 claims to be MSC-1. -/
example :
    let s := runWith exCfg (init {}) exTwo
    s.ub = false ∧ (s.conn? 2).any (fun k => !k.name.isEmpty && s.routes.contains (k.name.name, 2)) = true
      ∧ (msc1, 1) ∈ s.routes ∧ responses (step exCfg s (.rx 2 (some { purgeMsg with src := msc1 }) {}))
        = [(2, ROUTING_ERROR, 1)] := by decide +kernel

/-- Subscriber 1 gets Milenage keys. -/
def exKeys : List Ev := exTwo ++
  [.db (.aud 1 (.umts .milenage (b "00112233445566778899aabbccddeeff")
    (b "00112233445566778899aabbccddeeff") false 5)) []]

def saiMsg : Msg where
  typ := SEND_AUTH_INFO
  imsi := imsi1
  numVectors := 2

def exEnv : Env where
  rands := Auc.Props.exRands

/-- Both nodes ask; one request fails to store the sequence number, during one the process
dies, and the nodes come back. -/
def exAuth : List Ev :=
  [.rx 1 (some saiMsg) exEnv, .rx 2 (some saiMsg) exEnv, .rx 1 (some ulMsg) {},
   .rx 1 (some saiMsg) { exEnv with sc := [.ok, .ok, .ok, .ioerr] },
   .rx 1 (some saiMsg) { exEnv with sc := [.ok, .ok, .ok, .crash] },
   .connect, .ccm 3 (some msc1), .rx 3 (some saiMsg) exEnv]

/-- The hypotheses of `c12_running` hold of that history, and six numbers are sent. -/
example : (∃ r ∈ (runWith exCfg (init {}) exKeys).db.subs, r.id = 1 ∧ r.imsi = imsi1)
    ∧ (key3 (runWith exCfg (init {}) exKeys).db 1).any (fun a => a.sqn == 0 && a.indBitlen == 5) = true
    ∧ numSai (exAuth.map fun ev => (exCfg, ev)) = 5 ∧ (5 * 5 + 1) * 2 ^ 5 ≤ 2 ^ 48
    ∧ sentSqns imsi1 (runWith exCfg (init {}) (exKeys ++ exAuth)).log = [33, 65, 98, 130, 161, 193] := by decide +kernel

example : ∀ ev ∈ exAuth, ev.Plain 1 imsi1 := by
  simp [exAuth, exEnv, Ev.Plain, saiMsg, ulMsg]

/-- The answers of that history (hypotheses of `sai_sent` and the theorems after it, and
both kinds of outcome in `c17_running`). -/
example : (responses (runWith exCfg (init {}) (exKeys ++ exAuth))).map (fun x => (x.1, x.2.1))
    = [(3, SEND_AUTH_INFO + 2), (1, SEND_AUTH_INFO + 1), (1, INSERT_DATA), (2, SEND_AUTH_INFO + 2),
        (1, SEND_AUTH_INFO + 2)] := by decide +kernel

/-- The peer may also purge the subscriber and check equipment. -/
example : (runWith exCfg (init {}) (exTwo ++ [.rx 2 (some purgeMsg) {}])).db.subs.map (fun r => (r.purgedCs, r.purgedPs))
      = [(true, false)]
    ∧ (runWith exCfg (init {}) (exTwo ++ [.rx 2 (some { purgeMsg with cnDomain := 1 }) {}])).db.subs.map
        (fun r => (r.purgedCs, r.purgedPs)) = [(false, true)]
    ∧ responses (runWith exCfg (init {}) (exTwo ++ [.rx 2 (some { purgeMsg with imsi := b "001010000000009" }) {}]))
      = [(2, PURGE_MS + 1, 1)]
    ∧ responses (runWith exCfg (init {}) (exTwo ++ [.rx 2 (some purgeMsg) { sc := [.ioerr] }])) = [(2, PURGE_MS + 1, 1)] := by
  decide +kernel

def imeiCfg : Cfg := { exCfg with imeiDec := fun e => some e, hlr := { storeImei := true } }

example :
    let s := runWith imeiCfg (init {}) (exTwo ++
      [.rx 2 (some { typ := CHECK_IMEI, imsi := imsi1, imeiEnc := some (b "12345678901234") }) {}])
    s.db.subs.map (fun r => r.imei) = [some (b "12345678901234")] ∧ responses s = [(2, CHECK_IMEI + 2, 1)] := by
  decide +kernel

/-- The hypotheses about the state and the message are those of `step_accepted`; they hold
here. -/
example : Accepted exCfg (runWith exCfg (init {}) exKeys) 2
    { id := 2, name := { len := 6, val := msc2 ++ List.replicate 122 0 }, ccm := some msc2 } saiMsg
    ∧ Local {} saiMsg (runWith exCfg (init {}) exKeys) :=
  ⟨⟨⟨by decide +kernel, by decide +kernel, isNDigits_spec.1 (by decide +kernel), .inl (by decide +kernel)⟩,
    .inl (by decide +kernel)⟩, .inl rfl⟩

end Verif.Sys.Props
