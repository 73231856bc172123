import Verif.Prov.Props
/-! # C54: the CTRL interface writes what it is asked to write -/
namespace Verif.Prov.Props
open Verif Verif.Db Verif.Auc Verif.Mslookup Verif.Mslookup.Mdns Verif.Prov

deriving instance DecidableEq for Except

/-- C54: a SET answered with OK did exactly what the value asks for, to a subscriber the selector
names; under every database fault. -/
theorem c54_ok (hist : List (Op × Script)) (sc : Script) (sel : Bytes) (hs : SelOk sel) (x : Var) (v : Bytes)
    (h : (exec (set sel x v) (runHist {} hist) sc).1 = some okReply) :
    ∃ r ∈ (runHist {} hist).subs, Names sel r
      ∧ Effect (runHist {} hist) r x v (exec (set sel x v) (runHist {} hist) sc).2 := by
  have hG := reachable_good hist
  rcases set_oneCall hG sel x v sc with ⟨-, h'⟩ | ⟨c, r, op, sc', hc, hf, hst, e1, e2, -, -⟩
  · exact absurd h h'
  · refine ⟨r, List.mem_of_find?_eq_some hf, selCond_found hG hc hs hf, ?_⟩
    rw [e1]
    exact stands_effect hG hst (e2.mp h)

/-- C54: whatever the answer and whatever fails, a SET leaves every subscriber that the selector
does not name as it is: data and keys. -/
theorem c54_frame (hist : List (Op × Script)) (sc : Script) (sel : Bytes) (hs : SelOk sel) (x : Var) (v : Bytes)
    (q : SubRow) (hq : q ∈ (runHist {} hist).subs) (hn : ¬ Names sel q) :
    q ∈ (exec (set sel x v) (runHist {} hist) sc).2.subs
    ∧ key2 (exec (set sel x v) (runHist {} hist) sc).2 q.id = key2 (runHist {} hist) q.id
    ∧ key3 (exec (set sel x v) (runHist {} hist) sc).2 q.id = key3 (runHist {} hist) q.id := by
  have hG := reachable_good hist
  rcases set_oneCall hG sel x v sc with ⟨e, -⟩ | ⟨c, r, op, sc', hc, hf, hst, e1, -, -, -⟩
  · rw [e]; exact ⟨hq, rfl, rfl⟩
  · rw [e1]
    exact others_same hG (List.mem_of_find?_eq_some hf) hq
      (fun e => hn (e ▸ selCond_found hG hc hs hf)) hst sc'

/-- C54: on a working database a SET not answered with OK is answered with an error and changed
nothing. -/
theorem c54_refused (hist : List (Op × Script)) (sc : Script) (hsc : ∀ f ∈ sc, f = .ok) (sel : Bytes) (x : Var) (v : Bytes) :
    (exec (set sel x v) (runHist {} hist) sc).1 = some okReply
    ∨ (exec (set sel x v) (runHist {} hist) sc).2 = runHist {} hist := by
  have hG := reachable_good hist
  rw [(set_uniform sel x v).exec _ hsc]
  rcases set_oneCall hG sel x v [] with ⟨e, -⟩ | ⟨c, r, op, sc', hc, hf, hst, e1, e2, -, h0⟩
  · exact .inr e
  · cases h0 rfl
    rcases op_refused hG ⟨r, x, v, hst⟩ with h | h
    · exact .inl (e2.mpr h)
    · exact .inr (e1.trans h)

theorem answer_exec (m : DbM Int) (e : Reply) (d : Db) (sc : Script) :
    exec (do pure (answer e (← m)) : DbM Reply) d sc = ((exec m d sc).1.map (answer e), (exec m d sc).2) := by
  unfold exec
  rw [bind_run]
  rcases m { db := d, script := sc } with ⟨o, w⟩
  cases o <;> rfl

/-- C54: setting an MSISDN, on a working database, selecting by IMSI, MSISDN or id. -/
theorem c54_msisdn (hist : List (Op × Script)) (sc : Script) (hsc : ∀ f ∈ sc, f = .ok) (sel m : Bytes)
    (r : SubRow) (hr : r ∈ (runHist {} hist).subs) (h : Names sel r) (hid : r.id < 2 ^ 63) (hm : Digits 1 15 m) :
    let d := runHist {} hist
    ((∀ q ∈ d.subs, q.imsi ≠ r.imsi → q.msisdn ≠ some m) →
      exec (set sel .msisdn m) d sc = (some okReply, withRow d r.imsi fun q => { q with msisdn := some m }))
    ∧ ((∃ q ∈ d.subs, q.imsi ≠ r.imsi ∧ q.msisdn = some m) →
      exec (set sel .msisdn m) d sc = (some (err "Update MSISDN failed"), d)) := by
  intro d
  have hG : Good d := reachable_good hist
  rw [(set_uniform sel .msisdn m).exec _ hsc]
  obtain ⟨c, hc, hf⟩ := selCond_names hG hr h hid
  have hv : msisdnValid m = true := digits_valid.mpr hm
  have hne : m ≠ b "none" := by
    rintro rfl
    have := hm.2.2 110 (by decide +kernel)
    revert this
    decide
  have he : exec (set sel .msisdn m) d []
      = exec (do pure (answer (err "Update MSISDN failed") (← updateMsisdn r.imsi (some m)))) d [] := by
    unfold set setVar
    dsimp only
    rw [if_pos (by simp [verify, hv, hm.2.1]), withSub_nil hc hf, ofRow_imsi hG hr, if_neg hne]
  have hc := contract_msisdn d hG.unique [] r.imsi m
  have hk : Known d r.imsi := ⟨r, hr, rfl⟩
  rw [he, answer_exec]
  refine ⟨fun hfree => ?_, fun ⟨q, hq, h1, h2⟩ => ?_⟩
  · have h0 := hc.success.mpr ⟨hm, hk, hfree, rfl⟩
    rw [h0, hc.effect h0]
    rfl
  · have h5 := hc.eio.mpr ⟨hm, .inr ⟨rfl, hk, fun hfree => hfree q hq h1 h2⟩⟩
    rw [h5, hc.noEffect (by rw [h5]; decide)]
    rfl

/-- C54: removing the MSISDN. -/
theorem c54_no_msisdn (hist : List (Op × Script)) (sc : Script) (hsc : ∀ f ∈ sc, f = .ok) (sel : Bytes)
    (r : SubRow) (hr : r ∈ (runHist {} hist).subs) (h : Names sel r) (hid : r.id < 2 ^ 63) :
    exec (set sel .msisdn (b "none")) (runHist {} hist) sc
      = (some okReply, withRow (runHist {} hist) r.imsi fun q => { q with msisdn := none }) := by
  have hG := reachable_good hist
  rw [(set_uniform sel .msisdn _).exec _ hsc]
  obtain ⟨c, hc, hf⟩ := selCond_names hG hr h hid
  have hc' := contract_delMsisdn (runHist {} hist) hG.unique [] r.imsi
  have h0 := hc'.success.mpr ⟨trivial, ⟨r, hr, rfl⟩, trivial, rfl⟩
  unfold set setVar
  dsimp only
  rw [if_pos (by decide +kernel), withSub_nil hc hf, ofRow_imsi hG hr, if_pos rfl, answer_exec, h0, hc'.effect h0]
  rfl

theorem withImsi_nil {d : Db} (hG : Good d) {sel : Bytes} {r : SubRow} (hr : r ∈ d.subs) (h : Names sel r)
    (hid : r.id < 2 ^ 63) (k : Bytes → DbM Reply) : exec (withImsi sel k) d [] = exec (k r.imsi) d [] := by
  obtain ⟨c, hc, hf⟩ := selCond_names hG hr h hid
  unfold withImsi
  by_cases hp : startswith sel byImsi = true
  · rw [if_pos hp, names_imsi hp h]
  · rw [if_neg hp, withSub_nil hc hf, ofRow_imsi hG hr]

/-- C54: permitting and forbidding circuit-switched service. -/
theorem c54_cs (hist : List (Op × Script)) (sc : Script) (hsc : ∀ f ∈ sc, f = .ok) (sel : Bytes) (v : Bool)
    (r : SubRow) (hr : r ∈ (runHist {} hist).subs) (h : Names sel r) (hid : r.id < 2 ^ 63) :
    exec (set sel .cs (if v then b "1" else b "0")) (runHist {} hist) sc
      = (some okReply, withRow (runHist {} hist) r.imsi fun q => { q with namCs := v }) := by
  have hG := reachable_good hist
  rw [(set_uniform sel .cs _).exec _ hsc]
  have hc := contract_nam (runHist {} hist) hG.unique [] r.imsi v false
  have h0 := hc.success.mpr ⟨trivial, ⟨r, hr, rfl⟩, trivial, rfl⟩
  have e : ((if v then b "1" else b "0") == b "1") = v := by cases v <;> decide +kernel
  unfold set setVar
  dsimp only
  rw [if_pos (by cases v <;> decide +kernel), withImsi_nil hG hr h hid, answer_exec, e, h0, hc.effect h0]
  rfl

/-- C54: permitting and forbidding packet-switched service. -/
theorem c54_ps (hist : List (Op × Script)) (sc : Script) (hsc : ∀ f ∈ sc, f = .ok) (sel : Bytes) (v : Bool)
    (r : SubRow) (hr : r ∈ (runHist {} hist).subs) (h : Names sel r) (hid : r.id < 2 ^ 63) :
    exec (set sel .ps (if v then b "1" else b "0")) (runHist {} hist) sc
      = (some okReply, withRow (runHist {} hist) r.imsi fun q => { q with namPs := v }) := by
  have hG := reachable_good hist
  rw [(set_uniform sel .ps _).exec _ hsc]
  have hc := contract_nam (runHist {} hist) hG.unique [] r.imsi v true
  have h0 := hc.success.mpr ⟨trivial, ⟨r, hr, rfl⟩, trivial, rfl⟩
  have e : ((if v then b "1" else b "0") == b "1") = v := by cases v <;> decide +kernel
  unfold set setVar
  dsimp only
  rw [if_pos (by cases v <;> decide +kernel), withImsi_nil hG hr h hid, answer_exec, e, h0, hc.effect h0]
  rfl

theorem asks2_key {v ki : Bytes} {al : Algo} (h : Asks2 v al ki) (id : Int) :
    Key2Ok { id := id, algo := al, ki := ki } := by
  obtain ⟨t, -, -, h1, h2, h3⟩ := h
  exact ⟨h1, h2, h3⟩

/-- C54: setting 2G keys. -/
theorem c54_aud2g (hist : List (Op × Script)) (sc : Script) (hsc : ∀ f ∈ sc, f = .ok) (sel v ki : Bytes) (al : Algo)
    (r : SubRow) (hr : r ∈ (runHist {} hist).subs) (h : Names sel r) (hid : r.id < 2 ^ 63) (ha : Asks2 v al ki) :
    exec (set sel .aud2g v) (runHist {} hist) sc
      = (some okReply, withKey2 (runHist {} hist) r.id (some { id := r.id, algo := al, ki := ki })) := by
  have hG := reachable_good hist
  rw [(set_uniform sel .aud2g _).exec _ hsc]
  obtain ⟨c, hc, hf⟩ := selCond_names hG hr h hid
  have hn : al ≠ .none := by
    obtain ⟨t, -, -, h1, -⟩ := ha
    rintro rfl
    simp at h1
  have hv : verify v .aud2g = true := by
    obtain ⟨t, rfl, -⟩ := ha
    unfold verify
    rw [comma_eq]
    simp
  have hk : aud2Valid al ki = true := by
    rw [aud2Valid_iff]
    have := asks2_key ha 0
    revert hn
    cases al <;> first | exact fun h => absurd rfl h | exact fun _ => this
  unfold set setVar
  dsimp only
  rw [if_pos hv, withSub_nil hc hf, parseAud2_asks ha]
  dsimp only
  rw [answer_exec]
  have hi : (HlrSubscr.ofRow r).id = r.id := rfl
  rw [hi]
  rcases exec_aud2 (runHist {} hist) hG.unique [] r.id al ki hk hn with ⟨e, -⟩ | ⟨e, -⟩ | ⟨-, e, -⟩ | ⟨-, e, -⟩ | ⟨-, -, e⟩
  · cases e
  · cases e
  · cases e
  · cases e
  · rw [e]; rfl

/-- C54: setting 3G keys. -/
theorem c54_aud3g (hist : List (Op × Script)) (sc : Script) (hsc : ∀ f ∈ sc, f = .ok) (sel v k o : Bytes)
    (isOp : Bool) (bl : Nat)
    (r : SubRow) (hr : r ∈ (runHist {} hist).subs) (h : Names sel r) (hid : r.id < 2 ^ 63) (ha : Asks3 v k o isOp bl) :
    exec (set sel .aud3g v) (runHist {} hist) sc
      = (some okReply, withKey3 (runHist {} hist) r.id (some (newKey3 r.id k o isOp bl))) := by
  have hG := reachable_good hist
  rw [(set_uniform sel .aud3g _).exec _ hsc]
  obtain ⟨c, hc, hf⟩ := selCond_names hG hr h hid
  have hv : verify v .aud3g = true := by
    obtain ⟨-, -, -, t, c, -, -, ⟨rfl, -⟩ | ⟨n, -, rfl⟩⟩ := ha
    all_goals
      unfold verify
      simp [comma_lit]
  have hk : aud3Valid .milenage k o bl = true := by
    rw [aud3Valid_iff (p := isOp)]
    obtain ⟨⟨k1, k2⟩, ⟨o1, o2⟩, hb, -⟩ := ha
    exact ⟨by simp, ⟨by omega, by omega, by omega, k2⟩, ⟨by omega, by omega, by omega, o2⟩, hb⟩
  unfold set setVar
  dsimp only
  rw [if_pos hv, withSub_nil hc hf, parseAud3_asks ha]
  dsimp only
  rw [answer_exec]
  have hi : (HlrSubscr.ofRow r).id = r.id := rfl
  rw [hi]
  rcases exec_aud3 (runHist {} hist) hG.unique [] r.id .milenage k o isOp bl hk (by simp) with
    ⟨e, -⟩ | ⟨e, -⟩ | ⟨-, e, -⟩ | ⟨-, e, -⟩ | ⟨-, -, e⟩
  · cases e
  · cases e
  · cases e
  · cases e
  · rw [e]; rfl

/-- C54: removing keys of a subscriber that has some.  Where there are none the answer is an
error, see `c54_none_violated`. -/
theorem c54_no_keys_partial (hist : List (Op × Script)) (sc : Script) (hsc : ∀ f ∈ sc, f = .ok) (sel : Bytes)
    (r : SubRow) (hr : r ∈ (runHist {} hist).subs) (h : Names sel r) (hid : r.id < 2 ^ 63) :
    let d := runHist {} hist
    (key2 d r.id ≠ none → exec (set sel .aud2g (b "none")) d sc = (some okReply, withKey2 d r.id none))
    ∧ (key3 d r.id ≠ none → exec (set sel .aud3g (b "none")) d sc = (some okReply, withKey3 d r.id none)) := by
  intro d
  have hG : Good d := reachable_good hist
  obtain ⟨c, hc, hf⟩ := selCond_names hG hr h hid
  have hi : (HlrSubscr.ofRow r).id = r.id := rfl
  refine ⟨fun hk => ?_, fun hk => ?_⟩
  · rw [(set_uniform sel .aud2g _).exec _ hsc]
    have hp : parseAud2 (b "none") = .ok (.gsm .none []) := by decide +kernel
    have hs : (key2 d r.id).isSome = true := by rw [Option.isSome_iff_ne_none]; exact hk
    unfold set setVar
    dsimp only
    rw [if_pos (by decide +kernel), withSub_nil hc hf, hp]
    dsimp only
    rw [answer_exec, hi, audNone2 hG, if_pos hs]
    rfl
  · rw [(set_uniform sel .aud3g _).exec _ hsc]
    have hp : parseAud3 (b "none") = .ok (.umts .none [] [] false 5) := by decide +kernel
    have hs : (key3 d r.id).isSome = true := by rw [Option.isSome_iff_ne_none]; exact hk
    unfold set setVar
    dsimp only
    rw [if_pos (by decide +kernel), withSub_nil hc hf, hp]
    dsimp only
    rw [answer_exec, hi, audNone3 hG, if_pos hs]
    rfl

/-! ### Creating and deleting -/

theorem exec_of_run {m : DbM Reply} {d d' : Db} {sc t : Script} {o : Option Reply}
    (h : m { db := d, script := sc } = (o, { db := d', script := t })) : exec m d sc = (o, d') := by
  unfold exec
  rw [h]

/-- C54: creating a subscriber, on a working database: a valid IMSI that is not in the database
yet gets one new record, and the answer is its id. -/
theorem c54_create (hist : List (Op × Script)) (sc : Script) (hsc : ∀ f ∈ sc, f = .ok) (imsi : Bytes) :
    let d := runHist {} hist
    (Digits 6 15 imsi ∧ ¬ Known d imsi → ∃ id, (∀ r ∈ d.subs, r.id ≠ id)
      ∧ exec (create imsi) d sc = (some (.reply (u64 id)),
          { d with subs := d.subs ++ [{ id := id, imsi := imsi, namCs := true, namPs := true }] }))
    ∧ (Digits 6 15 imsi ∧ Known d imsi → exec (create imsi) d sc = (some (err "Subscriber already exists."), d))
    ∧ (¬ Digits 6 15 imsi → exec (create imsi) d sc = (some (err "Invalid IMSI value."), d)) := by
  intro d
  rw [(create_uniform imsi).exec _ hsc]
  have hc := Db.Props.c02_create d [] imsi true true
  obtain ⟨h1, h2, h3, h4, h5, -⟩ := hc
  have split' : ∀ o w, subscrCreate imsi true true { db := d, script := [] } = (o, w) →
      (exec (subscrCreate imsi true true) d []).1 = o ∧ (exec (subscrCreate imsi true true) d []).2 = w.db := by
    intro o w e
    unfold exec
    rw [e]
    exact ⟨rfl, rfl⟩
  obtain ⟨a, d', hu, -⟩ := subscrCreate_uniform imsi true true d
  obtain ⟨s1, s2⟩ := split' _ _ hu
  refine ⟨fun ⟨hv, hk⟩ => ?_, fun ⟨hv, hk⟩ => ?_, fun hv => ?_⟩
  · have h0 := h1.mpr ⟨hv, hk, rfl⟩
    obtain ⟨id, hid, he⟩ := h2 h0
    refine ⟨id, hid, ?_⟩
    rw [s1] at h0
    cases h0
    rw [s2] at he
    dsimp only at he
    subst he
    have hvv : imsiValid imsi = true := digits_valid.mpr hv
    refine exec_of_run (t := []) ?_
    unfold create
    rw [hvv]
    show ((subscrCreate imsi true true) >>= fun rc => _ : DbM Reply) _ = _
    rw [bind_run, hu]
    dsimp only
    rw [if_neg (by simp), bind_run]
    unfold getByImsi
    rw [dbSel_nil]
    have hf : (d.subs ++ [({ id := id, imsi := imsi, namCs := true, namPs := true } : SubRow)]).find?
        (fun r : SubRow => r.imsi == imsi) = some { id := id, imsi := imsi, namCs := true, namPs := true } := by
      rw [List.find?_append]
      have : d.subs.find? (fun r : SubRow => r.imsi == imsi) = none := by
        rw [List.find?_eq_none]
        intro r hr e
        exact hk ⟨r, hr, by simpa using e⟩
      rw [this]
      simp
    dsimp only
    rw [hf]
    rfl
  · have h0 := h5.mpr ⟨hv, rfl, hk⟩
    have hd := h3 (by rw [h0]; decide)
    rw [s1] at h0
    cases h0
    rw [s2] at hd
    dsimp only at hd
    subst hd
    have hvv : imsiValid imsi = true := digits_valid.mpr hv
    refine exec_of_run (t := []) ?_
    unfold create
    rw [hvv]
    show ((subscrCreate imsi true true) >>= fun rc => _ : DbM Reply) _ = _
    rw [bind_run, hu]
    dsimp only
    rw [if_pos (by decide)]
    rfl
  · have hvv : imsiValid imsi = false := by
      cases h : imsiValid imsi with
      | false => rfl
      | true => exact absurd (digits_valid.mp h) hv
    unfold create
    rw [hvv]
    rfl

end Verif.Prov.Props
