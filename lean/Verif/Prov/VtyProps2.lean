import Verif.Prov.VtyProps
/-! # C55: valid commands work, and what goes wrong -/
namespace Verif.Prov.Vty.Props
open Verif Verif.Db Verif.Auc Verif.Mslookup Verif.Mslookup.Mdns Verif.Prov Verif.Prov.Vty

/-! ### MSISDN and IMEI -/

theorem withRow_mem {d : Db} {r : SubRow} (hr : r ∈ d.subs) (f : SubRow → SubRow) : f r ∈ (withRow d r.imsi f).subs :=
  List.mem_map.mpr ⟨r, hr, by simp⟩

/-- C55: setting an MSISDN: the new number is stored, the terminal says so and the serving nodes
are told the new data; a number of another subscriber is refused. -/
theorem c55_msisdn (ck : Clock) (hist : List (Op × Script)) (sc : Script) (hsc : ∀ f ∈ sc, f = .ok) (t : IdType) (id m : Bytes)
    (r : SubRow) (h : Only (runHist {} hist) t id r) (hid : r.id < 2 ^ 63) (hm : Digits 1 15 m) :
    let d := runHist {} hist
    ((∀ q ∈ d.subs, q.imsi ≠ r.imsi → q.msisdn ≠ some m) →
      exec (vty ck (.msisdn t id m)) d sc
        = (some (.done true (strip t id ++ b "% Updated subscriber IMSI='" ++ r.imsi ++ b "' to MSISDN='" ++ m ++ b "'\n")
            [.notify (HlrSubscr.ofRow { r with msisdn := some m })]),
          withRow d r.imsi fun q => { q with msisdn := some m }))
    ∧ ((∃ q ∈ d.subs, q.imsi ≠ r.imsi ∧ q.msisdn = some m) →
      exec (vty ck (.msisdn t id m)) d sc
        = (some (.done false (strip t id ++ b "% Error: cannot update MSISDN for subscriber IMSI='" ++ r.imsi ++ b "'\n") []), d)) := by
  intro d
  have hG : Good d := reachable_good hist
  have h : Only d t id r := h
  clear_value d
  rw [(vty_uniform ck _).exec _ hsc]
  have hr := h.1
  have hne := msisdn_ne_none hm
  have hl : ¬ (m ≠ b "none" ∧ m.length > 15) := fun e => by have := e.2; have := hm.2.1; omega
  have hvf : ¬ (m ≠ b "none" ∧ msisdnValid m = false) := by
    rintro ⟨-, e⟩
    rw [show msisdnValid m = true from digits_valid.mpr hm] at e
    cases e
  have he : exec (vty ck (.msisdn t id m)) d [] = exec (do
      let rc ← updateMsisdn r.imsi (some m)
      if rc ≠ 0 then
        pure (warn (strip t id ++ b "% Error: cannot update MSISDN for subscriber IMSI='" ++ r.imsi ++ b "'\n"))
      else do
        match ← getByMsisdn m with
        | (_, none) => pure (success (strip t id ++ b "% Updated subscriber IMSI='" ++ r.imsi ++ b "' to MSISDN='" ++ m ++ b "'\n"))
        | (_, some r') => pure (.done true (strip t id ++ b "% Updated subscriber IMSI='" ++ r.imsi ++ b "' to MSISDN='" ++ m ++ b "'\n")
            [.notify (HlrSubscr.ofRow r')])) d [] := by
    show exec (msisdn t id m) d [] = _
    unfold msisdn
    rw [if_neg hl, if_neg hvf, withSub_found (cond_names hG h hid), ofRow_imsi hG hr, if_neg hne]
    simp only [if_neg hne]
    rfl
  have hc := contract_msisdn d hG.unique [] r.imsi m
  have hk : Known d r.imsi := ⟨r, hr, rfl⟩
  obtain ⟨a, d', hu, -⟩ := updateMsisdn_uniform r.imsi (some m) d
  have s1 : (exec (updateMsisdn r.imsi (some m)) d []).1 = some a := by unfold exec; rw [hu]
  have s2 : (exec (updateMsisdn r.imsi (some m)) d []).2 = d' := by unfold exec; rw [hu]
  rw [he]
  refine ⟨fun hfree => ?_, fun ⟨q, hq, h1, h2⟩ => ?_⟩
  · have h0 := hc.success.mpr ⟨hm, hk, hfree, rfl⟩
    have hd := hc.effect h0
    have hG' : Good (exec (updateMsisdn r.imsi (some m)) d []).2 := (good_op (.msisdn r.imsi (some m))).exec d [] hG
    rw [hd] at hG'
    have hmem := withRow_mem hr (fun q => { q with msisdn := some m })
    have hf : (withRow d r.imsi fun q => { q with msisdn := some m }).subs.find? (fun q : SubRow => q.msisdn == some m)
        = some { r with msisdn := some m } := by
      cases hf : (withRow d r.imsi fun q => { q with msisdn := some m }).subs.find? (fun q : SubRow => q.msisdn == some m) with
      | none => exact absurd (beq_self_eq_true (some m)) (List.find?_eq_none.mp hf _ hmem)
      | some q =>
        have e1 := List.find?_some hf
        have e1 : q.msisdn = some m := by simpa using e1
        rw [eq_of_nodup_filterMap hG'.unique.msisdns (List.mem_of_find?_eq_some hf) hmem (x := m) e1 rfl]
    rw [s1] at h0
    cases h0
    rw [s2] at hd
    subst hd
    unfold exec
    rw [bind_run, hu]
    dsimp only
    rw [if_neg (by simp), bind_run]
    unfold getByMsisdn
    rw [dbSel_nil, hf]
    rfl
  · have h5 := hc.eio.mpr ⟨hm, .inr ⟨rfl, hk, fun hfree => hfree q hq h1 h2⟩⟩
    have hd := hc.noEffect (by rw [h5]; decide)
    rw [s1] at h5
    cases h5
    rw [s2] at hd
    subst hd
    unfold exec
    rw [bind_run, hu]
    dsimp only
    rw [if_pos (by decide)]
    rfl

/-- C55: removing the MSISDN.  What the serving nodes are told is the data as before, with the
old number: see `c56_stale_violated`. -/
theorem c55_no_msisdn (ck : Clock) (hist : List (Op × Script)) (sc : Script) (hsc : ∀ f ∈ sc, f = .ok) (t : IdType) (id : Bytes)
    (r : SubRow) (h : Only (runHist {} hist) t id r) (hid : r.id < 2 ^ 63) :
    exec (vty ck (.msisdn t id (b "none"))) (runHist {} hist) sc
      = (some (.done true (strip t id ++ b "% Updated subscriber IMSI='" ++ r.imsi ++ b "': removed MSISDN\n")
            [.notify (HlrSubscr.ofRow r)]),
          withRow (runHist {} hist) r.imsi fun q => { q with msisdn := none }) := by
  have hG := reachable_good hist
  generalize runHist {} hist = d at h hG ⊢
  rw [(vty_uniform ck _).exec _ hsc]
  have hr := h.1
  show exec (msisdn t id (b "none")) d [] = _
  unfold msisdn
  rw [if_neg (fun e => e.1 rfl), if_neg (fun e => e.1 rfl), withSub_found (cond_names hG h hid), if_pos rfl, ofRow_imsi hG hr]
  simp only [if_true]
  have hc := contract_delMsisdn d hG.unique [] r.imsi
  have h0 := hc.success.mpr ⟨trivial, ⟨r, hr, rfl⟩, trivial, rfl⟩
  have hd := hc.effect h0
  obtain ⟨a, d', hu, -⟩ := updateMsisdn_uniform r.imsi none d
  have s1 : (exec (updateMsisdn r.imsi none) d []).1 = some a := by unfold exec; rw [hu]
  have s2 : (exec (updateMsisdn r.imsi none) d []).2 = d' := by unfold exec; rw [hu]
  rw [s1] at h0
  cases h0
  rw [s2] at hd
  subst hd
  unfold exec
  rw [bind_run, hu]
  rfl

theorem imei_put_nil {d : Db} (hG : Good d) {t : IdType} {id : Bytes} {r : SubRow} (h : Only d t id r) (hid : r.id < 2 ^ 63)
    (i : Option Bytes) (hi : ∀ x, i = some x → Digits 14 14 x) :
    exec (imei.put t id i) d [] = (some (.done true (strip t id ++ b "% Updated subscriber IMSI='" ++ r.imsi ++ (match i with
      | some i => b "' to IMEI='" ++ i ++ b "'\n"
      | none => b "': removed IMEI\n")) []), withRow d r.imsi fun q => { q with imei := i }) := by
  have hr := h.1
  unfold imei.put
  rw [withSub_found (cond_names hG h hid), ofRow_imsi hG hr]
  have hc := contract_imei d hG.unique [] r.imsi i
  have h0 := hc.success.mpr ⟨hi, ⟨r, hr, rfl⟩, trivial, rfl⟩
  have hd := hc.effect h0
  obtain ⟨a, d', hu, -⟩ := updateImei_uniform r.imsi i d
  have s1 : (exec (updateImei r.imsi i) d []).1 = some a := by unfold exec; rw [hu]
  have s2 : (exec (updateImei r.imsi i) d []).2 = d' := by unfold exec; rw [hu]
  rw [s1] at h0
  cases h0
  rw [s2] at hd
  subst hd
  unfold exec
  rw [bind_run, hu]
  cases i <;> rfl

theorem digits_ne_none {lo hi : Nat} {v : Bytes} (h : Digits lo hi v) : v ≠ b "none" := by
  rintro rfl
  have := h.2.2 110 (by decide +kernel)
  revert this
  decide

/-- C55: setting an IMEI, with or without check digit, and removing it; a wrong one is refused. -/
theorem c55_imei (ck : Clock) (hist : List (Op × Script)) (sc : Script) (hsc : ∀ f ∈ sc, f = .ok) (t : IdType) (id v : Bytes)
    (r : SubRow) (h : Only (runHist {} hist) t id r) (hid : r.id < 2 ^ 63) :
    let d := runHist {} hist
    let said := fun x => some (Res.done true (strip t id ++ b "% Updated subscriber IMSI='" ++ r.imsi ++ x) [])
    (Digits 14 14 v → exec (vty ck (.imei t id v)) d sc
      = (said (b "' to IMEI='" ++ v ++ b "'\n"), withRow d r.imsi fun q => { q with imei := some v }))
    ∧ (FullImei v → exec (vty ck (.imei t id v)) d sc
      = (said (b "' to IMEI='" ++ v.take 14 ++ b "'\n"), withRow d r.imsi fun q => { q with imei := some (v.take 14) }))
    ∧ (v = b "none" → exec (vty ck (.imei t id v)) d sc
      = (said (b "': removed IMEI\n"), withRow d r.imsi fun q => { q with imei := none }))
    ∧ (¬ Digits 14 14 v → ¬ FullImei v → v ≠ b "none" → exec (vty ck (.imei t id v)) d sc
      = (some (.done false (b "% IMEI invalid: '" ++ v ++ b "'\n") []), d)) := by
  intro d said
  have hG : Good d := reachable_good hist
  have h : Only d t id r := h
  clear_value d
  rw [(vty_uniform ck _).exec _ hsc]
  show (_ → exec (imei t id v) d [] = _) ∧ (_ → exec (imei t id v) d [] = _) ∧ (_ → exec (imei t id v) d [] = _)
    ∧ (_ → _ → _ → exec (imei t id v) d [] = _)
  unfold imei
  refine ⟨fun hd => ?_, fun hf => ?_, fun hn => ?_, fun hd hf hn => ?_⟩
  · have hnf : ¬ FullImei v := fun e => by have := e.1.1; have := hd.2.1; omega
    rw [if_neg (digits_ne_none hd), chk_false hnf, if_neg (by simp), if_pos (show imeiValid v = true from digits_valid.mpr hd),
      imei_put_nil hG h hid (some v) (fun x e => by cases e; exact hd)]
  · have hd14 : Digits 14 14 (v.take 14) := by
      have h1 := hf.1.1
      refine ⟨?_, ?_, fun c hc => hf.1.2.2 c (List.mem_of_mem_take hc)⟩ <;> rw [List.length_take] <;> omega
    rw [if_neg (digits_ne_none hf.1), if_pos (chk_iff.mpr hf)]
    exact imei_put_nil hG h hid (some (v.take 14)) (fun x e => by cases e; exact hd14)
  · rw [if_pos hn, imei_put_nil hG h hid none (fun x e => by cases e)]
  · have hv : imeiValid v = false := by
      cases e : imeiValid v with
      | false => rfl
      | true => exact absurd (digits_valid.mp e) hd
    rw [if_neg hn, chk_false hf, hv]
    rfl

/-! ### Keys -/

theorem setKeys_nil {d : Db} (hG : Good d) {t : IdType} {id : Bytes} {r : SubRow} (h : Only d t id r) (hid : r.id < 2 ^ 63)
    (a : AudStr) (e : Bool) (w : Bytes) :
    exec (setKeys t id a e w) d [] = ((exec (updateAud r.id a) d []).1.map fun rc =>
      if rc ≠ 0 ∧ ¬ (e = true ∧ rc = -ENOENT) then warn (strip t id ++ b "% Error: cannot " ++ w ++ b " auth data for IMSI='" ++ r.imsi ++ b "'\n")
      else success (strip t id), (exec (updateAud r.id a) d []).2) := by
  unfold setKeys
  rw [withSub_found (cond_names hG h hid), ofRow_imsi hG h.1]
  rw [← exec_then]
  congr 1
  show (_ >>= _) = (_ >>= _)
  congr 1
  funext rc
  split <;> rfl

/-- C55: setting 2G keys. -/
theorem c55_aud2g (ck : Clock) (hist : List (Op × Script)) (sc : Script) (hsc : ∀ f ∈ sc, f = .ok) (t : IdType)
    (id alg ki : Bytes) (al : Algo) (r : SubRow) (h : Only (runHist {} hist) t id r) (hid : r.id < 2 ^ 63)
    (hc : Called alg al) (ha : al ∈ [Algo.comp128v1, .comp128v2, .comp128v3, .xor2g]) (hk : Hex32 ki) :
    exec (vty ck (.aud2 t id alg ki)) (runHist {} hist) sc
      = (some (.done true (strip t id) []), withKey2 (runHist {} hist) r.id (some { id := r.id, algo := al, ki := ki })) := by
  have hG := reachable_good hist
  generalize runHist {} hist = d at h hG ⊢
  rw [(vty_uniform ck _).exec _ hsc]
  have hn : al ≠ .none := by rintro rfl; simp at ha
  have ho : ∀ n, al ≠ .other n := by rintro n rfl; simp at ha
  have hi : infoOf al = { algo := al, minK := 16, maxK := 16 } := by
    simp only [List.mem_cons, List.not_mem_nil, or_false] at ha
    rcases ha with rfl | rfl | rfl | rfl <;> rfl
  have hv : aud2Valid al ki = true := by
    have := isHexStr_32.mpr hk
    simp only [List.mem_cons, List.not_mem_nil, or_false] at ha
    rcases ha with rfl | rfl | rfl | rfl <;> exact this
  show exec (aud2 t id alg ki) d [] = _
  unfold aud2
  rw [algoParse_of_called hc ho, hi]
  dsimp only
  have hx : hexkey (b "KI") ki 16 16 = none := by
    unfold hexkey
    rw [if_pos (isHexStr_32.mpr hk)]
  rw [hx]
  dsimp only
  rw [setKeys_nil hG h hid]
  rcases exec_aud2 d hG.unique [] r.id al ki hv hn with ⟨e, -⟩ | ⟨e, -⟩ | ⟨-, e, -⟩ | ⟨-, e, -⟩ | ⟨-, -, e⟩
  · cases e
  · cases e
  · cases e
  · cases e
  · rw [e]; rfl

/-- The IND bit length as read. -/
theorem bitlen_eq {bl : Option Bytes} {n : Nat} (h : Bitlen bl n) (hn : n ≤ 28) : bitlen bl = n :=
  bitlen_ok bl n (by omega) h

/-- C55: setting Milenage keys. -/
theorem c55_aud3g (ck : Clock) (hist : List (Op × Script)) (sc : Script) (hsc : ∀ f ∈ sc, f = .ok) (t : IdType)
    (id alg k c o : Bytes) (bl : Option Bytes) (n : Nat) (isOp : Bool) (r : SubRow) (h : Only (runHist {} hist) t id r)
    (hid : r.id < 2 ^ 63) (hc : Called alg .milenage) (hk : Hex32 k) (ho : Hex32 o)
    (hp : c = if isOp then b "op" else b "opc") (hb : Bitlen bl n) (hn : n ≤ 28) :
    exec (vty ck (.aud3 t id alg k c o bl)) (runHist {} hist) sc
      = (some (.done true (strip t id) []), withKey3 (runHist {} hist) r.id (some (newKey r.id .milenage k o isOp n))) := by
  have hG := reachable_good hist
  generalize runHist {} hist = d at h hG ⊢
  rw [(vty_uniform ck _).exec _ hsc]
  have hpp : caseEq (b "op") c = isOp := by rw [hp]; cases isOp <;> decide +kernel
  have hv : aud3Valid .milenage k o n = true := by
    rw [aud3Valid_iff (p := isOp)]
    obtain ⟨k1, k2⟩ := hk
    obtain ⟨o1, o2⟩ := ho
    exact ⟨by simp, ⟨by omega, by omega, by omega, k2⟩, ⟨by omega, by omega, by omega, o2⟩, hn⟩
  show exec (aud3 t id alg k c o bl) d [] = _
  unfold aud3
  rw [algoParse_of_called hc (by simp), hpp, bitlen_eq hb hn]
  have hx : ∀ l v, Hex32 v → hexkey l v 16 16 = none := by
    intro l v hv
    unfold hexkey
    rw [if_pos (isHexStr_32.mpr hv)]
  have hi : infoOf .milenage = { algo := .milenage, minK := 16, maxK := 16, minO := 16, maxO := 16 } := rfl
  rw [hi]
  dsimp only
  rw [hx _ _ hk]
  dsimp only
  rw [hx _ _ ho]
  dsimp only
  rw [setKeys_nil hG h hid]
  rcases exec_aud3 d hG.unique [] r.id .milenage k o isOp n hv (by simp) with
    ⟨e, -⟩ | ⟨e, -⟩ | ⟨-, e, -⟩ | ⟨-, e, -⟩ | ⟨-, -, e⟩
  · cases e
  · cases e
  · cases e
  · cases e
  · rw [e]; rfl

/-- C55: setting XOR-3G keys, K being 16 bytes.  Shorter keys are offered but refused: see
`c55_xor3g_violated`. -/
theorem c55_xor3g_partial (ck : Clock) (hist : List (Op × Script)) (sc : Script) (hsc : ∀ f ∈ sc, f = .ok) (t : IdType)
    (id k : Bytes) (bl : Option Bytes) (n : Nat) (r : SubRow) (h : Only (runHist {} hist) t id r)
    (hid : r.id < 2 ^ 63) (hk : Hex32 k) (hb : Bitlen bl n) (hn : n ≤ 28) :
    exec (vty ck (.xor3 t id k bl)) (runHist {} hist) sc
      = (some (.done true (strip t id) []), withKey3 (runHist {} hist) r.id
          (some (newKey r.id .xor3g k (b "00000000000000000000000000000000") false n))) := by
  have hG := reachable_good hist
  generalize runHist {} hist = d at h hG ⊢
  rw [(vty_uniform ck _).exec _ hsc]
  have hz : Hex32 (b "00000000000000000000000000000000") := by unfold Hex32; decide +kernel
  have hv : aud3Valid .xor3g k (b "00000000000000000000000000000000") n = true := by
    rw [aud3Valid_iff (p := false)]
    obtain ⟨k1, k2⟩ := hk
    obtain ⟨o1, o2⟩ := hz
    exact ⟨by simp, ⟨by omega, by omega, by omega, k2⟩, ⟨by omega, by omega, by omega, o2⟩, hn⟩
  have hp : algoParse (b "xor-3g") = some { algo := .xor3g, minK := 12, maxK := 16 } := by decide +kernel
  show exec (xor3 t id k bl) d [] = _
  unfold xor3
  rw [hp, bitlen_eq hb hn, zero_eq]
  have hx : hexkey (b "K") k 12 16 = none := by
    unfold hexkey
    have := isHexStr_32.mpr hk
    rw [if_pos]
    simp only [isHexStr, Bool.and_eq_true, decide_eq_true_eq] at this ⊢
    exact ⟨⟨⟨by omega, by omega⟩, this.1.2⟩, this.2⟩
  dsimp only
  rw [hx]
  dsimp only
  rw [setKeys_nil hG h hid]
  rcases exec_aud3 d hG.unique [] r.id .xor3g k (b "00000000000000000000000000000000") false n hv (by simp) with
    ⟨e, -⟩ | ⟨e, -⟩ | ⟨-, e, -⟩ | ⟨-, e, -⟩ | ⟨-, -, e⟩
  · cases e
  · cases e
  · cases e
  · cases e
  · rw [e]; rfl

theorem withKey2_self {d : Db} {id : Int} (h : key2 d id = none) : withKey2 d id none = d := by
  have : d.auc2.filter (fun a : Auc2 => a.id != id) = d.auc2 := by
    rw [List.filter_eq_self]
    intro a ha
    have := List.find?_eq_none.mp h a ha
    simpa using this
  simp [withKey2, this]

theorem withKey3_self {d : Db} {id : Int} (h : key3 d id = none) : withKey3 d id none = d := by
  have : d.auc3.filter (fun a : Auc3 => a.id != id) = d.auc3 := by
    rw [List.filter_eq_self]
    intro a ha
    have := List.find?_eq_none.mp h a ha
    simpa using this
  simp [withKey3, this]

/-- C55: removing keys, whether there are any or not. -/
theorem c55_no_keys (ck : Clock) (hist : List (Op × Script)) (sc : Script) (hsc : ∀ f ∈ sc, f = .ok) (t : IdType)
    (id : Bytes) (r : SubRow) (h : Only (runHist {} hist) t id r) (hid : r.id < 2 ^ 63) :
    exec (vty ck (.noAud2 t id)) (runHist {} hist) sc = (some (.done true (strip t id) []), withKey2 (runHist {} hist) r.id none)
    ∧ exec (vty ck (.noAud3 t id)) (runHist {} hist) sc = (some (.done true (strip t id) []), withKey3 (runHist {} hist) r.id none) := by
  have hG := reachable_good hist
  generalize runHist {} hist = d at h hG ⊢
  rw [(vty_uniform ck _).exec _ hsc, (vty_uniform ck _).exec _ hsc]
  show exec (setKeys _ _ _ _ _) d [] = _ ∧ exec (setKeys _ _ _ _ _) d [] = _
  rw [setKeys_nil hG h hid, setKeys_nil hG h hid, audNone2 hG, audNone3 hG]
  constructor
  · cases hk : key2 d r.id with
    | none => rw [withKey2_self hk]; rfl
    | some a => rfl
  · cases hk : key3 d r.id with
    | none => rw [withKey3_self hk]; rfl
    | some a => rfl

/-! ### Creating, deleting, network access -/

/-- C55: deleting removes the subscriber and their keys, nothing else. -/
theorem c55_delete (ck : Clock) (hist : List (Op × Script)) (sc : Script) (hsc : ∀ f ∈ sc, f = .ok) (t : IdType)
    (id : Bytes) (r : SubRow) (h : Only (runHist {} hist) t id r) (hid : r.id < 2 ^ 63) :
    exec (vty ck (.delete t id)) (runHist {} hist) sc
      = (some (.done true (strip t id ++ b "% Deleted subscriber for IMSI '" ++ r.imsi ++ b "'\n") []), without (runHist {} hist) r.id) := by
  have hG := reachable_good hist
  generalize runHist {} hist = d at h hG ⊢
  rw [(vty_uniform ck _).exec _ hsc]
  show exec (delete t id) d [] = _
  unfold delete
  rw [withSub_found (cond_names hG h hid), ofRow_imsi hG h.1]
  have hd := subscrDelete_known hG h.1
  obtain ⟨a, d', hu, -⟩ := subscrDelete_uniform r.id d
  unfold exec at hd ⊢
  rw [bind_run]
  have hi : (HlrSubscr.ofRow r).id = r.id := rfl
  rw [hi]
  rw [hu] at hd ⊢
  cases hd
  rfl

/-- C55: creating, on a working database: a valid new IMSI gets one new record, which is shown;
otherwise there is no success and no change. -/
theorem c55_create (ck : Clock) (hist : List (Op × Script)) (sc : Script) (hsc : ∀ f ∈ sc, f = .ok) (imsi : Bytes) :
    let d := runHist {} hist
    (Digits 6 15 imsi ∧ ¬ Known d imsi → ∃ id, (∀ r ∈ d.subs, r.id ≠ id)
      ∧ let r : SubRow := { id := id, imsi := imsi, namCs := true, namPs := true }
        let d' := { d with subs := d.subs ++ [r] }
        exec (vty ck (.create imsi)) d sc = (some (.done true (b "% Created subscriber " ++ imsi ++ b "\n" ++ showText ck d' r) []), d'))
    ∧ (Digits 6 15 imsi ∧ Known d imsi → exec (vty ck (.create imsi)) d sc
        = (some (.done false (b "% Subscriber already exists for IMSI = " ++ imsi ++ b "\n") []), d))
    ∧ (¬ Digits 6 15 imsi → exec (vty ck (.create imsi)) d sc
        = (some (.done false (b "% Not a valid IMSI: " ++ imsi ++ b "\n") []), d)) := by
  intro d
  have hG : Good d := reachable_good hist
  have nl : b "\n" = [10] := by decide +kernel
  rw [(vty_uniform ck _).exec _ hsc, nl]
  have hG' : Good (exec (subscrCreate imsi true true) d []).2 := (good_op (.create imsi true true)).exec d [] hG
  obtain ⟨h1, h2, h3, h4, h5, -⟩ := Db.Props.c02_create d [] imsi true true
  obtain ⟨a, d', hu, -⟩ := subscrCreate_uniform imsi true true d
  have s1 : (exec (subscrCreate imsi true true) d []).1 = some a := by unfold exec; rw [hu]
  have s2 : (exec (subscrCreate imsi true true) d []).2 = d' := by unfold exec; rw [hu]
  show (_ → ∃ id, _ ∧ exec (create ck imsi) d [] = _) ∧ (_ → exec (create ck imsi) d [] = _) ∧ (_ → exec (create ck imsi) d [] = _)
  unfold create
  refine ⟨fun ⟨hv, hk⟩ => ?_, fun ⟨hv, hk⟩ => ?_, fun hv => ?_⟩
  · have hvv : imsiValid imsi = true := digits_valid.mpr hv
    have h0 := h1.mpr ⟨hv, hk, rfl⟩
    obtain ⟨id, hid, he⟩ := h2 h0
    refine ⟨id, hid, ?_⟩
    rw [s1] at h0
    cases h0
    rw [s2] at he hG'
    subst he
    rw [hvv]
    show exec (subscrCreate imsi true true >>= create.report ck imsi) d [] = _
    unfold exec
    rw [bind_run, hu]
    dsimp only
    have hf : (d.subs ++ [({ id := id, imsi := imsi, namCs := true, namPs := true } : SubRow)]).find?
        (fun r : SubRow => r.imsi == imsi) = some { id := id, imsi := imsi, namCs := true, namPs := true } := by
      rw [List.find?_append]
      have : d.subs.find? (fun r : SubRow => r.imsi == imsi) = none := by
        rw [List.find?_eq_none]
        intro r hr e
        exact hk ⟨r, hr, by simpa using e⟩
      rw [this]
      simp
    unfold create.report
    rw [if_neg (by simp), bind_run]
    unfold getByImsi
    rw [dbSel_nil, hf]
    dsimp only
    have hcr : ∀ q : SubRow, create.created ck imsi (0, some q) = (dump ck (HlrSubscr.ofRow q) >>= fun t =>
        pure (success (b "% Created subscriber " ++ imsi ++ [10] ++ t))) := fun _ => rfl
    rw [hcr, bind_run, dump_nil ck hG' (List.mem_append_right _ List.mem_cons_self)]
    rfl
  · have hvv : imsiValid imsi = true := digits_valid.mpr hv
    have h0 := h5.mpr ⟨hv, rfl, hk⟩
    have hd := h3 (by rw [h0]; decide)
    rw [s1] at h0
    cases h0
    rw [s2] at hd
    rw [hvv]
    show exec (subscrCreate imsi true true >>= create.report ck imsi) d [] = _
    unfold exec
    rw [bind_run, hu]
    dsimp only
    unfold create.report
    rw [if_pos (by decide), hd]
    rfl
  · have hvv : imsiValid imsi = false := by
      cases h : imsiValid imsi with
      | false => rfl
      | true => exact absurd (digits_valid.mp h) hv
    rw [hvv]
    rfl

theorem withRow_self {d : Db} (hG : Good d) {r : SubRow} (hr : r ∈ d.subs) {f : SubRow → SubRow} (h : f r = r) :
    withRow d r.imsi f = d := by
  have : d.subs.map (fun q => if q.imsi = r.imsi then f q else q) = d.subs := by
    conv => rhs; rw [← List.map_id d.subs]
    apply List.map_congr_left
    intro q hq
    by_cases e : q.imsi = r.imsi
    · rw [eq_of_nodup_map hG.unique.imsis hq hr e, if_pos rfl, h]; rfl
    · rw [if_neg e]; rfl
  unfold withRow
  rw [this]

theorem hlrNam_nil {d : Db} (hG : Good d) {r r' : SubRow} (hr : r ∈ d.subs) (hi : (HlrSubscr.ofRow r').imsi = r.imsi) (v ps : Bool) :
    exec (if v ≠ (if ps then (HlrSubscr.ofRow r').namPs else (HlrSubscr.ofRow r').namCs) then hlrNam (HlrSubscr.ofRow r') v ps else pure []) d []
      = (some (if (if ps then r'.namPs else r'.namCs) = true ∧ v = false then [.delData (HlrSubscr.ofRow r')] else []),
         if v ≠ (if ps then r'.namPs else r'.namCs) then withRow d r.imsi (fun q => if ps then { q with namPs := v } else { q with namCs := v }) else d) := by
  have e1 : (HlrSubscr.ofRow r').namPs = r'.namPs := rfl
  have e2 : (HlrSubscr.ofRow r').namCs = r'.namCs := rfl
  rw [e1, e2]
  by_cases h : v = (if ps then r'.namPs else r'.namCs)
  · rw [if_neg (fun e => e h), ← h, if_neg (fun e => by rw [e.2] at e; cases e.1), if_neg (fun e => e rfl)]
    rfl
  · rw [if_pos h, if_pos h]
    unfold hlrNam
    rw [e1, e2, if_neg (fun e => h e.symm), exec_then, hi]
    have hc := contract_nam d hG.unique [] r.imsi v ps
    have h0 := hc.success.mpr ⟨trivial, ⟨r, hr, rfl⟩, trivial, rfl⟩
    rw [h0, hc.effect h0]
    refine Prod.ext ?_ rfl
    revert h
    cases v <;> cases (if ps then r'.namPs else r'.namCs) <;> simp

/-- C55: setting the network access mode, on a working database: both domains are as asked, and
the serving node is told to drop the data for each domain that is closed. -/
theorem c55_nam (ck : Clock) (hist : List (Op × Script)) (sc : Script) (hsc : ∀ f ∈ sc, f = .ok) (t : IdType)
    (id : Bytes) (r : SubRow) (h : Only (runHist {} hist) t id r) (hid : r.id < 2 ^ 63) (cs ps : Bool) (v : Bytes)
    (hv : v = match cs, ps with
      | false, false => b "none"
      | true, false => b "cs"
      | false, true => b "ps"
      | true, true => b "cs+ps") :
    exec (vty ck (.nam t id v)) (runHist {} hist) sc
      = (some (.done true (strip t id)
          ((if r.namCs = true ∧ cs = false then [.delData (HlrSubscr.ofRow r)] else [])
            ++ (if r.namPs = true ∧ ps = false then [.delData (HlrSubscr.ofRow r)] else []))),
         withRow (runHist {} hist) r.imsi fun q => { q with namCs := cs, namPs := ps }) := by
  have hG := reachable_good hist
  generalize runHist {} hist = d at h hG ⊢
  rw [(vty_uniform ck _).exec _ hsc]
  have hr := h.1
  have hcs : contains (b "cs") v = cs := by rw [hv]; cases cs <;> cases ps <;> decide +kernel
  have hps : contains (b "ps") v = ps := by rw [hv]; cases cs <;> cases ps <;> decide +kernel
  show exec (nam t id v) d [] = _
  unfold nam
  rw [hcs, hps]
  dsimp only
  rw [withSub_found (cond_names hG h hid)]
  have i0 := ofRow_imsi hG hr
  have n1 := hlrNam_nil hG hr (r' := r) i0 cs false
  simp only [Bool.false_eq_true, if_false] at n1
  obtain ⟨d1, hd1⟩ : ∃ d1, d1 = (if cs ≠ r.namCs then withRow d r.imsi (fun q => { q with namCs := cs }) else d) := ⟨_, rfl⟩
  have hG1 : Good d1 := by
    have := (good_op (.nam r.imsi cs false)).exec d [] hG
    have hc := contract_nam d hG.unique [] r.imsi cs false
    have h0 := hc.success.mpr ⟨trivial, ⟨r, hr, rfl⟩, trivial, rfl⟩
    rw [show (exec (Op.nam r.imsi cs false).run d []).2 = _ from hc.effect h0] at this
    rw [hd1]
    split
    · exact this
    · exact hG
  have hr1 : { r with namCs := cs } ∈ d1.subs := by
    rw [hd1]
    by_cases e : cs = r.namCs
    · rw [if_neg (fun h => h e), e]; exact hr
    · rw [if_pos e]; exact withRow_mem hr (fun q => { q with namCs := cs })
  have n2 := hlrNam_nil hG1 hr1 (r' := r) i0 ps true
  simp only [if_true] at n2
  rw [← hd1] at n1
  rcases bind_exec (if cs ≠ (HlrSubscr.ofRow r).namCs then hlrNam (HlrSubscr.ofRow r) cs false else pure [])
      (fun a => do
        let a' ← (if ps ≠ (HlrSubscr.ofRow r).namPs then hlrNam (HlrSubscr.ofRow r) ps true else pure [])
        pure (.done true (strip t id) (a ++ a') : Res)) d [] with ⟨e, -⟩ | ⟨a, t', e1, e2, e3⟩
  · rw [n1] at e; cases e
  · rw [e2, exec_then]
    rw [n1] at e1 ⊢
    cases e1
    have ht : t' = [] := by
      rw [e3]
      exact op_script (.ite (hlrNam_uniform _ _ _) (.pure _)) d
    rw [ht]
    dsimp only
    rw [n2]
    refine Prod.ext rfl ?_
    dsimp only
    have w2 : ∀ f g : SubRow → SubRow, (∀ q, (f q).imsi = q.imsi) → withRow (withRow d r.imsi f) r.imsi g = withRow d r.imsi fun q => g (f q) := by
      intro f g hf
      unfold withRow
      dsimp only
      rw [List.map_map]
      congr 1
      apply List.map_congr_left
      intro q _
      by_cases e : q.imsi = r.imsi
      · simp [Function.comp, e, hf]
      · simp [Function.comp, e]
    by_cases c1 : cs = r.namCs
    · by_cases c2 : ps = r.namPs
      · rw [if_neg (fun h => h c2), hd1, if_neg (fun h => h c1)]
        symm
        refine withRow_self hG hr ?_
        rw [c1, c2]
      · rw [if_pos c2, hd1, if_neg (fun h => h c1)]
        have e1 : withRow d r.imsi (fun q => { q with namCs := cs }) = d := withRow_self hG hr (by rw [c1])
        have := w2 (fun q => { q with namCs := cs }) (fun q => { q with namPs := ps }) (fun _ => rfl)
        rw [e1] at this
        exact this
    · by_cases c2 : ps = r.namPs
      · rw [if_neg (fun h => h c2), hd1, if_pos c1]
        have e1 : withRow d r.imsi (fun q => { q with namPs := ps }) = d := withRow_self hG hr (by rw [c2])
        have := w2 (fun q => { q with namPs := ps }) (fun q => { q with namCs := cs }) (fun _ => rfl)
        rw [e1] at this
        exact this
      · rw [if_pos c2, hd1, if_pos c1]
        exact w2 (fun q => { q with namCs := cs }) (fun q => { q with namPs := ps }) (fun _ => rfl)

end Verif.Prov.Vty.Props
