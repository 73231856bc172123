import Verif.Prov.VtyLemmas2
/-! # C55: the subscriber commands of the VTY -/
namespace Verif.Prov.Vty.Props
open Verif Verif.Db Verif.Auc Verif.Mslookup Verif.Mslookup.Mdns Verif.Prov Verif.Prov.Vty

deriving instance DecidableEq for Except

/-! ### Showing -/

/-- C55: `show` on a working database shows everything about the one subscriber named. -/
theorem c55_show (ck : Clock) (hist : List (Op × Script)) (sc : Script) (hsc : ∀ f ∈ sc, f = .ok) (t : IdType) (id : Bytes)
    (r : SubRow) (h : Only (runHist {} hist) t id r) (hid : r.id < 2 ^ 63) :
    exec (vty ck (.show_ t id)) (runHist {} hist) sc
      = (some (.done true (strip t id ++ showText ck (runHist {} hist) r) []), runHist {} hist) := by
  have hG := reachable_good hist
  generalize runHist {} hist = d at h hG ⊢
  rw [(vty_uniform ck _).exec _ hsc]
  show exec (show_ ck t id) d [] = _
  unfold show_
  rw [withSub_found (cond_names hG h hid), exec_then]
  have e : exec (dump ck (HlrSubscr.ofRow r)) d [] = (some (showText ck d r), d) := by
    unfold exec
    rw [dump_nil ck hG h.1]
  rw [e]
  rfl

/-- C55: whatever fails, `show` changes nothing and what it shows is true of a subscriber named:
all of it, or all but the keys with an error message. -/
theorem c55_truth (ck : Clock) (hist : List (Op × Script)) (sc : Script) (t : IdType) (id : Bytes) (hi : IdentOk t id) :
    let d := runHist {} hist
    let res := exec (vty ck (.show_ t id)) d sc
    res.2 = d ∧ ∀ text acts, res.1 = some (.done true text acts) → acts = [] ∧ ∃ r ∈ d.subs, NamesV t id r
      ∧ (text = strip t id ++ showText ck d r
        ∨ text = strip t id ++ (subText ck r ++ b "% Error retrieving data from database (-5)\n")) := by
  intro d res
  have hG : Good d := reachable_good hist
  have hres : res = exec (show_ ck t id) d sc := rfl
  clear_value res d
  unfold show_ at hres
  rcases withSub_exec t id (fun p s => do pure (success (p ++ (← dump ck s)))) d sc with ⟨h1, h2, -⟩ | ⟨r, hf, h1⟩
  · rw [hres]
    exact ⟨h1, fun tx ac h => absurd ⟨tx, ac, h⟩ h2⟩
  · rw [h1, exec_then] at hres
    have hr := List.mem_of_find?_eq_some hf
    obtain ⟨o, t', e1, e2⟩ := dump_run ck (w := { db := d, script := sc.tail }) hG hr
    have e : exec (dump ck (HlrSubscr.ofRow r)) d sc.tail = (o, d) := by
      unfold exec
      rw [e1]
    rw [e] at hres
    rw [hres]
    refine ⟨rfl, fun tx ac h => ?_⟩
    rcases e2 with rfl | rfl | rfl
    · cases h
    · cases h
      exact ⟨rfl, r, hr, cond_found hG hi hf, .inr rfl⟩
    · cases h
      exact ⟨rfl, r, hr, cond_found hG hi hf, .inl rfl⟩

/-! ### Commands that write -/

/-- C55: a command that names nobody changes nothing and does not report success, whatever
fails. -/
theorem c55_unknown (ck : Clock) (hist : List (Op × Script)) (sc : Script) (c : Cmd) (hc : c.Ok) (hn : ∀ i, c ≠ .create i)
    (h : ∀ r ∈ (runHist {} hist).subs, ¬ c.Names r) :
    (exec (vty ck c) (runHist {} hist) sc).2 = runHist {} hist ∧ ¬ Succ (exec (vty ck c) (runHist {} hist) sc).1 := by
  have hG := reachable_good hist
  generalize runHist {} hist = d at h hG ⊢
  have no : ∀ {t id}, c.about = some (t, id) → d.subs.find? (cond t id) = none := by
    intro t id ha
    cases hf : d.subs.find? (cond t id) with
    | none => rfl
    | some r => exact absurd ⟨t, id, ha, cond_found hG (hc t id ha) hf⟩ (h r (List.mem_of_find?_eq_some hf))
  have ws : ∀ {t id k}, c.about = some (t, id) → (exec (withSub t id k) d sc).2 = d ∧ ¬ Succ (exec (withSub t id k) d sc).1 := by
    intro t id k ha
    rcases withSub_exec t id k d sc with ⟨h1, h2, -⟩ | ⟨r, hf, -⟩
    · exact ⟨h1, h2⟩
    · rw [no ha] at hf; cases hf
  by_cases h1 : ∃ t id, c = .show_ t id
  · obtain ⟨t, id, rfl⟩ := h1
    exact ws rfl
  by_cases h2 : ∃ t id v, c = .nam t id v
  · obtain ⟨t, id, v, rfl⟩ := h2
    exact ws rfl
  rcases vty_oneCall ck hG c sc (fun t id e => h1 ⟨t, id, e⟩) hn (fun t id v e => h2 ⟨t, id, v, e⟩) with
    ⟨e1, e2, -⟩ | ⟨t, id, r, op, sc', ha, hf, -⟩
  · exact ⟨e1, e2⟩
  · rw [no ha] at hf; cases hf

/-- A good end of the call a command stands for has the effect the command asks for. -/
theorem stands_does {d : Db} (hG : Good d) {r : SubRow} {c : Cmd} {op : Op} (hs : Stands r c op) {sc : Script}
    (h : c.Good (exec op.run d sc).1) : Does d r c (exec op.run d sc).2 := by
  have strict : c.lenient = false → (exec op.run d sc).1 = some 0 := by
    intro hl
    rcases h with h | ⟨h, -⟩
    · exact h
    · rw [hl] at h; cases h
  cases hs with
  | delete =>
    rcases delete_run r.id d sc with e | ⟨-, e | e⟩
    · exact .delete e
    · rw [show (exec (Op.delete r.id).run d sc).1 = _ from e] at strict; cases strict rfl
    · rw [show (exec (Op.delete r.id).run d sc).1 = _ from e] at strict; exact absurd (strict rfl) (by decide)
  | msisdn hv =>
    have c := contract_msisdn d hG.unique sc r.imsi ‹_›
    have h0 := strict rfl
    rw [show (exec (Op.msisdn r.imsi (some _)).run d sc).2 = _ from c.effect h0]
    exact .msisdn hv (c.success.mp h0).2.2.1
  | noMsisdn =>
    have c := contract_delMsisdn d hG.unique sc r.imsi
    rw [show (exec (Op.msisdn r.imsi none).run d sc).2 = _ from c.effect (strict rfl)]
    exact .noMsisdn
  | noAud2 =>
    obtain ⟨o, t, x, e1, -, e3⟩ := none2_run r.id { db := d, script := sc }
    have e : exec (Op.aud r.id (.gsm .none [])).run d sc = (o, { d with auc2 := x }) := by
      show ((updateAud _ _ _).1, (updateAud _ _ _).2.db) = _
      rw [e1]
    rw [e] at h ⊢
    have hx := e3 (h.imp id fun h => h.2)
    rw [hx]
    have hw : withKey2 d r.id none = { d with auc2 := d.auc2.filter (·.id != r.id) } := by simp [withKey2]
    show Does d r _ { d with auc2 := d.auc2.filter (·.id != r.id) }
    rw [← hw]
    exact .noAud2
  | noAud3 =>
    obtain ⟨o, t, x, e1, -, e3⟩ := none3_run r.id { db := d, script := sc }
    have e : exec (Op.aud r.id (.umts .none [] [] false 0)).run d sc = (o, { d with auc3 := x }) := by
      show ((updateAud _ _ _).1, (updateAud _ _ _).2.db) = _
      rw [e1]
    rw [e] at h ⊢
    have hx := e3 (h.imp id fun h => h.2)
    rw [hx]
    have hw : withKey3 d r.id none = { d with auc3 := d.auc3.filter (·.id != r.id) } := by simp [withKey3]
    show Does d r _ { d with auc3 := d.auc3.filter (·.id != r.id) }
    rw [← hw]
    exact .noAud3
  | aud2 hcl hki =>
    rename_i al ki
    by_cases hn : al = .none
    · subst hn
      rw [hki rfl] at strict ⊢
      rw [show (exec (Op.aud r.id _).run d sc).2 = _ from none2_ok (strict rfl)]
      exact .aud2None hcl
    · obtain ⟨h1, h2⟩ := aud2_ok hG (strict rfl) hn
      rw [show (exec (Op.aud r.id _).run d sc).2 = _ from h2]
      exact .aud2 hcl h1
  | aud3 hcl hk hx hc hb =>
    rename_i al k c o p bl n
    by_cases hn : al = .none
    · subst hn
      obtain ⟨rfl, rfl⟩ := hk rfl
      rw [show (exec (Op.aud r.id _).run d sc).2 = _ from none3_ok (strict rfl)]
      exact .aud3None hcl
    · obtain ⟨h1, h2⟩ := aud3_stored hG (strict rfl) hn
      have hm : al = .milenage := by
        have h3 := h1.1
        simp only [mkAuc3, List.mem_cons, List.not_mem_nil, or_false] at h3
        rcases h3 with h3 | h3
        · exact h3
        · exfalso
          have ho := hx h3
          subst ho
          obtain ⟨-, -, -, ⟨u, e1, -, e3⟩ | ⟨u, e1, -, e3⟩⟩ := h1
          all_goals
            have e2 : u = [] := by
              revert e1
              cases p <;> simp [mkAuc3] <;> exact fun h => h.symm
            rw [e2] at e3
            exact absurd e3.1 (by decide)
      subst hm
      rw [show (exec (Op.aud r.id _).run d sc).2 = _ from h2]
      exact .aud3 hcl hc hb h1
  | xor3 hb =>
    obtain ⟨h1, h2⟩ := aud3_stored hG (strict rfl) (by simp)
    rw [show (exec (Op.aud r.id _).run d sc).2 = _ from h2]
    exact .xor3 hb h1
  | imei hv =>
    rename_i v
    have c := contract_imei d hG.unique sc r.imsi (some v)
    rw [show (exec (Op.imei r.imsi (some _)).run d sc).2 = _ from c.effect (strict rfl)]
    exact .imei hv
  | fullImei hv =>
    rename_i v
    have c := contract_imei d hG.unique sc r.imsi (some (v.take 14))
    rw [show (exec (Op.imei r.imsi (some _)).run d sc).2 = _ from c.effect (strict rfl)]
    exact .fullImei hv
  | noImei =>
    have c := contract_imei d hG.unique sc r.imsi none
    rw [show (exec (Op.imei r.imsi none).run d sc).2 = _ from c.effect (strict rfl)]
    exact .noImei

/-- C55: a command reported as successful did exactly what it says to a subscriber it names,
whatever failed meanwhile.  Left out: `network-access-mode`, which always reports success (see
`c55_nam_violated`), and `create` (`c55_create`). -/
theorem c55_ok_partial (ck : Clock) (hist : List (Op × Script)) (sc : Script) (c : Cmd) (hc : c.Ok)
    (h1 : ∀ t id, c ≠ .show_ t id) (h2 : ∀ i, c ≠ .create i) (h3 : ∀ t id v, c ≠ .nam t id v)
    (h : Succ (exec (vty ck c) (runHist {} hist) sc).1) :
    ∃ r ∈ (runHist {} hist).subs, c.Names r ∧ Does (runHist {} hist) r c (exec (vty ck c) (runHist {} hist) sc).2 := by
  have hG := reachable_good hist
  rcases vty_oneCall ck hG c sc h1 h2 h3 with ⟨-, e, -⟩ | ⟨t, id, r, op, sc', ha, hf, hs, e1, e2, -⟩
  · exact absurd h e
  · refine ⟨r, List.mem_of_find?_eq_some hf, ⟨t, id, ha, cond_found hG (hc t id ha) hf⟩, ?_⟩
    rw [e1]
    exact stands_does hG hs (e2 h)

theorem SameFor.trans {q : SubRow} {d d' d'' : Db} (h : SameFor q d d') (h' : SameFor q d' d'') : SameFor q d d'' :=
  ⟨h'.1, h'.2.1.trans h.2.1, h'.2.2.trans h.2.2⟩

theorem hlrNam_exec (s : HlrSubscr) (v ps : Bool) (d : Db) (sc : Script) :
    (exec (hlrNam s v ps) d sc).2 = d
    ∨ (exec (hlrNam s v ps) d sc).2 = (exec (Op.nam s.imsi v ps).run d sc).2 := by
  unfold hlrNam
  by_cases h : (if ps then s.namPs else s.namCs) = v
  · rw [if_pos h]; exact .inl rfl
  · rw [if_neg h, exec_then]; exact .inr rfl

theorem nam_steps (t : IdType) (id v : Bytes) (d : Db) (sc : Script) {P : Db → Db → Prop} (h0 : ∀ d, P d d)
    (h2 : ∀ r ∈ d.subs, d.subs.find? (cond t id) = some r → ∀ d' v ps sc', P d d' →
      P d (exec (Op.nam (HlrSubscr.ofRow r).imsi v ps).run d' sc').2) :
    P d (exec (nam t id v) d sc).2 := by
  unfold nam
  dsimp only
  rcases withSub_exec t id (fun p s => do
    let a ← (if contains (b "cs") v ≠ s.namCs then hlrNam s (contains (b "cs") v) false else pure [])
    let a' ← (if contains (b "ps") v ≠ s.namPs then hlrNam s (contains (b "ps") v) true else pure [])
    pure (.done true p (a ++ a'))) d sc with ⟨e, -⟩ | ⟨r, hf, e⟩
  · rw [e]; exact h0 _
  · rw [e]
    have hr := List.mem_of_find?_eq_some hf
    have step : ∀ (cnd : Prop) [Decidable cnd] (x : Bool) (ps : Bool) (d' : Db) (sc' : Script), P d d' →
        P d (exec (if cnd then hlrNam (HlrSubscr.ofRow r) x ps else pure []) d' sc').2 := by
      intro cnd _ x ps d' sc' hp
      by_cases h : cnd
      · rw [if_pos h]
        rcases hlrNam_exec (HlrSubscr.ofRow r) x ps d' sc' with e | e
        · rw [e]; exact hp
        · rw [e]; exact h2 r hr hf d' x ps sc' hp
      · rw [if_neg h]; exact hp
    rcases bind_exec (if contains (b "cs") v ≠ (HlrSubscr.ofRow r).namCs then hlrNam (HlrSubscr.ofRow r) (contains (b "cs") v) false else pure [])
      (fun a => do
        let a' ← (if contains (b "ps") v ≠ (HlrSubscr.ofRow r).namPs then hlrNam (HlrSubscr.ofRow r) (contains (b "ps") v) true else pure [])
        pure (.done true (strip t id) (a ++ a') : Res)) d sc.tail with ⟨-, e⟩ | ⟨a, t', -, e, -⟩
    · rw [e]; exact step _ _ _ _ _ (h0 d)
    · rw [e, exec_then]
      exact step _ _ _ _ _ (step _ _ _ _ _ (h0 d))

theorem report_db (ck : Clock) {d : Db} (hG : Good d) (i : Bytes) (rc : Int) (sc : Script) :
    (exec (create.report ck i rc) d sc).2 = d := by
  unfold create.report
  by_cases h0 : rc ≠ 0
  · rw [if_pos h0]; rfl
  rw [if_neg h0]
  unfold getByImsi
  rcases exec_sel (fun r : SubRow => r.imsi == i) (create.created ck i) d sc with e | e | ⟨-, e⟩ | ⟨r, hf, e⟩
  · rw [e]
  · rw [e]; rfl
  · rw [e]; rfl
  · rw [e]
    show (exec (do let t ← dump ck (HlrSubscr.ofRow r); pure (success (b "% Created subscriber " ++ i ++ [10] ++ t))) d sc.tail).2 = d
    rw [exec_then]
    obtain ⟨o, t', e1, -⟩ := dump_run ck (w := { db := d, script := sc.tail }) hG (List.mem_of_find?_eq_some hf)
    show (dump ck (HlrSubscr.ofRow r) _).2.db = _
    rw [e1]

/-- C55: whatever the command and whatever fails, every subscriber the command does not name
stays as they are: data and keys. -/
theorem c55_frame (ck : Clock) (hist : List (Op × Script)) (sc : Script) (c : Cmd) (hc : c.Ok)
    (q : SubRow) (hq : q ∈ (runHist {} hist).subs) (hn : ¬ c.Names q) :
    q ∈ (exec (vty ck c) (runHist {} hist) sc).2.subs
    ∧ key2 (exec (vty ck c) (runHist {} hist) sc).2 q.id = key2 (runHist {} hist) q.id
    ∧ key3 (exec (vty ck c) (runHist {} hist) sc).2 q.id = key3 (runHist {} hist) q.id := by
  have hG := reachable_good hist
  by_cases h1 : ∃ t id, c = .show_ t id
  · obtain ⟨t, id, rfl⟩ := h1
    rw [(c55_truth ck hist sc t id (hc t id rfl)).1]
    exact ⟨hq, rfl, rfl⟩
  generalize runHist {} hist = d at hq hG ⊢
  have other : ∀ {t id r}, c.about = some (t, id) → d.subs.find? (cond t id) = some r → q.imsi ≠ r.imsi ∧ q.id ≠ r.id := by
    intro t id r ha hf
    have hr := List.mem_of_find?_eq_some hf
    have hne : q ≠ r := fun e => hn (e ▸ ⟨t, id, ha, cond_found hG (hc t id ha) hf⟩)
    exact ⟨fun e => hne (eq_of_nodup_map hG.unique.imsis hq hr e), fun e => hne (eq_of_nodup_map hG.unique.ids hq hr e)⟩
  by_cases h2 : ∃ t id v, c = .nam t id v
  · obtain ⟨t, id, v, rfl⟩ := h2
    show SameFor q d (exec (nam t id v) d sc).2
    refine nam_steps t id v d sc (P := fun x y => q ∈ x.subs → SameFor q x y) (fun _ h => ⟨h, rfl, rfl⟩) ?_ hq
    · intro r hr hf d' v ps sc' hp hq'
      have hp := hp hq'
      rw [ofRow_imsi hG hr]
      refine SameFor.trans hp (same_of_owns hp.1 ?_ sc')
      have := (other rfl hf).1
      simp [Op.ownsSub, Op.ownsKey2, Op.ownsKey3, this]
  by_cases h3 : ∃ i, c = .create i
  · obtain ⟨i, rfl⟩ := h3
    show SameFor q d (exec (create ck i) d sc).2
    have hs : ∀ s, SameFor q d (exec (subscrCreate i true true) d s).2 := by
      intro s
      obtain ⟨-, e2, e3, -⟩ := Db.Props.c02_create d s i true true
      by_cases h : (exec (subscrCreate i true true) d s).1 = some 0
      · obtain ⟨id, -, e⟩ := e2 h
        rw [e]
        exact ⟨List.mem_append_left _ hq, rfl, rfl⟩
      · rw [e3 h]; exact ⟨hq, rfl, rfl⟩
    unfold create
    by_cases hv : (!imsiValid i) = true
    · rw [if_pos hv]; exact ⟨hq, rfl, rfl⟩
    rw [if_neg hv]
    rcases bind_exec (subscrCreate i true true) (create.report ck i) d sc with ⟨-, e⟩ | ⟨rc, t', -, e, -⟩
    · rw [e]; exact hs sc
    · rw [e, report_db ck (d := (exec (subscrCreate i true true) d sc).2) ((good_op (.create i true true)).exec d sc hG)]; exact hs sc
  · rcases vty_oneCall ck hG c sc (fun t id e => h1 ⟨t, id, e⟩) (fun i e => h3 ⟨i, e⟩) (fun t id v e => h2 ⟨t, id, v, e⟩) with
      ⟨e1, -⟩ | ⟨t, id, r, op, sc', ha, hf, hs, e1, -⟩
    · rw [e1]; exact ⟨hq, rfl, rfl⟩
    · rw [e1]
      obtain ⟨hi, hid⟩ := other ha hf
      refine same_of_owns hq ?_ sc'
      cases hs <;> simp [Op.ownsSub, Op.ownsKey2, Op.ownsKey3, hi, hid]

/-- C55: on a working database a command that does not report success changed nothing
(`network-access-mode`, which always reports success, and `create` aside: see `c55_nam`,
`c55_create`). -/
theorem c55_refused (ck : Clock) (hist : List (Op × Script)) (sc : Script) (hsc : ∀ f ∈ sc, f = .ok) (c : Cmd)
    (h2 : ∀ i, c ≠ .create i) (h3 : ∀ t id v, c ≠ .nam t id v) :
    Succ (exec (vty ck c) (runHist {} hist) sc).1 ∨ (exec (vty ck c) (runHist {} hist) sc).2 = runHist {} hist := by
  have hG := reachable_good hist
  generalize runHist {} hist = d at hG ⊢
  rw [(vty_uniform ck c).exec _ hsc]
  by_cases h1 : ∃ t id, c = .show_ t id
  · obtain ⟨t, id, rfl⟩ := h1
    right
    rcases withSub_exec t id (fun p s => do pure (success (p ++ (← dump ck s)))) d [] with ⟨h, -⟩ | ⟨r, hf, h⟩
    · exact h
    · show (exec (show_ ck t id) d []).2 = d
      unfold show_
      rw [h, exec_then]
      obtain ⟨o, t', e1, -⟩ := dump_run ck (w := { db := d, script := [] }) hG (List.mem_of_find?_eq_some hf)
      show (dump ck (HlrSubscr.ofRow r) _).2.db = _
      rw [List.tail_nil, e1]
  rcases vty_oneCall ck hG c [] (fun t id e => h1 ⟨t, id, e⟩) h2 h3 with ⟨e1, -⟩ | ⟨t, id, r, op, sc', ha, hf, hs, e1, -, -, e2⟩
  · exact .inr e1
  · obtain ⟨rfl, e2⟩ := e2 rfl
    by_cases h0 : (exec op.run d []).1 = some 0
    · exact .inl (e2 (.inl h0))
    · right
      rw [e1]
      have hr := List.mem_of_find?_eq_some hf
      cases hs with
      | delete =>
        exfalso
        have e : (exec (Op.delete r.id).run d []).1 = some 0 := by
          show (exec (subscrDelete r.id) d []).1 = some 0
          rw [subscrDelete_known hG hr]
        exact h0 e
      | msisdn hv => exact (contract_msisdn d hG.unique [] r.imsi _).noEffect h0
      | noMsisdn => exact (contract_delMsisdn d hG.unique [] r.imsi).noEffect h0
      | imei hv => exact (contract_imei d hG.unique [] r.imsi _).noEffect h0
      | fullImei hv => exact (contract_imei d hG.unique [] r.imsi _).noEffect h0
      | noImei => exact (contract_imei d hG.unique [] r.imsi _).noEffect h0
      | noAud2 => exact (aud_refused hG r.id _).resolve_left h0
      | noAud3 => exact (aud_refused hG r.id _).resolve_left h0
      | aud2 => exact (aud_refused hG r.id _).resolve_left h0
      | aud3 => exact (aud_refused hG r.id _).resolve_left h0
      | xor3 => exact (aud_refused hG r.id _).resolve_left h0

end Verif.Prov.Vty.Props
