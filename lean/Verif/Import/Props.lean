import Verif.Import.Lemmas4
/-! # C65: importing an OsmoNITB database -/
namespace Verif.Import
open Verif Verif.Db Verif.Prov

/-! ## Faultless runs do not depend on the script -/

theorem updateAud2_uniform (id : Int) (al : Algo) (k : Bytes) : Uniform (updateAud id (.gsm al k)) := by
  unfold updateAud
  refine Uniform.ite (Uniform.pure _) (Uniform.bind (Uniform.stmt _ _) (fun a => ?_))
  split
  · exact Uniform.pure _
  · exact Uniform.bind (Uniform.stmt _ _) (fun _ => Uniform.pure _)

theorem importKeys_uniform (N : Nitb) (F : Reads) (i h : Int) : Uniform (importKeys N F i h) := by
  unfold importKeys
  refine Uniform.ite (Uniform.pure _) ?_
  split
  · exact Uniform.pure _
  · split
    · exact Uniform.pure _
    · refine Uniform.ite (Uniform.pure _) ?_
      split
      · exact Uniform.pure _
      · exact Uniform.bind (updateAud2_uniform _ _ _) (fun _ => Uniform.pure _)

theorem importTail_uniform (N : Nitb) (F : Reads) (n : NSub) (r : Int × Option SubRow) : Uniform (importTail N F n r) := by
  unfold importTail
  split
  · exact Uniform.pure _
  · exact Uniform.ite (Uniform.pure _) (importKeys_uniform _ _ _ _)

theorem importSub_uniform (N : Nitb) (F : Reads) (n : NSub) : Uniform (importSub N F n) := by
  unfold importSub
  refine Uniform.bind (subscrCreate_uniform _ _ _) (fun _ => Uniform.ite (Uniform.pure _) ?_)
  refine Uniform.bind (updateMsisdn_uniform _ _) (fun _ => Uniform.bind ?_ (fun _ => ?_))
  · unfold setImei
    exact Uniform.ite (updateImei_uniform _ _) (Uniform.pure _)
  · refine Uniform.bind (Uniform.bind (Uniform.stmt _ _) (fun _ => Uniform.pure _)) (fun _ => ?_)
    refine Uniform.bind (subscrNam_uniform _ _ _) (fun _ => Uniform.bind (subscrNam_uniform _ _ _) (fun _ => ?_))
    exact Uniform.bind (dbSel_uniform _) (fun _ => importTail_uniform _ _ _ _)

theorem importSubs_uniform (N : Nitb) (F : Reads) (l : List NSub) : Uniform (importSubs N F l) := by
  induction l with
  | nil => exact Uniform.pure _
  | cons n l ih =>
    refine Uniform.bind (importSub_uniform _ _ _) (fun e => ?_)
    cases e
    · exact ih
    · exact Uniform.pure _

theorem importNitb_uniform (N : Nitb) (F : Reads) : Uniform (importNitb N F) :=
  Uniform.ite (Uniform.pure _) (Uniform.bind (importSubs_uniform _ _ _) (fun _ => Uniform.pure _))

/-! ## The loop -/

theorem post_subs {N : Nitb} {d0 : Db} (hP : Plain N) (hF : Fresh N d0) (F : Reads) (l : List NSub)
    (hl : ∀ n ∈ l, n ∈ N.subs) : Post (Inv N d0 []) (importSubs N F l) (fun _ d => Inv N d0 [] d) := by
  induction l with
  | nil => exact Post.pure (fun _ h => h)
  | cons n l ih =>
    refine post_seq (post_sub ⟨hP, hF, hl n List.mem_cons_self, fun _ h => by cases h⟩ F) (fun _ h => h) (fun e => ?_)
    cases e
    · exact ih (fun m hm => hl m (List.mem_cons_of_mem _ hm))
    · exact Post.pure (fun _ h => h)

theorem post_import {N : Nitb} {d0 : Db} (hP : Plain N) (hF : Fresh N d0) (F : Reads) :
    Post (Inv N d0 []) (importNitb N F) (fun _ d => Inv N d0 [] d) := by
  unfold importNitb
  split
  · exact Post.pure (fun _ h => h)
  · refine post_seq (post_subs hP hF F _ ?_) (fun _ h => h) (fun e => Post.pure (fun _ h => h))
    intro n hn
    split at hn
    · exact hn
    · exact List.mem_of_mem_take hn

theorem works_subs {N : Nitb} {d0 : Db} (hP : Plain N) (hF : Fresh N d0) (F : Reads) (hE : ∀ i, F.keyErr i = false)
    (l : List NSub) : ∀ done, (∀ n ∈ l, n ∈ N.subs) → ((done ++ l).map (·.imsi)).Nodup →
    Works (Inv N d0 done) (importSubs N F l) (fun e d => e = .ok ∧ Inv N d0 (done ++ l) d) := by
  induction l with
  | nil => intro done _ _; rw [List.append_nil]; exact Works.pure (fun _ h => ⟨rfl, h⟩)
  | cons n l ih =>
    intro done hl hn
    have hd : ∀ m ∈ done, m.imsi ≠ n.imsi := by
      intro m hm e
      rw [List.map_append, List.nodup_append] at hn
      exact hn.2.2 m.imsi (List.mem_map_of_mem hm) n.imsi (List.mem_map_of_mem List.mem_cons_self) e
    refine Works.bind (fun e d => e = .ok ∧ Inv N d0 (done ++ [n]) d) ?_ ?_
    · intro d h
      obtain ⟨a, d', e, hI, ha, hf⟩ := works_sub ⟨hP, hF, hl n List.mem_cons_self, hd⟩ F (hE n.id) d h
      refine ⟨a, d', e, ha, hI.prog, fun m hm => ?_⟩
      rcases List.mem_append.1 hm with hm | hm
      · exact hI.full m hm
      · rw [List.mem_singleton.1 hm]; exact hf
    · rintro e d ⟨rfl, h⟩
      have e : done ++ n :: l = (done ++ [n]) ++ l := by simp
      rw [e] at hn ⊢
      exact ih (done ++ [n]) (fun m hm => hl m (List.mem_cons_of_mem _ hm)) hn d h

/-- The OsmoNITB database can be read. -/
structure Reads.Good (F : Reads) : Prop where
  opens : F.openOk = true
  prep : F.prepOk = true
  rows : F.rows = none
  keys : ∀ i, F.keyErr i = false

theorem works_import {N : Nitb} {d0 : Db} (hP : Plain N) (hF : Fresh N d0) {F : Reads} (hG : F.Good) :
    Works (Inv N d0 []) (importNitb N F) (fun e d => e = .status 0 ∧ Inv N d0 N.subs d) := by
  unfold importNitb
  rw [hG.opens, hG.prep, hG.rows, if_neg (by decide)]
  refine Works.bind _ (works_subs hP hF F hG.keys N.subs [] (fun _ h => h) hP.imsis) (fun e => Works.pure ?_)
  rintro d ⟨rfl, h⟩
  exact ⟨rfl, h⟩

theorem imported_of_inv {N : Nitb} {d d' : Db} (hO : NoOrphanKeys d) (h : Inv N d N.subs d') : Imported N d d' := by
  refine ⟨?_, ?_, ?_, h.prog.inds, h.prog.uniq⟩
  · intro n hn
    obtain ⟨r, hr, h1, h2⟩ := h.full n hn
    refine ⟨r, hr, h1, h2, ?_⟩
    unfold key3
    rw [h.prog.auc3, List.find?_eq_none]
    intro a ha e
    obtain ⟨x, hx, hxa⟩ := hO.2 a ha
    obtain ⟨o1, o2⟩ := old_mem h.prog hx
    have : x = r := eq_of_nodup_map h.prog.uniq.ids o1 hr (by rw [hxa]; simpa using e)
    rw [this, h1.imsi, isNew_iff.2 ⟨n, hn, rfl⟩] at o2
    cases o2
  · intro r hr
    refine ⟨(old_mem h.prog hr).1, h.prog.keys r hr, ?_⟩
    unfold key3
    rw [h.prog.auc3]
  · intro r hr
    by_cases hn : isNew N r.imsi = true
    · right
      obtain ⟨n, hn, e⟩ := isNew_iff.1 hn
      exact ⟨n, hn, e.symm⟩
    · left
      rw [← h.prog.old]
      exact List.mem_filter.2 ⟨hr, by simpa using hn⟩

/-- Runs of the import, each with the fates of its statements and with what can be read; some
may end in a crash. -/
def runs (N : Nitb) (d : Db) : List (Script × Reads) → Db
  | [] => d
  | (s, F) :: rest => runs N (exec (importNitb N F) d s).2 rest

/-- C65 (partial: OsmoNITB data as expected, subscribers and numbers unknown to the HLR).  An
import, after any number of earlier attempts that failed or died anywhere, on working databases
ends with success and with exactly the subscribers of OsmoNITB added, with their identities,
access, time of last contact and key; all that was there is still there. -/
theorem c65_import_partial (N : Nitb) (d : Db) (tries : List (Script × Reads)) (F : Reads) (s : Script)
    (hP : Plain N) (hF : Fresh N d) (hU : Unique d) (hO : NoOrphanKeys d) (hG : F.Good) (hs : AllOk s) :
    (exec (importNitb N F) (runs N d tries) s).1 = some (.status 0)
    ∧ Imported N d (exec (importNitb N F) (runs N d tries) s).2 := by
  have hI : Inv N d [] (runs N d tries) := by
    have h0 : Inv N d [] d := ⟨prog_start hU hO hF, fun _ h => by cases h⟩
    have : ∀ x, Inv N d [] x → Inv N d [] (runs N x tries) := by
      induction tries with
      | nil => exact fun x h => h
      | cons t tries ih =>
        intro x h
        exact ih _ ((post_import hP hF t.2).exec x t.1 h)
    exact this d h0
  rw [(importNitb_uniform N F).exec _ hs]
  obtain ⟨a, d', e, ha, hI'⟩ := works_import hP hF hG _ hI
  unfold Db.exec
  rw [e]
  exact ⟨by rw [ha], imported_of_inv hO hI'⟩

/-- C65: the keys are decoded as libdbi encoded them. -/
theorem c65_decode (e : UInt8) (x : Bytes) : decodeBinary (encodeBinary e x) = some x := decodeLoop_encode e x

/-! ## Subscribers that are not in the OsmoNITB database -/

/-- What an import may do to a database: it leaves all others alone. -/
structure Keep (N : Nitb) (d0 d : Db) : Prop where
  uniq : Unique d
  rows : ∀ r ∈ d0.subs, (∀ n ∈ N.subs, imsiStr n.imsi ≠ r.imsi) → r ∈ d.subs ∧ key2 d r.id = key2 d0 r.id
  auc3 : d.auc3 = d0.auc3
  inds : d.inds = d0.inds

theorem keep_upd {N : Nitb} {d0 d : Db} (h : Keep N d0 d) {n : NSub} (hn : n ∈ N.subs) (f : SubRow → SubRow)
    (hu : Unique (sqlUpdSub (·.imsi == imsiStr n.imsi) f d).2) : Keep N d0 (sqlUpdSub (·.imsi == imsiStr n.imsi) f d).2 := by
  refine ⟨hu, fun r hr hno => ?_, h.auc3, h.inds⟩
  obtain ⟨h1, h2⟩ := h.rows r hr hno
  refine ⟨List.mem_map.2 ⟨r, h1, ?_⟩, h2⟩
  have : ¬ (r.imsi == imsiStr n.imsi) = true := by
    intro e
    exact hno n hn (by simpa using Eq.symm (by simpa using e))
  rw [if_neg this]

theorem keep_upd' {N : Nitb} {d0 d : Db} (h : Keep N d0 d) {n : NSub} (hn : n ∈ N.subs) (f : SubRow → SubRow)
    (h1 : ∀ r, (f r).id = r.id) (h2 : ∀ r, (f r).imsi = r.imsi) (h3 : ∀ r, (f r).msisdn = r.msisdn) :
    Keep N d0 (sqlUpdSub (·.imsi == imsiStr n.imsi) f d).2 :=
  keep_upd h hn f (h.uniq.updSub _ _ h1 h2 h3)

theorem keep_key {N : Nitb} {d0 d : Db} (h : Keep N d0 d) {n : NSub} (hn : n ∈ N.subs) {row : SubRow} (hr : row ∈ d.subs)
    (hi : row.imsi = imsiStr n.imsi) (d' : Db) (hs : d'.subs = d.subs) (h3 : d'.auc3 = d.auc3) (hin : d'.inds = d.inds)
    (hU : Unique d') (hk : ∀ i, i ≠ row.id → key2 d' i = key2 d i) : Keep N d0 d' := by
  refine ⟨hU, fun r hr' hno => ?_, h3.trans h.auc3, hin.trans h.inds⟩
  obtain ⟨h1, h2⟩ := h.rows r hr' hno
  refine ⟨by rw [hs]; exact h1, ?_⟩
  rw [hk, h2]
  intro e
  have := eq_of_nodup_map h.uniq.ids h1 hr e
  subst this
  exact hno n hn hi.symm

theorem keep_aud {N : Nitb} {d0 : Db} {n : NSub} (hn : n ∈ N.subs) {row : SubRow}
    (hi : row.imsi = imsiStr n.imsi) (al : Algo) (t : Bytes) :
    Post (fun d => Keep N d0 d ∧ row ∈ d.subs) (updateAud row.id (.gsm al t)) (fun _ d => Keep N d0 d ∧ row ∈ d.subs) := by
  unfold updateAud
  dsimp only
  split
  · exact Post.pure (fun _ h => h)
  · refine post_seq (Post.stmt (fun d h => ?_) (fun _ h => h) (fun _ h => h)) (fun _ h => h) (fun a => ?_)
    · refine ⟨keep_key h.1 hn h.2 hi _ rfl rfl rfl (h.1.uniq.delAuc2 _) (fun i hne => find_filter_ne hne), h.2⟩
    · split
      · exact Post.pure (fun _ h => h)
      · refine post_seq (Post.stmt (fun d h => ?_) (fun _ h => h) (fun _ h => h)) (fun _ h => h)
          (fun _ => Post.pure (fun _ h => h))
        have hU := h.1.uniq.insAuc2 { id := row.id, algo := al, ki := t }
        unfold sqlInsAuc2 at hU ⊢
        split
        · exact h
        · rename_i hc
          rw [if_neg hc] at hU
          exact ⟨keep_key h.1 hn h.2 hi _ rfl rfl rfl hU (fun i hne => key2_append_ne hne), h.2⟩

theorem keep_tail {N : Nitb} {d0 : Db} {n : NSub} (hn : n ∈ N.subs) (F : Reads) (r : Int × Option SubRow) :
    Post (fun d => Keep N d0 d ∧ ∀ row, r.2 = some row → row ∈ d.subs ∧ row.imsi = imsiStr n.imsi) (importTail N F n r)
      (fun _ d => Keep N d0 d) := by
  unfold importTail
  rcases hr : r.2 with _ | row
  · exact Post.pure (fun _ h => h.1)
  · dsimp only
    split
    · exact Post.pure (fun _ h => h.1)
    · by_cases hi : row.imsi = imsiStr n.imsi
      case neg => exact fun w hw => absurd (hw.2 row rfl).2 hi
      unfold importKeys
      split
      · exact Post.pure (fun _ h => h.1)
      · split
        · exact Post.pure (fun _ h => h.1)
        · split
          · exact Post.pure (fun _ h => h.1)
          · split
            · exact Post.pure (fun _ h => h.1)
            · split
              · exact Post.pure (fun _ h => h.1)
              · refine Post.bind (fun _ d => Keep N d0 d ∧ row ∈ d.subs) ((keep_aud hn hi _ _).mono ?_ (fun _ _ h => h))
                  (fun _ h => h.1) (fun _ => Post.pure (fun _ h => h.1))
                exact fun d h => ⟨h.1, (h.2 row rfl).1⟩

theorem keep_sel {N : Nitb} {d0 : Db} (i : Bytes) :
    Post (Keep N d0) (getByImsi i)
      (fun o d => Keep N d0 d ∧ ∀ r, o = some r → ∀ row, r.2 = some row → row ∈ d.subs ∧ row.imsi = i) := by
  unfold getByImsi dbSel
  refine Post.bind (fun o d => Keep N d0 d ∧ ∀ row, o = some (.row row) → row ∈ d.subs ∧ row.imsi = i)
    (Post.stmt ?_ ?_ ?_) ?_ ?_
  · intro d h
    refine ⟨h, fun row e => ?_⟩
    simp only [sqlSel, Option.some.injEq] at e
    rcases hf : d.subs.find? (fun r => r.imsi == i) with _ | x
    · rw [hf] at e; cases e
    · rw [hf] at e
      injection e with e
      subst e
      exact ⟨List.mem_of_find?_eq_some hf, by simpa using List.find?_some hf⟩
  · exact fun d h => ⟨h, fun _ e => by cases e⟩
  · exact fun d h => ⟨h, fun _ e => by cases e⟩
  · exact fun d h => ⟨h.1, fun _ e => by cases e⟩
  · intro a
    cases a with
    | row x =>
      refine Post.pure (fun d h => ⟨h.1, fun r e row e' => ?_⟩)
      injection e with e
      subst e
      injection e' with e'
      subst e'
      exact h.2 _ rfl
    | done =>
      refine Post.pure (fun d h => ⟨h.1, fun r e row e' => ?_⟩)
      injection e with e
      subst e
      cases e'
    | error =>
      refine Post.pure (fun d h => ⟨h.1, fun r e row e' => ?_⟩)
      injection e with e
      subst e
      cases e'

theorem keep_sub {N : Nitb} {d0 : Db} {n : NSub} (hn : n ∈ N.subs) (F : Reads) :
    Post (Keep N d0) (importSub N F n) (fun _ d => Keep N d0 d) := by
  unfold importSub
  refine post_seq ?_ (fun _ h => h) (fun _ => ?_)
  · unfold subscrCreate
    split
    · exact Post.pure (fun _ h => h)
    · refine post_seq (Post.stmt (fun d h => ?_) (fun _ h => h) (fun _ h => h)) (fun _ h => h) (fun a => ?_)
      · refine ⟨h.uniq.create _ _ _, fun r hr hno => ?_, ?_, ?_⟩
        · obtain ⟨h1, h2⟩ := h.rows r hr hno
          unfold sqlCreate
          split
          · exact ⟨h1, h2⟩
          · exact ⟨List.mem_append_left _ h1, h2⟩
        · unfold sqlCreate
          split <;> exact h.auc3
        · unfold sqlCreate
          split <;> exact h.inds
      · cases a <;> exact Post.pure (fun _ h => h)
  split
  · exact Post.pure (fun _ h => h)
  refine post_seq ?_ (fun _ h => h) (fun _ => ?_)
  · unfold updateMsisdn
    dsimp only
    split
    · exact Post.pure (fun _ h => h)
    · refine post_updRc (fun d h => ?_)
      have hU := h.uniq.setMsisdn (imsiStr n.imsi) (textCol n.ext)
      unfold sqlSetMsisdn at hU ⊢
      split
      · exact h
      · rename_i hc
        rw [if_neg hc] at hU
        exact keep_upd h hn _ hU
  refine post_seq ?_ (fun _ h => h) (fun _ => ?_)
  · unfold setImei
    split
    · unfold updateImei
      dsimp only
      split
      · exact Post.pure (fun _ h => h)
      · exact post_updRc (fun d h => keep_upd' h hn _ (fun _ => rfl) (fun _ => rfl) (fun _ => rfl))
    · exact Post.pure (fun _ h => h)
  have nam : ∀ v ps, Post (Keep N d0) (subscrNam (imsiStr n.imsi) v ps) (fun _ d => Keep N d0 d) := by
    intro v ps
    refine post_updRc (fun d h => ?_)
    cases ps <;> exact keep_upd' h hn _ (fun _ => rfl) (fun _ => rfl) (fun _ => rfl)
  refine post_seq (post_updRc (fun d h => keep_upd' h hn _ (fun _ => rfl) (fun _ => rfl) (fun _ => rfl))) (fun _ h => h) (fun _ => ?_)
  refine post_seq (nam _ true) (fun _ h => h) (fun _ => ?_)
  refine post_seq (nam _ false) (fun _ h => h) (fun _ => ?_)
  refine Post.bind _ (keep_sel _) (fun _ h => h.1) (fun r => ?_)
  exact (keep_tail hn F r).mono (fun d h => ⟨h.1, fun row e => h.2 r rfl row e⟩) (fun _ _ h => h)

theorem keep_subs {N : Nitb} {d0 : Db} (F : Reads) (l : List NSub) (hl : ∀ n ∈ l, n ∈ N.subs) :
    Post (Keep N d0) (importSubs N F l) (fun _ d => Keep N d0 d) := by
  induction l with
  | nil => exact Post.pure (fun _ h => h)
  | cons n l ih =>
    refine post_seq (keep_sub (hl n List.mem_cons_self) F) (fun _ h => h) (fun e => ?_)
    cases e
    · exact ih (fun m hm => hl m (List.mem_cons_of_mem _ hm))
    · exact Post.pure (fun _ h => h)

/-- C65: whatever the OsmoNITB database holds, whatever fails and wherever the tool dies, the
subscribers with other IMSIs keep their data and their keys, no 3G key and no index changes, and
identities stay unique.  (`imsiStr` is the IMSI under which the subscriber is imported.) -/
theorem c65_others (N : Nitb) (F : Reads) (d : Db) (s : Script) (hU : Unique d) :
    (∀ r ∈ d.subs, (∀ n ∈ N.subs, imsiStr n.imsi ≠ r.imsi) →
      r ∈ (exec (importNitb N F) d s).2.subs
      ∧ key2 (exec (importNitb N F) d s).2 r.id = key2 d r.id)
    ∧ (exec (importNitb N F) d s).2.auc3 = d.auc3
    ∧ (exec (importNitb N F) d s).2.inds = d.inds
    ∧ Unique (exec (importNitb N F) d s).2 := by
  have : Post (Keep N d) (importNitb N F) (fun _ x => Keep N d x) := by
    unfold importNitb
    split
    · exact Post.pure (fun _ h => h)
    · refine post_seq (keep_subs F _ ?_) (fun _ h => h) (fun e => Post.pure (fun _ h => h))
      intro n hn
      split at hn
      · exact hn
      · exact List.mem_of_mem_take hn
  have := this.exec d s ⟨hU, fun r hr _ => ⟨hr, rfl⟩, rfl, rfl⟩
  exact ⟨this.rows, this.auc3, this.inds, this.uniq⟩

/-- C65: if the OsmoNITB database cannot be opened or is none, the tool says so with its exit status
and changes nothing. -/
theorem c65_unreadable (N : Nitb) {F : Reads} (h : F.openOk = false ∨ F.prepOk = false) (d : Db) (s : Script) :
    exec (importNitb N F) d s = (some (.status 1), d) := by
  unfold importNitb
  rw [if_pos (by rcases h with h | h <;> rw [h] <;> simp)]
  rfl

example : exec (importNitb { subs := [] } { openOk := false }) {} [] = (some (.status 1), {}) :=
  c65_unreadable _ (.inl rfl) _ _

end Verif.Import
