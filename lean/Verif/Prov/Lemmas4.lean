import Verif.Prov.Lemmas3
/-! # Lemmas on the provisioning commands: running them -/
namespace Verif.Prov
open Verif Verif.Db Verif.Auc Verif.Mslookup Verif.Mslookup.Mdns

/-! ## A working database: the script does not matter -/

theorem selectSub_uniform (sel : Bytes) : Uniform (selectSub sel) := by
  rw [selectSub_eq]
  split
  · exact .pure _
  · exact dbSel_uniform _

theorem withSub_uniform {k : HlrSubscr → DbM Reply} (sel : Bytes) (h : ∀ s, Uniform (k s)) : Uniform (withSub sel k) := by
  refine .bind (selectSub_uniform sel) fun a => ?_
  obtain ⟨rc, o⟩ := a
  cases o with
  | none => exact .pure _
  | some r => exact h _

theorem withImsi_uniform {k : Bytes → DbM Reply} (sel : Bytes) (h : ∀ s, Uniform (k s)) : Uniform (withImsi sel k) :=
  .ite (h _) (withSub_uniform sel fun _ => h _)

theorem withKeys_uniform (i : Bytes) (e : Reply) (k : Option Aud2 → Option Aud3 → Reply) : Uniform (withKeys i e k) := by
  refine .bind (getAuthData_uniform i) fun a => ?_
  cases a with
  | keys _ g u => exact .pure _
  | err rc => exact .ite (.pure _) (.pure _)

theorem get_uniform (sel : Bytes) (x : Var) : Uniform (get sel x) := by
  unfold get
  cases x <;> dsimp only <;> first
    | exact withSub_uniform sel fun _ => .pure _
    | exact withSub_uniform sel fun _ => withKeys_uniform _ _ _
    | exact withImsi_uniform sel fun _ => withKeys_uniform _ _ _

theorem updateAud_uniform (id : Int) (a : AudStr) : Uniform (updateAud id a) := by
  have fin : ∀ (s : Sum Int Unit) (m : DbM Int), Uniform m → Uniform (match s with | .inl rc => pure rc | .inr () => m) := by
    intro s m hm
    cases s with
    | inl rc => exact .pure _
    | inr u => exact hm
  cases a with
  | gsm al ki =>
    exact .ite (.pure _) (.bind (.stmt _ _) fun w => fin _ _ (.bind (.stmt _ _) fun _ => .pure _))
  | umts al k o p bl =>
    exact .ite (.pure _) (.bind (.stmt _ _) fun w => fin _ _ (.bind (.stmt _ _) fun _ => .pure _))
  | other => exact .pure _

theorem set_uniform (sel : Bytes) (x : Var) (v : Bytes) : Uniform (set sel x v) := by
  unfold set setVar
  cases x <;> dsimp only
  case imsi => exact .pure _
  case info => exact .pure _
  case infoAud => exact .pure _
  case infoAll => exact .pure _
  case cs => exact .ite (withImsi_uniform sel fun _ => .bind (subscrNam_uniform _ _ _) fun _ => .pure _) (.pure _)
  case ps => exact .ite (withImsi_uniform sel fun _ => .bind (subscrNam_uniform _ _ _) fun _ => .pure _) (.pure _)
  case msisdn => exact .ite (withSub_uniform sel fun _ => .bind (updateMsisdn_uniform _ _) fun _ => .pure _) (.pure _)
  case aud2g =>
    refine .ite (withSub_uniform sel fun _ => ?_) (.pure _)
    split
    · exact .pure _
    · exact .bind (updateAud_uniform _ _) fun _ => .pure _
  case aud3g =>
    refine .ite (withSub_uniform sel fun _ => ?_) (.pure _)
    split
    · exact .pure _
    · exact .bind (updateAud_uniform _ _) fun _ => .pure _

theorem create_uniform (i : Bytes) : Uniform (create i) := by
  refine .ite (.pure _) (.bind (subscrCreate_uniform _ _ _) fun rc => .ite (.pure _) (.bind (dbSel_uniform _) fun a => ?_))
  obtain ⟨rc, o⟩ := a
  cases o <;> exact .pure _

theorem subscrDelete_uniform (id : Int) : Uniform (subscrDelete id) := by
  refine .bind (.stmt _ _) fun a => ?_
  cases a with
  | error => exact .pure _
  | unique => exact .pure _
  | done n => exact .bind (updateAud_uniform _ _) fun _ => .bind (updateAud_uniform _ _) fun _ => .pure _

theorem delete_uniform (i : Bytes) : Uniform (delete i) := by
  refine .ite (.pure _) (.bind (dbSel_uniform _) fun a => ?_)
  obtain ⟨rc, o⟩ := a
  cases o with
  | none => exact .pure _
  | some r => exact .bind (subscrDelete_uniform _) fun _ => .pure _

/-! ## Any script -/

/-- `m` leaves the database alone. -/
theorem withSub_run {k : HlrSubscr → DbM Reply} (sel : Bytes) (w : World) :
    (∃ o t, withSub sel k w = (o, { db := w.db, script := t }) ∧ (o = none ∨ ∃ e, o = some (.error e)))
    ∨ ∃ c r t, selCond sel = .ok c ∧ w.db.subs.find? c = some r
      ∧ withSub sel k w = k (HlrSubscr.ofRow r) { db := w.db, script := t } ∧ t = w.script.tail := by
  have se : ∀ rc, ∃ e, selectError rc = .error e := by
    intro rc
    unfold selectError err
    repeat' split
    all_goals exact ⟨_, rfl⟩
  unfold withSub
  rw [bind_run, selectSub_eq]
  cases hc : selCond sel with
  | error rc =>
    left
    obtain ⟨e, he⟩ := se rc
    exact ⟨some (selectError rc), w.script, rfl, .inr ⟨e, by rw [he]⟩⟩
  | ok c =>
    obtain ⟨o, h1, h2⟩ := dbSel_run c w
    obtain ⟨t, ht⟩ : ∃ t, t = w.script.tail := ⟨_, rfl⟩
    rw [← ht] at h1
    dsimp only
    rw [h1]
    rcases h2 with rfl | rfl | ⟨rfl, -⟩ | ⟨r, rfl, hf⟩
    · exact .inl ⟨none, t, rfl, .inl rfl⟩
    · left
      obtain ⟨e, he⟩ := se (-EIO)
      exact ⟨_, t, rfl, .inr ⟨e, congrArg some he⟩⟩
    · left
      obtain ⟨e, he⟩ := se (-ENOENT)
      exact ⟨_, t, rfl, .inr ⟨e, congrArg some he⟩⟩
    · exact .inr ⟨c, r, t, rfl, hf, rfl, ht⟩

theorem getAuthData_run (i : Bytes) (w : World) : ∃ o t, getAuthData i w = (o, { db := w.db, script := t })
    ∧ (o = none ∨ o = some (.err (-EIO)) ∨ o = some (authKeys w.db i)) := by
  have := getAuthData_post w.db i w rfl
  exact ⟨(getAuthData i w).1, (getAuthData i w).2.script, by rw [← this.1], this.2⟩

/-- Keys read for an IMSI, under any script. -/
theorem withKeys_run (i : Bytes) (es : String) (k : Option Aud2 → Option Aud3 → Reply) (w : World) :
    ∃ o t, withKeys i (err es) k w = (o, { db := w.db, script := t })
      ∧ (o = none ∨ (∃ e, o = some (.error e)) ∨ o = (withKeys i (err es) k { db := w.db, script := [] }).1) := by
  obtain ⟨o, t, h1, h2⟩ := getAuthData_run i w
  unfold withKeys
  rw [bind_run, bind_run, h1, getAuthData_nil]
  rcases h2 with rfl | rfl | rfl
  · exact ⟨none, t, rfl, .inl rfl⟩
  · refine ⟨some (err es), t, ?_, .inr (.inl ⟨_, rfl⟩)⟩
    show (if -EIO = -ENOENT ∨ -EIO = -ENOKEY then (pure (k none none) : DbM Reply) else pure (err es)) _ = _
    rw [if_neg (by decide)]
    rfl
  · dsimp only
    cases authKeys w.db i with
    | keys _ g u => exact ⟨_, t, rfl, .inr (.inr rfl)⟩
    | err rc =>
      dsimp only
      by_cases h : rc = -ENOENT ∨ rc = -ENOKEY
      · rw [if_pos h]; exact ⟨_, t, rfl, .inr (.inr rfl)⟩
      · rw [if_neg h]; exact ⟨_, t, rfl, .inr (.inl ⟨_, rfl⟩)⟩

theorem withKeys_fst {d : Db} (hG : Good d) {r : SubRow} (hr : r ∈ d.subs) (e : Reply)
    (k : Option Aud2 → Option Aud3 → Reply) :
    (withKeys r.imsi e k { db := d, script := [] }).1
      = some (k ((key2 d r.id).bind load2) ((key3 d r.id).bind load3)) :=
  congrArg (fun p => p.1) (withKeys_nil hG hr e k)

theorem withKeys_unknown {d : Db} {i : Bytes} (h : ¬ Known d i) (e : Reply) (k : Option Aud2 → Option Aud3 → Reply) :
    (withKeys i e k { db := d, script := [] }).1 = some (k none none) := by
  unfold withKeys
  rw [bind_run, getAuthData_nil]
  have hf : d.subs.find? (fun r : SubRow => r.imsi == i) = none := by
    rw [List.find?_eq_none]
    intro r hr e
    exact h ⟨r, hr, by simpa using e⟩
  unfold authKeys
  rw [hf]
  rfl

/-- The reply of a GET given the row, on a working database. -/
def rowGet (d : Db) (r : SubRow) (x : Var) : Reply := .reply (getText d r x)

theorem names_imsi {sel : Bytes} {r : SubRow} (hp : startswith sel byImsi = true) (h : Names sel r) :
    sel.drop byImsi.length = r.imsi := by
  rcases h with rfl | ⟨m, -, rfl⟩ | ⟨t, n, rfl, -⟩
  · show (byImsi ++ r.imsi).drop byImsi.length = r.imsi
    rw [List.drop_left]
  · exfalso
    change startswith (byMsisdn ++ m) byImsi = true at hp
    simp [startswith, byImsi_eq, byMsisdn_eq, List.isPrefixOf] at hp
  · exfalso
    change startswith (byId ++ t) byImsi = true at hp
    simp [startswith, byImsi_eq, byId_eq, List.isPrefixOf] at hp

/-- What a GET's continuation answers. -/
theorem getRow_nil {d : Db} (hG : Good d) {r : SubRow} (hr : r ∈ d.subs) :
    getText d r .imsi = (HlrSubscr.ofRow r).imsi
    ∧ getText d r .msisdn = (if (HlrSubscr.ofRow r).msisdn.isEmpty then b "none" else (HlrSubscr.ofRow r).msisdn)
    ∧ getText d r .info = printInfo (HlrSubscr.ofRow r)
    ∧ getText d r .aud2g = aud2Text ((key2 d r.id).bind load2)
    ∧ getText d r .aud3g = aud3Text ((key3 d r.id).bind load3)
    ∧ getText d r .infoAud = printAud2 ((key2 d r.id).bind load2) ++ printAud3 ((key3 d r.id).bind load3)
    ∧ getText d r .infoAll = printInfo (HlrSubscr.ofRow r) ++ printAud2 ((key2 d r.id).bind load2) ++ printAud3 ((key3 d r.id).bind load3) := by
  refine ⟨(ofRow_imsi hG hr).symm, ?_, (printInfo_eq hG hr).symm, (aud2Text_eq hG r.id).symm, (aud3Text_eq hG r.id).symm, ?_, ?_⟩
  · rw [ofRow_msisdn hG hr]
    show r.msisdn.getD (b "none") = _
    cases hm : r.msisdn with
    | none => rfl
    | some m =>
      have : m ≠ [] := by
        rintro rfl
        have := ((hG.idents r hr).2.1 [] hm).1
        simp at this
      simp [this]
  · rw [printAud2_eq hG, printAud3_eq hG]; rfl
  · rw [printInfo_eq hG hr, printAud2_eq hG, printAud3_eq hG]; rfl

/-- Every result of a GET under any script. -/
theorem get_run {w : World} (hG : Good w.db) (sel : Bytes) (x : Var) :
    ∃ o t, get sel x w = (o, { db := w.db, script := t })
      ∧ (o = none ∨ (∃ e, o = some (.error e))
        ∨ (∃ c r, selCond sel = .ok c ∧ w.db.subs.find? c = some r ∧ o = some (.reply (getText w.db r x)))
        ∨ (x = .infoAud ∧ startswith sel byImsi = true ∧ ((∃ r ∈ w.db.subs, r.imsi = sel.drop byImsi.length
            ∧ o = some (.reply (getText w.db r x)))
          ∨ ¬ Known w.db (sel.drop byImsi.length) ∧ o = some (.reply [])))) := by
  have plain : ∀ k : HlrSubscr → DbM Reply, (∀ r ∈ w.db.subs, ∀ t, ∃ o t', k (HlrSubscr.ofRow r) { db := w.db, script := t }
      = (o, { db := w.db, script := t' }) ∧ (o = none ∨ (∃ e, o = some (.error e)) ∨ o = some (.reply (getText w.db r x)))) →
      ∃ o t, withSub sel k w = (o, { db := w.db, script := t })
      ∧ (o = none ∨ (∃ e, o = some (.error e))
        ∨ (∃ c r, selCond sel = .ok c ∧ w.db.subs.find? c = some r ∧ o = some (.reply (getText w.db r x)))) := by
    intro k hk
    rcases withSub_run (k := k) sel w with ⟨o, t, h1, h2⟩ | ⟨c, r, t, hc, hf, h1, -⟩
    · refine ⟨o, t, h1, ?_⟩
      rcases h2 with h | h
      · exact .inl h
      · exact .inr (.inl h)
    · obtain ⟨o, t', h2, h3⟩ := hk r (List.mem_of_find?_eq_some hf) t
      refine ⟨o, t', h1.trans h2, ?_⟩
      rcases h3 with h | h | h
      · exact .inl h
      · exact .inr (.inl h)
      · exact .inr (.inr ⟨c, r, hc, hf, h⟩)
  have weaken : ∀ {m : DbM Reply}, (∃ o t, m w = (o, { db := w.db, script := t })
      ∧ (o = none ∨ (∃ e, o = some (.error e))
        ∨ (∃ c r, selCond sel = .ok c ∧ w.db.subs.find? c = some r ∧ o = some (.reply (getText w.db r x))))) →
      ∃ o t, m w = (o, { db := w.db, script := t })
      ∧ (o = none ∨ (∃ e, o = some (.error e))
        ∨ (∃ c r, selCond sel = .ok c ∧ w.db.subs.find? c = some r ∧ o = some (.reply (getText w.db r x)))
        ∨ (x = .infoAud ∧ startswith sel byImsi = true ∧ ((∃ r ∈ w.db.subs, r.imsi = sel.drop byImsi.length
            ∧ o = some (.reply (getText w.db r x)))
          ∨ ¬ Known w.db (sel.drop byImsi.length) ∧ o = some (.reply [])))) := by
    rintro m ⟨o, t, h1, h⟩
    refine ⟨o, t, h1, ?_⟩
    rcases h with h | h | h
    · exact .inl h
    · exact .inr (.inl h)
    · exact .inr (.inr (.inl h))
  have keys : ∀ (r : SubRow), r ∈ w.db.subs → ∀ (es : String) (k : Option Aud2 → Option Aud3 → Reply) (t : Script),
      k ((key2 w.db r.id).bind load2) ((key3 w.db r.id).bind load3) = .reply (getText w.db r x) →
      ∃ o t', withKeys r.imsi (err es) k { db := w.db, script := t }
      = (o, { db := w.db, script := t' }) ∧ (o = none ∨ (∃ e, o = some (.error e)) ∨ o = some (.reply (getText w.db r x))) := by
    intro r hr es k t hk
    obtain ⟨o, t', h1, h2⟩ := withKeys_run r.imsi es k { db := w.db, script := t }
    refine ⟨o, t', h1, ?_⟩
    rw [withKeys_fst hG hr, hk] at h2
    exact h2
  unfold get
  cases x <;> dsimp only
  case infoAud =>
    unfold withImsi
    by_cases hp : startswith sel byImsi = true
    · rw [if_pos hp]
      by_cases hk : Known w.db (sel.drop byImsi.length)
      · obtain ⟨r, hr, hi⟩ := hk
        rw [← hi]
        obtain ⟨o, t, h1, h2⟩ := keys r hr "Error retrieving authentication data."
          (fun g u => .reply (printAud2 g ++ printAud3 u)) w.script
          (congrArg Reply.reply (getRow_nil hG hr).2.2.2.2.2.1.symm)
        refine ⟨o, t, h1, ?_⟩
        rcases h2 with h | h | h
        · exact .inl h
        · exact .inr (.inl h)
        · exact .inr (.inr (.inr ⟨rfl, hp, .inl ⟨r, hr, rfl, h⟩⟩))
      · obtain ⟨o, t, h1, h2⟩ := withKeys_run (sel.drop byImsi.length) "Error retrieving authentication data."
          (fun g u => .reply (printAud2 g ++ printAud3 u)) w
        refine ⟨o, t, h1, ?_⟩
        rw [withKeys_unknown hk] at h2
        rcases h2 with h | h | h
        · exact .inl h
        · exact .inr (.inl h)
        · exact .inr (.inr (.inr ⟨rfl, hp, .inr ⟨hk, h⟩⟩))
    · rw [if_neg hp]
      refine weaken (plain _ fun r hr t => ?_)
      rw [ofRow_imsi hG hr]
      exact keys r hr _ _ t (congrArg Reply.reply (getRow_nil hG hr).2.2.2.2.2.1.symm)
  case imsi =>
    exact weaken (plain _ fun r hr t => ⟨_, t, rfl, .inr (.inr (congrArg (fun z => some (Reply.reply z)) (getRow_nil hG hr).1.symm))⟩)
  case msisdn =>
    exact weaken (plain _ fun r hr t => ⟨_, t, rfl, .inr (.inr (congrArg (fun z => some (Reply.reply z)) (getRow_nil hG hr).2.1.symm))⟩)
  case info =>
    exact weaken (plain _ fun r hr t => ⟨_, t, rfl, .inr (.inr (congrArg (fun z => some (Reply.reply z)) (getRow_nil hG hr).2.2.1.symm))⟩)
  case cs => exact weaken (plain _ fun r hr t => ⟨_, t, rfl, .inr (.inr rfl)⟩)
  case ps => exact weaken (plain _ fun r hr t => ⟨_, t, rfl, .inr (.inr rfl)⟩)
  case aud2g =>
    refine weaken (plain _ fun r hr t => ?_)
    rw [ofRow_imsi hG hr]
    exact keys r hr _ _ t (congrArg Reply.reply (getRow_nil hG hr).2.2.2.1.symm)
  case aud3g =>
    refine weaken (plain _ fun r hr t => ?_)
    rw [ofRow_imsi hG hr]
    exact keys r hr _ _ t (congrArg Reply.reply (getRow_nil hG hr).2.2.2.2.1.symm)
  case infoAll =>
    refine weaken (plain _ fun r hr t => ?_)
    rw [ofRow_imsi hG hr]
    exact keys r hr _ _ t (congrArg Reply.reply (getRow_nil hG hr).2.2.2.2.2.2.symm)

/-- A GET about a named subscriber on a working database. -/
theorem get_nil {d : Db} (hG : Good d) {sel : Bytes} {r : SubRow} (hr : r ∈ d.subs) (h : Names sel r)
    (hid : r.id < 2 ^ 63) (x : Var) : exec (get sel x) d [] = (some (.reply (getText d r x)), d) := by
  obtain ⟨c, hc, hf⟩ := selCond_names hG hr h hid
  have keys : ∀ (e : Reply) (k : Option Aud2 → Option Aud3 → Reply) ,
      exec (withSub sel fun s => withKeys s.imsi e k) d []
        = (some (k ((key2 d r.id).bind load2) ((key3 d r.id).bind load3)), d) := by
    intro e k
    rw [withSub_nil hc hf, ofRow_imsi hG hr, withKeys_nil hG hr]
  obtain ⟨g1, g2, g3, g4, g5, g6, g7⟩ := getRow_nil hG hr
  unfold get
  cases x <;> dsimp only
  case infoAud =>
    unfold withImsi
    by_cases hp : startswith sel byImsi = true
    · rw [if_pos hp, names_imsi hp h, withKeys_nil hG hr, g6]
    · rw [if_neg hp, keys, g6]
  case imsi => rw [g1]; exact withSub_nil hc hf _
  case msisdn => rw [g2]; exact withSub_nil hc hf _
  case info => rw [g3]; exact withSub_nil hc hf _
  case cs => exact withSub_nil hc hf _
  case ps => exact withSub_nil hc hf _
  case aud2g => rw [g4]; exact keys _ _
  case aud3g => rw [g5]; exact keys _ _
  case infoAll =>
    rw [g7]
    rw [withSub_nil hc hf, ofRow_imsi hG hr, withKeys_nil hG hr]

end Verif.Prov
