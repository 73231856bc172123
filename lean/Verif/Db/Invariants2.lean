import Verif.Db.Invariants
/-! # Preservation of key and identity well-formedness; frame lemmas -/
namespace Verif.Db
open Verif

theorem isHexStr_spec {lo hi : Nat} {t : Bytes} (h : isHexStr lo hi t = true) :
    lo ≤ t.length ∧ t.length ≤ hi ∧ t.length % 2 = 0 ∧ ∀ c ∈ t, isXDigit c = true := by
  simp only [isHexStr, Bool.and_eq_true, decide_eq_true_eq, List.all_eq_true, beq_iff_eq] at h
  exact ⟨h.1.1.1, h.1.1.2, h.2, h.1.2⟩

theorem isNDigits_spec {lo hi : Nat} {t : Bytes} :
    isNDigits lo hi t = true ↔ Digits lo hi t := by
  simp only [isNDigits, isDigit, Digits, Bool.and_eq_true, decide_eq_true_eq, List.all_eq_true]
  constructor
  · rintro ⟨⟨a, b⟩, c⟩; exact ⟨a, b, c⟩
  · rintro ⟨a, b, c⟩; exact ⟨⟨a, b⟩, c⟩

theorem key2Ok_of_valid {i : Int} {al : Algo} {k : Bytes} (h : aud2Valid al k = true)
    (hn : al ≠ .none) : Key2Ok { id := i, algo := al, ki := k } := by
  cases al <;> simp [aud2Valid] at h hn ⊢ <;>
  · have := isHexStr_spec h
    exact ⟨by simp, by simp only; omega, this.2.2.2⟩

theorem key3Ok_of_valid {i : Int} {al : Algo} {k o : Bytes} {s : Bool} {l : Nat}
    (h : aud3Valid al k o l = true) (hn : al ≠ .none) : Key3Ok (mkAuc3 i al k o s l) := by
  cases al <;> simp [aud3Valid, indBitlenMax] at h hn ⊢ <;>
  · obtain ⟨⟨hk, ho⟩, hl⟩ := h
    have hl : l ≤ 28 := of_decide_eq_true hl
    refine ⟨by simp [mkAuc3], isHexStr_spec hk, hl, ?_⟩
    cases s
    · right; exact ⟨o, rfl, rfl, isHexStr_spec ho⟩
    · left; exact ⟨o, rfl, rfl, isHexStr_spec ho⟩

theorem keysOk_op (op : Op) : Sat (Keeps KeysOk) op.run := by
  refine Sat.op (Keeps.pre _) op ?_
  intro g hg d h
  obtain ⟨h2, h3⟩ := h
  cases hg with
  | create _ => dsimp only [sqlCreate]; split <;> exact ⟨h2, h3⟩
  | del => exact ⟨h2, h3⟩
  | del2 => exact ⟨fun a ha => h2 a (List.mem_filter.mp ha).1, h3⟩
  | del3 => exact ⟨h2, fun a ha => h3 a (List.mem_filter.mp ha).1⟩
  | aud2d => exact ⟨fun a ha => h2 a (List.mem_filter.mp ha).1, h3⟩
  | aud3d => exact ⟨h2, fun a ha => h3 a (List.mem_filter.mp ha).1⟩
  | aud2i hv hn =>
    dsimp only [sqlInsAuc2]
    split
    · exact ⟨h2, h3⟩
    · refine ⟨?_, h3⟩
      intro a ha
      rcases List.mem_append.mp ha with ha | ha
      · exact h2 a ha
      · have := List.mem_singleton.mp ha; subst this; exact key2Ok_of_valid hv hn
  | aud3i hv hn =>
    dsimp only [sqlInsAuc3]
    split
    · exact ⟨h2, h3⟩
    · refine ⟨h2, ?_⟩
      intro a ha
      rcases List.mem_append.mp ha with ha | ha
      · exact h3 a ha
      · have := List.mem_singleton.mp ha; subst this; exact key3Ok_of_valid hv hn
  | msisdn _ => dsimp only [sqlSetMsisdn]; split <;> exact ⟨h2, h3⟩
  | noMsisdn => exact ⟨h2, h3⟩
  | imei _ => exact ⟨h2, h3⟩
  | nam => exact ⟨h2, h3⟩
  | purge => exact ⟨h2, h3⟩
  | lu1 => exact ⟨h2, h3⟩
  | lu2 => exact ⟨h2, h3⟩
  | ind _ => dsimp only [sqlIndAdd]; split <;> exact ⟨h2, h3⟩
  | indDel _ => exact ⟨h2, h3⟩
  | sqn =>
    refine ⟨h2, ?_⟩
    intro a ha
    rcases List.mem_map.mp ha with ⟨x, hx, rfl⟩
    have := h3 x hx
    split
    · exact this
    · exact this

theorem IdentitiesOk.updSub {d : Db} (h : IdentitiesOk d) (c : SubRow → Bool) (f : SubRow → SubRow)
    (h1 : ∀ r, (f r).imsi = r.imsi)
    (h2 : ∀ r m, (f r).msisdn = some m → r.msisdn = some m ∨ Digits 1 15 m)
    (h3 : ∀ r m, (f r).imei = some m → r.imei = some m ∨ Digits 14 14 m) :
    IdentitiesOk (sqlUpdSub c f d).2 := by
  intro r hr
  rcases List.mem_map.mp hr with ⟨x, hx, rfl⟩
  have := h x hx
  split
  · refine ⟨by rw [h1]; exact this.1, fun m hm => ?_, fun m hm => ?_⟩
    · rcases h2 x m hm with h | h
      · exact this.2.1 m h
      · exact h
    · rcases h3 x m hm with h | h
      · exact this.2.2 m h
      · exact h
  · exact this

theorem identitiesOk_op (op : Op) : Sat (Keeps IdentitiesOk) op.run := by
  refine Sat.op (Keeps.pre _) op ?_
  intro g hg d h
  cases hg with
  | create hv =>
    dsimp only [sqlCreate]
    split
    · exact h
    · intro r hr
      rcases List.mem_append.mp hr with hr | hr
      · exact h r hr
      · have := List.mem_singleton.mp hr; subst this
        exact ⟨isNDigits_spec.mp hv, by simp, by simp⟩
  | del => exact fun r hr => h r (List.mem_filter.mp hr).1
  | del2 => exact h
  | del3 => exact h
  | aud2d => exact h
  | aud3d => exact h
  | aud2i _ _ => dsimp only [sqlInsAuc2]; split <;> exact h
  | aud3i _ _ => dsimp only [sqlInsAuc3]; split <;> exact h
  | msisdn hv =>
    dsimp only [sqlSetMsisdn]
    split
    · exact h
    · refine h.updSub _ _ (fun _ => rfl) ?_ (fun _ _ h => Or.inl h)
      intro r m hm
      right
      simp only [Option.some.injEq] at hm
      subst hm; exact isNDigits_spec.mp hv
  | noMsisdn =>
    exact h.updSub _ _ (fun _ => rfl) (fun _ _ hm => by simp at hm) (fun _ _ h => Or.inl h)
  | imei hv =>
    refine h.updSub _ _ (fun _ => rfl) (fun _ _ h => Or.inl h) ?_
    intro r m hm
    right; exact isNDigits_spec.mp (hv m hm)
  | @nam i v p | @purge i v p =>
    cases p <;> exact h.updSub _ _ (fun _ => rfl) (fun _ _ h => Or.inl h) (fun _ _ h => Or.inl h)
  | @lu1 i n p v t | @lu2 i n p v t =>
    cases p <;> exact h.updSub _ _ (fun _ => rfl) (fun _ _ h => Or.inl h) (fun _ _ h => Or.inl h)
  | ind _ => dsimp only [sqlIndAdd]; split <;> exact h
  | indDel _ => exact h
  | sqn => exact h

/-! ## Frame -/

theorem OthersSame.pre (op : Op) : Pre (OthersSame op) :=
  ⟨fun _ => ⟨rfl, rfl, rfl, rfl⟩,
   fun _ _ _ h1 h2 => ⟨h2.1.trans h1.1, h2.2.trans h1.2, h2.3.trans h1.3, h2.4.trans h1.4⟩⟩

theorem filter_not_filter {α} (l : List α) (p : α → Bool) :
    (l.filter (fun a => !p a)).filter (fun a => !p a) = l.filter (fun a => !p a) := by
  simp

theorem othersSame_op (op : Op) : Sat (OthersSame op) op.run := by
  refine Sat.op (OthersSame.pre op) op ?_
  intro g hg d
  cases hg with
  | create hv =>
    dsimp only [sqlCreate]
    split
    · exact ⟨rfl, rfl, rfl, rfl⟩
    · refine ⟨?_, rfl, rfl, rfl⟩
      simp [Op.ownsSub]
  | del => exact ⟨filter_not_filter _ _, rfl, rfl, rfl⟩
  | del2 => exact ⟨rfl, filter_not_filter _ (fun a : Auc2 => a.id == _), rfl, rfl⟩
  | del3 => exact ⟨rfl, rfl, filter_not_filter _ (fun a : Auc3 => a.id == _), rfl⟩
  | aud2d => exact ⟨rfl, filter_not_filter _ (fun a : Auc2 => a.id == _), rfl, rfl⟩
  | aud3d => exact ⟨rfl, rfl, filter_not_filter _ (fun a : Auc3 => a.id == _), rfl⟩
  | aud2i _ _ =>
    dsimp only [sqlInsAuc2]
    split
    · exact ⟨rfl, rfl, rfl, rfl⟩
    · exact ⟨rfl, by simp [Op.ownsKey2], rfl, rfl⟩
  | aud3i _ _ =>
    dsimp only [sqlInsAuc3]
    split
    · exact ⟨rfl, rfl, rfl, rfl⟩
    · exact ⟨rfl, rfl, by simp [Op.ownsKey3, mkAuc3], rfl⟩
  | msisdn hv =>
    dsimp only [sqlSetMsisdn]
    split
    · exact ⟨rfl, rfl, rfl, rfl⟩
    · exact ⟨filter_map_ite _ _ _ (fun _ => rfl), rfl, rfl, rfl⟩
  | noMsisdn => exact ⟨filter_map_ite _ _ _ (fun _ => rfl), rfl, rfl, rfl⟩
  | imei hv => exact ⟨filter_map_ite _ _ _ (fun _ => rfl), rfl, rfl, rfl⟩
  | @nam i v p | @purge i v p =>
    cases p <;> exact ⟨filter_map_ite _ _ _ (fun _ => rfl), rfl, rfl, rfl⟩
  | @lu1 i n p v t | @lu2 i n p v t =>
    cases p <;> exact ⟨filter_map_ite _ _ _ (fun _ => rfl), rfl, rfl, rfl⟩
  | ind _ =>
    dsimp only [sqlIndAdd]
    split
    · exact ⟨rfl, rfl, rfl, rfl⟩
    · exact ⟨rfl, rfl, rfl, by simp [Op.ownsInd]⟩
  | indDel _ => exact ⟨rfl, rfl, rfl, filter_not_filter _ (fun a : IndRow => a.vlr == _)⟩
  | @sqn i q =>
    exact ⟨rfl, rfl, filter_map_ite _ (fun a : Auc3 => a.id == i) (fun r => { r with sqn := q })
      (fun _ => rfl), rfl⟩

end Verif.Db
