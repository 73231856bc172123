import Verif.Db.Refine
/-! # Lemmas about key records, deletion and IND -/
namespace Verif.Db
open Verif

theorem exec_stmt (f : Db → α × Db) (e : α) (d : Db) (s : Script) :
    exec (stmt f e) d s =
      match s with
      | [] => (some (f d).1, (f d).2)
      | .ok :: _ => (some (f d).1, (f d).2)
      | .ioerr :: _ => (some e, d)
      | .crash :: _ => (none, d) := by
  rcases s with _ | ⟨_ | _ | _, s⟩ <;> rfl

/-- Fault-free script. -/
abbrev AllOk (s : Script) : Prop := ∀ f ∈ s, f = Fault.ok

theorem AllOk.cases {s : Script} (h : AllOk s) : s = [] ∨ ∃ t, s = .ok :: t ∧ AllOk t := by
  cases s with
  | nil => left; rfl
  | cons x t =>
    right
    have := h x (by simp)
    subst this
    exact ⟨t, rfl, fun f hf => h f (by simp [hf])⟩

theorem exec_bind_stmt_ok (f : Db → α × Db) (e : α) (g : α → DbM β) (d : Db) (s : Script)
    (h : AllOk s) : ∃ t, AllOk t ∧ exec (stmt f e >>= g) d s = exec (g (f d).1) (f d).2 t := by
  rcases h.cases with rfl | ⟨t, rfl, ht⟩
  · exact ⟨[], h, exec_bind_stmt ..⟩
  · exact ⟨t, ht, exec_bind_stmt ..⟩

/-- Sequencing two programs. -/
theorem bind_run {α β : Type} (m : DbM α) (g : α → DbM β) (w : World) :
    (m >>= g) w = match m w with
      | (some a, w') => g a w'
      | (none, w') => (none, w') := rfl

/-! ## Removing keys -/

theorem delAuc2_count (d : Db) (hU : Unique d) (id : Int) :
    (sqlDelAuc2 id d).1 = .done 0 ∨ (sqlDelAuc2 id d).1 = .done 1 := by
  have := countP_le_one_of_nodup d.auc2 (·.id) id hU.keys2
  simp only [sqlDelAuc2]
  rcases hc : d.auc2.countP (·.id == id) with _ | _ | k
  · left; rw [hc]
  · right; rw [hc]
  · omega

theorem delAuc3_count (d : Db) (hU : Unique d) (id : Int) :
    (sqlDelAuc3 id d).1 = .done 0 ∨ (sqlDelAuc3 id d).1 = .done 1 := by
  have := countP_le_one_of_nodup d.auc3 (·.id) id hU.keys3
  simp only [sqlDelAuc3]
  rcases hc : d.auc3.countP (·.id == id) with _ | _ | k
  · left; rw [hc]
  · right; rw [hc]
  · omega

theorem run_audNone2 (w : World) (h : AllOk w.script) (id : Int) :
    ∃ rc t, AllOk t ∧ updateAud id (.gsm .none []) w
      = (some rc, { db := (sqlDelAuc2 id w.db).2, script := t }) := by
  obtain ⟨d, s⟩ := w
  have key : ∀ t : Script, ∃ rc : Int,
      (match audAfterDelete true (sqlDelAuc2 id d).1 with
        | .inl rc => (pure rc : DbM Int)
        | .inr () => do
          pure (audAfterInsert (← stmt (sqlInsAuc2 { id := id, algo := .none, ki := [] }) .error)))
        { db := (sqlDelAuc2 id d).2, script := t }
      = (some rc, { db := (sqlDelAuc2 id d).2, script := t }) := by
    intro t
    rcases (sqlDelAuc2 id d).1 with n | _ | _
    · rcases n with _ | _ | n <;> exact ⟨_, rfl⟩
    · exact ⟨_, rfl⟩
    · exact ⟨_, rfl⟩
  rcases AllOk.cases h with hs | ⟨t, hs, ht⟩
  · simp only at hs; subst hs
    obtain ⟨rc, hrc⟩ := key []
    exact ⟨rc, [], h, hrc⟩
  · simp only at hs; subst hs
    obtain ⟨rc, hrc⟩ := key t
    exact ⟨rc, t, ht, hrc⟩

theorem run_audNone3 (w : World) (h : AllOk w.script) (id : Int) :
    ∃ rc t, AllOk t ∧ updateAud id (.umts .none [] [] false 0) w
      = (some rc, { db := (sqlDelAuc3 id w.db).2, script := t }) := by
  obtain ⟨d, s⟩ := w
  have key : ∀ t : Script, ∃ rc : Int,
      (match audAfterDelete true (sqlDelAuc3 id d).1 with
        | .inl rc => (pure rc : DbM Int)
        | .inr () => do
          pure (audAfterInsert (← stmt (sqlInsAuc3 (mkAuc3 id .none [] [] false 0)) .error)))
        { db := (sqlDelAuc3 id d).2, script := t }
      = (some rc, { db := (sqlDelAuc3 id d).2, script := t }) := by
    intro t
    rcases (sqlDelAuc3 id d).1 with n | _ | _
    · rcases n with _ | _ | n <;> exact ⟨_, rfl⟩
    · exact ⟨_, rfl⟩
    · exact ⟨_, rfl⟩
  rcases AllOk.cases h with hs | ⟨t, hs, ht⟩
  · simp only at hs; subst hs
    obtain ⟨rc, hrc⟩ := key []
    exact ⟨rc, [], h, hrc⟩
  · simp only at hs; subst hs
    obtain ⟨rc, hrc⟩ := key t
    exact ⟨rc, t, ht, hrc⟩

/-- A fault-free delete removes the subscriber row and both key rows. -/
theorem exec_delete_ok (d : Db) (s : Script) (h : AllOk s) (id : Int) :
    ∃ rc, exec (subscrDelete id) d s =
      (some rc, { d with subs := d.subs.filter (·.id != id)
                         auc2 := d.auc2.filter (·.id != id)
                         auc3 := d.auc3.filter (·.id != id) }) := by
  obtain ⟨t, ht, h1⟩ := exec_bind_stmt_ok (sqlDelById id) .error (fun a => match a with
    | .error => pure (-EIO)
    | .unique => pure (-EIO)
    | .done n => (do
      let ret : Int := if n = 0 then -ENOENT else if n = 1 then 0 else -EIO
      let rc2 ← updateAud id (.gsm .none [])
      let ret := if ret == -ENOENT && rc2 == 0 then 0 else ret
      let rc3 ← updateAud id (.umts .none [] [] false 0)
      let ret := if ret == -ENOENT && rc3 == 0 then 0 else ret
      pure ret : DbM Int)) d s h
  have h1' : exec (subscrDelete id) d s = _ := h1
  rw [h1']
  simp only [sqlDelById, exec, bind_run]
  obtain ⟨rc2, t2, ht2, h2⟩ := run_audNone2
    { db := { d with subs := d.subs.filter (·.id != id) }, script := t } ht id
  rw [h2]
  simp only
  obtain ⟨rc3, t3, ht3, h3⟩ := run_audNone3
    { db := (sqlDelAuc2 id { d with subs := d.subs.filter (·.id != id) }).2, script := t2 } ht2 id
  rw [h3]
  exact ⟨_, rfl⟩

/-! ## Replacing keys -/

theorem sqlInsAuc2_fresh (a : Auc2) (d : Db) :
    sqlInsAuc2 a (sqlDelAuc2 a.id d).2
      = (.done 1, { d with auc2 := d.auc2.filter (·.id != a.id) ++ [a] }) := by
  simp [sqlInsAuc2, sqlDelAuc2]

theorem sqlInsAuc3_fresh (a : Auc3) (d : Db) :
    sqlInsAuc3 a (sqlDelAuc3 a.id d).2
      = (.done 1, { d with auc3 := d.auc3.filter (·.id != a.id) ++ [a] }) := by
  simp [sqlInsAuc3, sqlDelAuc3]

/-- All results of replacing 2G keys. -/
theorem exec_aud2 (d : Db) (hU : Unique d) (s : Script) (id : Int) (al : Algo) (k : Bytes)
    (hv : aud2Valid al k = true) (hn : al ≠ .none) :
    let D1 := (sqlDelAuc2 id d).2
    let res := exec (updateAud id (.gsm al k)) d s
    (firstFate s = .crash ∧ res = (none, d))
    ∨ (firstFate s = .ioerr ∧ res = (some (-EIO), d))
    ∨ (firstFate s = .ok ∧ firstFate s.tail = .crash ∧ res = (none, D1))
    ∨ (firstFate s = .ok ∧ firstFate s.tail = .ioerr ∧ res = (some (-EIO), D1))
    ∨ (firstFate s = .ok ∧ firstFate s.tail = .ok ∧
        res = (some 0, { d with auc2 := d.auc2.filter (·.id != id)
                                  ++ [{ id := id, algo := al, ki := k }] })) := by
  intro D1 res
  have hal : (al == Algo.none) = false := by simp [hn]
  have hins := sqlInsAuc2_fresh { id := id, algo := al, ki := k } d
  have tail : ∀ t, exec (match audAfterDelete (al == .none) (sqlDelAuc2 id d).1 with
      | .inl rc => (pure rc : DbM Int)
      | .inr () => do
        pure (audAfterInsert (← stmt (sqlInsAuc2 { id := id, algo := al, ki := k }) .error))) D1 t
      = match t with
        | [] => (some 0, { d with auc2 := d.auc2.filter (·.id != id)
                                  ++ [{ id := id, algo := al, ki := k }] })
        | .ok :: _ => (some 0, { d with auc2 := d.auc2.filter (·.id != id)
                                  ++ [{ id := id, algo := al, ki := k }] })
        | .ioerr :: _ => (some (-EIO), D1)
        | .crash :: _ => (none, D1) := by
    intro t
    have : audAfterDelete (al == .none) (sqlDelAuc2 id d).1 = .inr () := by
      rw [hal]
      rcases delAuc2_count d hU id with h | h <;> rw [h] <;> rfl
    rw [this]
    simp only [exec_bind_stmt]
    rcases t with _ | ⟨_ | _ | _, t⟩
    · simp only [exec_pure, D1, hins]; rfl
    · simp only [exec_pure, D1, hins]; rfl
    · rfl
    · rfl
  have hrun : res = exec (stmt (sqlDelAuc2 id) .error >>= fun a =>
      match audAfterDelete (al == .none) a with
      | .inl rc => (pure rc : DbM Int)
      | .inr () => do
        pure (audAfterInsert (← stmt (sqlInsAuc2 { id := id, algo := al, ki := k }) .error))) d s := by
    simp only [res, updateAud, hv]; rfl
  rw [exec_bind_stmt] at hrun
  rcases s with _ | ⟨_ | _ | _, s⟩
  · right; right; right; right
    exact ⟨rfl, rfl, hrun.trans (tail [])⟩
  · right; right
    have hr := hrun.trans (tail s)
    rcases s with _ | ⟨_ | _ | _, s⟩
    · right; right; exact ⟨rfl, rfl, hr⟩
    · right; right; exact ⟨rfl, rfl, hr⟩
    · right; left; exact ⟨rfl, rfl, hr⟩
    · left; exact ⟨rfl, rfl, hr⟩
  · right; left; refine ⟨rfl, hrun⟩
  · left; exact ⟨rfl, hrun⟩

/-- All results of replacing 3G keys. -/
theorem exec_aud3 (d : Db) (hU : Unique d) (s : Script) (id : Int) (al : Algo) (k o : Bytes)
    (isOp : Bool) (bl : Nat) (hv : aud3Valid al k o bl = true) (hn : al ≠ .none) :
    let D1 := (sqlDelAuc3 id d).2
    let res := exec (updateAud id (.umts al k o isOp bl)) d s
    (firstFate s = .crash ∧ res = (none, d))
    ∨ (firstFate s = .ioerr ∧ res = (some (-EIO), d))
    ∨ (firstFate s = .ok ∧ firstFate s.tail = .crash ∧ res = (none, D1))
    ∨ (firstFate s = .ok ∧ firstFate s.tail = .ioerr ∧ res = (some (-EIO), D1))
    ∨ (firstFate s = .ok ∧ firstFate s.tail = .ok ∧
        res = (some 0, { d with auc3 := d.auc3.filter (·.id != id)
                                  ++ [mkAuc3 id al k o isOp bl] })) := by
  intro D1 res
  have hal : (al == Algo.none) = false := by simp [hn]
  have hins := sqlInsAuc3_fresh (mkAuc3 id al k o isOp bl) d
  have tail : ∀ t, exec (match audAfterDelete (al == .none) (sqlDelAuc3 id d).1 with
      | .inl rc => (pure rc : DbM Int)
      | .inr () => do
        pure (audAfterInsert (← stmt (sqlInsAuc3 (mkAuc3 id al k o isOp bl)) .error))) D1 t
      = match t with
        | [] => (some 0, { d with auc3 := d.auc3.filter (·.id != id)
                                  ++ [mkAuc3 id al k o isOp bl] })
        | .ok :: _ => (some 0, { d with auc3 := d.auc3.filter (·.id != id)
                                  ++ [mkAuc3 id al k o isOp bl] })
        | .ioerr :: _ => (some (-EIO), D1)
        | .crash :: _ => (none, D1) := by
    intro t
    have : audAfterDelete (al == .none) (sqlDelAuc3 id d).1 = .inr () := by
      rw [hal]
      rcases delAuc3_count d hU id with h | h <;> rw [h] <;> rfl
    rw [this]
    simp only [exec_bind_stmt]
    have hid : (mkAuc3 id al k o isOp bl).id = id := rfl
    rw [hid] at hins
    rcases t with _ | ⟨_ | _ | _, t⟩
    · simp only [exec_pure, D1, hins]; rfl
    · simp only [exec_pure, D1, hins]; rfl
    · rfl
    · rfl
  have hrun : res = exec (stmt (sqlDelAuc3 id) .error >>= fun a =>
      match audAfterDelete (al == .none) a with
      | .inl rc => (pure rc : DbM Int)
      | .inr () => do
        pure (audAfterInsert (← stmt (sqlInsAuc3 (mkAuc3 id al k o isOp bl)) .error))) d s := by
    simp only [res, updateAud, hv]; rfl
  rw [exec_bind_stmt] at hrun
  rcases s with _ | ⟨_ | _ | _, s⟩
  · right; right; right; right
    exact ⟨rfl, rfl, hrun.trans (tail [])⟩
  · right; right
    have hr := hrun.trans (tail s)
    rcases s with _ | ⟨_ | _ | _, s⟩
    · right; right; exact ⟨rfl, rfl, hr⟩
    · right; right; exact ⟨rfl, rfl, hr⟩
    · right; left; exact ⟨rfl, rfl, hr⟩
    · left; exact ⟨rfl, rfl, hr⟩
  · right; left; refine ⟨rfl, hrun⟩
  · left; exact ⟨rfl, hrun⟩

theorem key2_filter (d : Db) (id : Int) : key2 (sqlDelAuc2 id d).2 id = none := by
  simp [key2, sqlDelAuc2]

theorem key3_filter (d : Db) (id : Int) : key3 (sqlDelAuc3 id d).2 id = none := by
  simp [key3, sqlDelAuc3]

theorem key2_new (d : Db) (a : Auc2) :
    key2 { d with auc2 := d.auc2.filter (·.id != a.id) ++ [a] } a.id = some a := by
  have h : List.find? (fun x => x.id == a.id) (d.auc2.filter (·.id != a.id)) = none := by
    simp
  simp [key2, List.find?_append, h]

theorem key3_new (d : Db) (a : Auc3) :
    key3 { d with auc3 := d.auc3.filter (·.id != a.id) ++ [a] } a.id = some a := by
  have h : List.find? (fun x => x.id == a.id) (d.auc3.filter (·.id != a.id)) = none := by
    simp
  simp [key3, List.find?_append, h]

/-! ## Validation -/

theorem isHexStr_iff (lo hi : Nat) (t : Bytes) : isHexStr lo hi t = true ↔
    lo ≤ t.length ∧ t.length ≤ hi ∧ t.length % 2 = 0 ∧ ∀ c ∈ t, isXDigit c = true := by
  constructor
  · exact isHexStr_spec
  · rintro ⟨h1, h2, h3, h4⟩
    simp only [isHexStr, Bool.and_eq_true, decide_eq_true_eq, List.all_eq_true, beq_iff_eq]
    exact ⟨⟨⟨h1, h2⟩, h4⟩, h3⟩

theorem aud2Valid_iff (al : Algo) (k : Bytes) : aud2Valid al k = true ↔ KeyReqOk (.gsm al k) := by
  cases al <;> simp [aud2Valid, KeyReqOk, Key2Ok, isHexStr_iff]
  all_goals
    constructor
    · rintro ⟨h1, h2, h3, h4⟩; exact ⟨by omega, h4⟩
    · rintro ⟨h1, h4⟩; exact ⟨by omega, by omega, by omega, h4⟩

theorem aud3Valid_iff (al : Algo) (k o : Bytes) (p : Bool) (bl : Nat) :
    aud3Valid al k o bl = true ↔ KeyReqOk (.umts al k o p bl) := by
  cases al <;> simp [aud3Valid, KeyReqOk, Hex32to64, isHexStr_iff, indBitlenMax]
  all_goals
    constructor
    · rintro ⟨⟨h1, h2⟩, h3⟩; exact ⟨h1, h2, of_decide_eq_true h3⟩
    · rintro ⟨h1, h2, h3⟩; exact ⟨⟨h1, h2⟩, decide_eq_true h3⟩

/-! ## Orphans -/

theorem keySubs_mono {d d' : Db} (h : NoOrphanKeys d)
    (hs : ∀ r ∈ d.subs, ∃ r' ∈ d'.subs, r'.id = r.id)
    (h2 : ∀ a ∈ d'.auc2, a ∈ d.auc2 ∨ ∃ r ∈ d'.subs, r.id = a.id)
    (h3 : ∀ a ∈ d'.auc3, (∃ a' ∈ d.auc3, a'.id = a.id) ∨ ∃ r ∈ d'.subs, r.id = a.id) :
    NoOrphanKeys d' := by
  constructor
  · intro a ha
    rcases h2 a ha with h' | h'
    · obtain ⟨r, hr, hid⟩ := h.1 a h'
      obtain ⟨r', hr', hid'⟩ := hs r hr
      exact ⟨r', hr', hid'.trans hid⟩
    · exact h'
  · intro a ha
    rcases h3 a ha with ⟨a', ha', hid''⟩ | h'
    · obtain ⟨r, hr, hid⟩ := h.2 a' ha'
      obtain ⟨r', hr', hid'⟩ := hs r hr
      exact ⟨r', hr', hid'.trans (hid.trans hid'')⟩
    · exact h'

theorem orphan_updSub {d : Db} (h : NoOrphanKeys d) (c : SubRow → Bool) (f : SubRow → SubRow)
    (hf : ∀ r, (f r).id = r.id) : NoOrphanKeys (sqlUpdSub c f d).2 := by
  refine keySubs_mono h ?_ (fun a ha => .inl ha) (fun a ha => .inl ⟨a, ha, rfl⟩)
  intro r hr
  refine ⟨_, List.mem_map_of_mem (f := fun r => if c r = true then f r else r) hr, ?_⟩
  split
  · exact hf r
  · rfl

/-- The invariant of the restricted C06: keys without owner do not appear, given
that keys are provisioned for subscriber `id` only if `P`. -/
def KeepsSubOrphan (id : Option Int) (d d' : Db) : Prop :=
  (∀ i, id = some i → ∃ r ∈ d.subs, r.id = i) → NoOrphanKeys d →
    NoOrphanKeys d' ∧ (∀ i, id = some i → ∃ r ∈ d'.subs, r.id = i)

theorem KeepsSubOrphan.pre (id : Option Int) : Pre (KeepsSubOrphan id) :=
  ⟨fun _ h1 h2 => ⟨h2, h1⟩, fun _ _ _ h1 h2 hp hn => by
    have := h1 hp hn
    exact h2 this.2 this.1⟩

/-- The subscriber keys are provisioned for. -/
def Op.audId : Op → Option Int
  | .aud id _ => some id
  | _ => none

theorem orphan_op (op : Op) (hnd : ∀ i, op ≠ .delete i) : Sat (KeepsSubOrphan op.audId) op.run := by
  refine Sat.op (KeepsSubOrphan.pre _) op ?_
  intro g hg d hp h
  cases hg with
  | create hv =>
    refine ⟨?_, by simp [Op.audId]⟩
    dsimp only [sqlCreate]
    split
    · exact h
    · exact keySubs_mono h (fun r hr => ⟨r, by simp [hr], rfl⟩) (fun a ha => .inl ha)
        (fun a ha => .inl ⟨a, ha, rfl⟩)
  | del => exact absurd rfl (hnd _)
  | del2 => exact absurd rfl (hnd _)
  | del3 => exact absurd rfl (hnd _)
  | aud2d =>
    exact ⟨keySubs_mono h (fun r hr => ⟨r, hr, rfl⟩) (fun a ha => .inl (List.mem_filter.mp ha).1)
      (fun a ha => .inl ⟨a, ha, rfl⟩), hp⟩
  | aud3d =>
    exact ⟨keySubs_mono h (fun r hr => ⟨r, hr, rfl⟩) (fun a ha => .inl ha)
      (fun a ha => .inl ⟨a, (List.mem_filter.mp ha).1, rfl⟩), hp⟩
  | aud2i _ _ =>
    dsimp only [sqlInsAuc2]
    split
    · exact ⟨h, hp⟩
    · refine ⟨keySubs_mono h (fun r hr => ⟨r, hr, rfl⟩) ?_ (fun a ha => .inl ⟨a, ha, rfl⟩), hp⟩
      intro a ha
      rcases List.mem_append.mp ha with ha | ha
      · exact .inl ha
      · right
        have := List.mem_singleton.mp ha
        subst this
        exact hp _ rfl
  | aud3i _ _ =>
    dsimp only [sqlInsAuc3]
    split
    · exact ⟨h, hp⟩
    · refine ⟨keySubs_mono h (fun r hr => ⟨r, hr, rfl⟩) (fun a ha => .inl ha) ?_, hp⟩
      intro a ha
      rcases List.mem_append.mp ha with ha | ha
      · exact .inl ⟨a, ha, rfl⟩
      · right
        have := List.mem_singleton.mp ha
        subst this
        exact hp _ rfl
  | msisdn hv =>
    refine ⟨?_, by simp [Op.audId]⟩
    dsimp only [sqlSetMsisdn]
    split
    · exact h
    · exact orphan_updSub h _ _ (fun _ => rfl)
  | noMsisdn => exact ⟨orphan_updSub h _ _ (fun _ => rfl), by simp [Op.audId]⟩
  | imei hv => exact ⟨orphan_updSub h _ _ (fun _ => rfl), by simp [Op.audId]⟩
  | @nam i v p | @purge i v p =>
    refine ⟨?_, by simp [Op.audId]⟩
    cases p <;> exact orphan_updSub h _ _ (fun _ => rfl)
  | @lu1 i n p v t | @lu2 i n p v t =>
    refine ⟨?_, by simp [Op.audId]⟩
    cases p <;> exact orphan_updSub h _ _ (fun _ => rfl)
  | ind _ =>
    refine ⟨?_, by simp [Op.audId]⟩
    dsimp only [sqlIndAdd]
    split
    · exact h
    · exact h
  | indDel _ => exact ⟨h, by simp [Op.audId]⟩
  | @sqn i q =>
    refine ⟨keySubs_mono h (fun r hr => ⟨r, hr, rfl⟩) (fun a ha => .inl ha) ?_, by simp [Op.audId]⟩
    intro a ha
    left
    obtain ⟨x, hx, rfl⟩ := List.mem_map.mp ha
    refine ⟨x, hx, ?_⟩
    split <;> rfl

theorem cleanHist_noOrphan (hist : List (Op × Script)) (d : Db) (h : NoOrphanKeys d)
    (hc : CleanHist d hist) : NoOrphanKeys (runHist d hist) := by
  induction hist generalizing d with
  | nil => exact h
  | cons x rest ih =>
    obtain ⟨op, s⟩ := x
    refine ih _ ?_ hc.2
    have hc1 := hc.1
    by_cases hd : ∃ i, op = .delete i
    · obtain ⟨i, rfl⟩ := hd
      obtain ⟨rc, he⟩ := exec_delete_ok d s hc1 i
      simp only [Op.run, he]
      constructor
      · intro a ha
        have ha' := List.mem_filter.mp ha
        obtain ⟨r, hr, hid⟩ := h.1 a ha'.1
        refine ⟨r, List.mem_filter.mpr ⟨hr, ?_⟩, hid⟩
        rw [hid]; exact ha'.2
      · intro a ha
        have ha' := List.mem_filter.mp ha
        obtain ⟨r, hr, hid⟩ := h.2 a ha'.1
        refine ⟨r, List.mem_filter.mpr ⟨hr, ?_⟩, hid⟩
        rw [hid]; exact ha'.2
    · have hnd : ∀ i, op ≠ .delete i := fun i hi => hd ⟨i, hi⟩
      have := (orphan_op op hnd).exec d s ?_ h
      · exact this.1
      · intro i hi
        cases op <;> simp [Op.audId] at hi
        subst hi; exact hc1

/-! ## IND -/

def KeepsInd (name : Bytes) (i : Nat) (d d' : Db) : Prop :=
  indOf d name = some i → indOf d' name = some i

theorem keepsInd_op (op : Op) (name : Bytes) (i : Nat)
    (hnd : ∀ raw, op = .indDel raw → cstr raw ≠ name) : Sat (KeepsInd name i) op.run := by
  refine Sat.op ⟨fun _ h => h, fun _ _ _ h1 h2 h => h2 (h1 h)⟩ op ?_
  intro g hg d h
  cases hg with
  | create hv => dsimp only [sqlCreate]; split <;> exact h
  | del => exact h
  | del2 => exact h
  | del3 => exact h
  | aud2d => exact h
  | aud3d => exact h
  | aud2i _ _ => dsimp only [sqlInsAuc2]; split <;> exact h
  | aud3i _ _ => dsimp only [sqlInsAuc3]; split <;> exact h
  | msisdn _ => dsimp only [sqlSetMsisdn]; split <;> exact h
  | noMsisdn => exact h
  | imei _ => exact h
  | nam => exact h
  | purge => exact h
  | lu1 => exact h
  | lu2 => exact h
  | ind _ =>
    dsimp only [sqlIndAdd]
    split
    · exact h
    · unfold indOf at h ⊢
      simp only [List.find?_append]
      cases hf : List.find? (fun r => r.vlr == name) d.inds with
      | none => rw [hf] at h; simp at h
      | some x => rw [hf] at h; simpa using h
  | @indDel raw _ =>
    have hne := hnd raw rfl
    unfold indOf at h ⊢
    simp only [sqlIndDel]
    rw [List.find?_filter]
    have : (fun a : IndRow => decide ((a.vlr != cstr raw) = true ∧ (a.vlr == name) = true))
        = fun a => a.vlr == name := by
      funext a
      by_cases ha : a.vlr = name
      · simp [ha, hne.symm]
      · simp [ha]
    rw [this]; exact h
  | sqn => exact h

theorem indGet_run (name : Bytes) (w : World) : ∃ t,
    (indGet name w = (none, { db := w.db, script := t }))
    ∨ (indGet name w = (some (-EIO, 0), { db := w.db, script := t }))
    ∨ (firstFate w.script = .ok ∧ t = w.script.tail ∧
        indGet name w = (some (match indOf w.db name with
          | some i => (0, i)
          | none => (-ENOENT, 0)), { db := w.db, script := t })) := by
  obtain ⟨d, s⟩ := w
  have ok : ∀ t : Script, (match (sqlIndSel name d).1 with
        | .row i => (pure (0, i) : DbM (Int × Nat)) | .done => pure (-ENOENT, 0)
        | .error => pure (-EIO, 0)) { db := d, script := t } = (some (match indOf d name with
          | some i => (0, i)
          | none => (-ENOENT, 0)), { db := d, script := t }) := by
    intro t
    simp only [sqlIndSel, indOf]
    cases hf : List.find? (fun r => r.vlr == name) d.inds with
    | none => rfl
    | some x => rfl
  rcases s with _ | ⟨_ | _ | _, s⟩
  · exact ⟨[], .inr (.inr ⟨rfl, rfl, ok []⟩)⟩
  · exact ⟨s, .inr (.inr ⟨rfl, rfl, ok s⟩)⟩
  · exact ⟨s, .inr (.inl rfl)⟩
  · exact ⟨s, .inl rfl⟩

theorem indOf_add_fresh {d : Db} {name : Bytes} (h : indOf d name = none) :
    (sqlIndAdd name d).1 = .done 1 ∧ ∃ i, indOf (sqlIndAdd name d).2 name = some i := by
  have hf : List.find? (fun r => r.vlr == name) d.inds = none := by
    unfold indOf at h
    cases hf : List.find? (fun r => r.vlr == name) d.inds with
    | none => rfl
    | some x => rw [hf] at h; simp at h
  have : d.inds.any (·.vlr == name) = false := by
    rw [List.any_eq_false]
    exact List.find?_eq_none.mp hf
  simp only [sqlIndAdd, this, Bool.false_eq_true, if_false, true_and]
  refine ⟨d.inds.map (·.ind) |>.foldl max 0 |> (· + 1), ?_⟩
  simp [indOf, List.find?_append, hf]

theorem indOf_add_used {d : Db} {name : Bytes} (h : indOf d name ≠ none) :
    sqlIndAdd name d = (.unique, d) := by
  have : d.inds.any (·.vlr == name) = true := by
    rw [List.any_eq_true]
    unfold indOf at h
    cases hf : List.find? (fun r => r.vlr == name) d.inds with
    | none => rw [hf] at h; simp at h
    | some x => exact ⟨x, List.mem_of_find?_eq_some hf, by have := List.find?_some hf; exact this⟩
  simp only [sqlIndAdd, this, if_true]

theorem indGet_success {name : Bytes} {w w' : World} {i : Nat}
    (h : indGet name w = (some (0, i), w')) : indOf w.db name = some i ∧ w'.db = w.db := by
  obtain ⟨t, h1 | h1 | ⟨_, _, h1⟩⟩ := indGet_run name w
  · rw [h1] at h; simp at h
  · rw [h1] at h; simp at h
  · rw [h1] at h
    cases hi : indOf w.db name with
    | none => rw [hi] at h; simp at h
    | some j =>
      rw [hi] at h
      simp only [Prod.mk.injEq, Option.some.injEq, true_and] at h
      exact ⟨by rw [h.1], by rw [← h.2]⟩

/-- The second half of `db_ind` (db_hlr.c 1056-1077). -/
def indAddGet (name : Bytes) : DbM (Int × Nat) := do
  match ← stmt (sqlIndAdd name) .error with
  | .done _ => indGet name
  | .unique => pure (-EIO, 0)
  | .error => pure (-EIO, 0)

theorem dbInd_eq (raw : Bytes) (h : indNameOk raw = true) :
    dbInd raw = (indGet (cstr raw) >>= fun r =>
      if r.1 = 0 then pure r else indAddGet (cstr raw)) := by
  unfold dbInd
  simp only [h, Bool.not_true, Bool.false_eq_true, if_false]
  rfl

theorem indAddGet_success {name : Bytes} {w w' : World} {i : Nat}
    (h : indAddGet name w = (some (0, i), w')) :
    indOf w.db name = none ∧ indOf w'.db name = some i := by
  obtain ⟨d, s⟩ := w
  have ok : ∀ t : Script, (match (sqlIndAdd name d).1 with
      | .done _ => indGet name
      | .unique => (pure (-EIO, 0) : DbM (Int × Nat))
      | .error => pure (-EIO, 0)) { db := (sqlIndAdd name d).2, script := t } = (some (0, i), w') →
      indOf d name = none ∧ indOf w'.db name = some i := by
    intro t h
    by_cases hn : indOf d name = none
    · refine ⟨hn, ?_⟩
      rw [(indOf_add_fresh hn).1] at h
      have := indGet_success h
      rw [this.2]; exact this.1
    · rw [indOf_add_used hn] at h
      have h' : (some ((-EIO : Int), 0), _) = (some ((0 : Int), i), w') := h
      simp at h'
  have bad : ∀ w1, ((pure (-EIO, 0) : DbM (Int × Nat)) w1) ≠ (some (0, i), w') := by
    intro w1 h
    have h' : (some ((-EIO : Int), 0), w1) = (some ((0 : Int), i), w') := h
    simp at h'
  rcases s with _ | ⟨_ | _ | _, s⟩
  · exact ok [] h
  · exact ok s h
  · exact absurd h (bad _)
  · have h' : (none, _) = (some ((0 : Int), i), w') := h
    simp at h'

/-- A successful `db_ind`. -/
theorem dbInd_success {raw : Bytes} {d d' : Db} {s : Script} {i : Nat}
    (h : exec (dbInd raw) d s = (some (0, i), d')) :
    indNameOk raw = true ∧ indOf d' (cstr raw) = some i
      ∧ (indOf d (cstr raw) = some i ∧ d' = d ∨ indOf d (cstr raw) = none) := by
  by_cases hv : indNameOk raw = true
  · refine ⟨hv, ?_⟩
    rw [dbInd_eq raw hv] at h
    simp only [exec, bind_run, Prod.mk.injEq] at h
    obtain ⟨t, h1 | h1 | ⟨_, _, h1⟩⟩ := indGet_run (cstr raw) { db := d, script := s }
    · rw [h1] at h; simp at h
    · rw [h1] at h
      simp only at h
      rw [if_neg (by decide)] at h
      have := indAddGet_success (Prod.ext h.1 rfl)
      rw [h.2] at this
      exact ⟨this.2, .inr this.1⟩
    · rw [h1] at h
      cases hi : indOf d (cstr raw) with
      | none =>
        simp only [hi] at h
        rw [if_neg (by decide)] at h
        have := indAddGet_success (Prod.ext h.1 rfl)
        rw [h.2] at this
        exact ⟨this.2, .inr rfl⟩
      | some j =>
        simp only [hi, if_true] at h
        have hj : j = i := by
          have h' : some ((0 : Int), j) = some (0, i) := h.1
          simpa using h'
        have hd : d = d' := h.2
        subst hj hd
        exact ⟨hi, .inl ⟨rfl, rfl⟩⟩
  · unfold dbInd at h
    simp [hv, exec_pure] at h

/-- Without database failures every acceptable name gets an index. -/
theorem dbInd_ok (raw : Bytes) (d : Db) (s : Script) (hs : AllOk s) (hv : indNameOk raw = true) :
    ∃ i d', exec (dbInd raw) d s = (some (0, i), d') := by
  have get : ∀ w : World, AllOk w.script → ∃ t, AllOk t ∧ indGet (cstr raw) w
      = (some (match indOf w.db (cstr raw) with
          | some i => (0, i)
          | none => (-ENOENT, 0)), { db := w.db, script := t }) := by
    intro w hw
    obtain ⟨d, s⟩ := w
    have ok : ∀ t : Script, (match (sqlIndSel (cstr raw) d).1 with
        | .row i => (pure (0, i) : DbM (Int × Nat)) | .done => pure (-ENOENT, 0)
        | .error => pure (-EIO, 0)) { db := d, script := t } = (some (match indOf d (cstr raw) with
          | some i => (0, i)
          | none => (-ENOENT, 0)), { db := d, script := t }) := by
      intro t
      simp only [sqlIndSel, indOf]
      cases hf : List.find? (fun r => r.vlr == (cstr raw)) d.inds with
      | none => rfl
      | some x => rfl
    rcases hw.cases with hs | ⟨t, hs, ht⟩
    · simp only at hs; subst hs; exact ⟨[], hw, ok []⟩
    · simp only at hs; subst hs; exact ⟨t, ht, ok t⟩
  rw [dbInd_eq raw hv]
  simp only [exec, bind_run]
  obtain ⟨t, ht, h1⟩ := get { db := d, script := s } hs
  rw [h1]
  cases hi : indOf d (cstr raw) with
  | some j => exact ⟨j, d, rfl⟩
  | none =>
    simp only
    rw [if_neg (by decide)]
    obtain ⟨ha, j, hj⟩ := indOf_add_fresh hi
    have ok : ∀ t', AllOk t' → ∃ i d', (((match (sqlIndAdd (cstr raw) d).1 with
      | .done _ => indGet (cstr raw)
      | .unique => (pure (-EIO, 0) : DbM (Int × Nat))
      | .error => pure (-EIO, 0)) { db := (sqlIndAdd (cstr raw) d).2, script := t' }).1,
      ((match (sqlIndAdd (cstr raw) d).1 with
      | .done _ => indGet (cstr raw)
      | .unique => (pure (-EIO, 0) : DbM (Int × Nat))
      | .error => pure (-EIO, 0)) { db := (sqlIndAdd (cstr raw) d).2, script := t' }).2.db)
        = (some ((0 : Int), i), d') := by
      intro t' ht'
      rw [ha]
      obtain ⟨t2, _, h2⟩ := get { db := (sqlIndAdd (cstr raw) d).2, script := t' } ht'
      simp only [h2, hj]
      exact ⟨j, _, rfl⟩
    rcases ht.cases with rfl | ⟨t', rfl, ht'⟩
    · exact ok [] ht
    · exact ok t' ht'

end Verif.Db
