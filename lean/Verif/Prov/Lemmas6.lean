import Verif.Prov.Lemmas5
/-! # Lemmas on the provisioning commands: deletion and keys under faults -/
namespace Verif.Prov
open Verif Verif.Db Verif.Auc Verif.Mslookup Verif.Mslookup.Mdns

theorem exec_then {α β : Type} (m : DbM α) (g : α → β) (d : Db) (sc : Script) :
    exec (do let a ← m; pure (g a)) d sc = ((exec m d sc).1.map g, (exec m d sc).2) := by
  unfold exec
  simp only [bind_run]
  rcases m { db := d, script := sc } with ⟨_ | a, w⟩ <;> rfl

/-- A lookup followed by more. -/
theorem exec_sel {α : Type} (c : SubRow → Bool) (k : Int × Option SubRow → DbM α) (d : Db) (sc : Script) :
    (exec (dbSel c >>= k) d sc = (none, d))
    ∨ exec (dbSel c >>= k) d sc = exec (k (-EIO, none)) d sc.tail
    ∨ (d.subs.find? c = none ∧ exec (dbSel c >>= k) d sc = exec (k (-ENOENT, none)) d sc.tail)
    ∨ ∃ r, d.subs.find? c = some r ∧ exec (dbSel c >>= k) d sc = exec (k (0, some r)) d sc.tail := by
  obtain ⟨o, e1, e2⟩ := dbSel_run c { db := d, script := sc }
  have run : (dbSel c >>= k) { db := d, script := sc } = match (o, ({ db := d, script := sc.tail } : World)) with
      | (some a, w') => k a w'
      | (none, w') => (none, w') := by
    rw [bind_run, e1]
    cases o <;> rfl
  unfold exec
  rw [run]
  rcases e2 with rfl | rfl | ⟨rfl, h⟩ | ⟨r, rfl, hf⟩
  · exact .inl rfl
  · exact .inr (.inl rfl)
  · exact .inr (.inr (.inl ⟨h, rfl⟩))
  · exact .inr (.inr (.inr ⟨r, hf, rfl⟩))

/-- Removing 2G keys, whatever fails: they are gone, or nothing changed. -/
theorem none2_run (id : Int) (w : World) : ∃ o t x, updateAud id (.gsm .none []) w = (o, { w with db := { w.db with auc2 := x }, script := t })
    ∧ (x = w.db.auc2 ∨ x = w.db.auc2.filter (·.id != id))
    ∧ (o = some 0 ∨ o = some (-ENOENT) → x = w.db.auc2.filter (·.id != id)) := by
  obtain ⟨d, s⟩ := w
  have he : updateAud id (.gsm .none []) { db := d, script := s } = (stmt (sqlDelAuc2 id) .error >>= fun a => match audAfterDelete true a with
      | .inl rc => (pure rc : DbM Int)
      | .inr () => do pure (audAfterInsert (← stmt (sqlInsAuc2 { id := id, algo := .none, ki := [] }) .error))) { db := d, script := s } := rfl
  have key : ∀ (a : WRes) (w : World), ∃ rc, (match audAfterDelete true a with
      | .inl rc => (pure rc : DbM Int)
      | .inr () => do pure (audAfterInsert (← stmt (sqlInsAuc2 { id := id, algo := .none, ki := [] }) .error))) w = (some rc, w) := by
    intro a w
    rcases a with n | _ | _
    · rcases n with _ | _ | n <;> exact ⟨_, rfl⟩
    · exact ⟨_, rfl⟩
    · exact ⟨_, rfl⟩
  rw [he, bind_run]
  rcases s with _ | ⟨_ | _ | _, s⟩
  · obtain ⟨rc, h⟩ := key (sqlDelAuc2 id d).1 { db := (sqlDelAuc2 id d).2, script := [] }
    exact ⟨some rc, [], _, h, .inr rfl, fun _ => rfl⟩
  · obtain ⟨rc, h⟩ := key (sqlDelAuc2 id d).1 { db := (sqlDelAuc2 id d).2, script := s }
    exact ⟨some rc, s, _, h, .inr rfl, fun _ => rfl⟩
  · exact ⟨some (-EIO), s, d.auc2, rfl, .inl rfl, fun h => absurd h (by decide)⟩
  · exact ⟨none, _, d.auc2, rfl, .inl rfl, by rintro (h | h) <;> cases h⟩

/-- Removing 3G keys, whatever fails. -/
theorem none3_run (id : Int) (w : World) : ∃ o t x, updateAud id (.umts .none [] [] false 0) w
      = (o, { w with db := { w.db with auc3 := x }, script := t })
    ∧ (x = w.db.auc3 ∨ x = w.db.auc3.filter (·.id != id))
    ∧ (o = some 0 ∨ o = some (-ENOENT) → x = w.db.auc3.filter (·.id != id)) := by
  obtain ⟨d, s⟩ := w
  have he : updateAud id (.umts .none [] [] false 0) { db := d, script := s } = (stmt (sqlDelAuc3 id) .error >>= fun a => match audAfterDelete true a with
      | .inl rc => (pure rc : DbM Int)
      | .inr () => do pure (audAfterInsert (← stmt (sqlInsAuc3 (mkAuc3 id .none [] [] false 0)) .error))) { db := d, script := s } := rfl
  have key : ∀ (a : WRes) (w : World), ∃ rc, (match audAfterDelete true a with
      | .inl rc => (pure rc : DbM Int)
      | .inr () => do pure (audAfterInsert (← stmt (sqlInsAuc3 (mkAuc3 id .none [] [] false 0)) .error))) w = (some rc, w) := by
    intro a w
    rcases a with n | _ | _
    · rcases n with _ | _ | n <;> exact ⟨_, rfl⟩
    · exact ⟨_, rfl⟩
    · exact ⟨_, rfl⟩
  rw [he, bind_run]
  rcases s with _ | ⟨_ | _ | _, s⟩
  · obtain ⟨rc, h⟩ := key (sqlDelAuc3 id d).1 { db := (sqlDelAuc3 id d).2, script := [] }
    exact ⟨some rc, [], _, h, .inr rfl, fun _ => rfl⟩
  · obtain ⟨rc, h⟩ := key (sqlDelAuc3 id d).1 { db := (sqlDelAuc3 id d).2, script := s }
    exact ⟨some rc, s, _, h, .inr rfl, fun _ => rfl⟩
  · exact ⟨some (-EIO), s, d.auc3, rfl, .inl rfl, fun h => absurd h (by decide)⟩
  · exact ⟨none, _, d.auc3, rfl, .inl rfl, by rintro (h | h) <;> cases h⟩

/-- Deleting, whatever fails: a result other than an I/O error means that the record is gone. -/
theorem delete_run (id : Int) (d : Db) (sc : Script) :
    Removed d id (exec (subscrDelete id) d sc).2
    ∨ ((exec (subscrDelete id) d sc).2 = d ∧ ((exec (subscrDelete id) d sc).1 = none ∨ (exec (subscrDelete id) d sc).1 = some (-EIO))) := by
  have e : subscrDelete id = (stmt (sqlDelById id) .error >>= fun a => match a with
      | .error => pure (-EIO)
      | .unique => pure (-EIO)
      | .done n => (do
        let ret : Int := if n = 0 then -ENOENT else if n = 1 then 0 else -EIO
        let rc2 ← updateAud id (.gsm .none [])
        let ret := if ret == -ENOENT && rc2 == 0 then 0 else ret
        let rc3 ← updateAud id (.umts .none [] [] false 0)
        let ret := if ret == -ENOENT && rc3 == 0 then 0 else ret
        pure ret : DbM Int)) := rfl
  have key : ∀ (n : Nat) (x : Db) (t : Script), x.subs = d.subs.filter (·.id != id) → x.inds = d.inds → x.auc2 = d.auc2 →
      x.auc3 = d.auc3 → Removed d id (exec (do
        let ret : Int := if n = 0 then -ENOENT else if n = 1 then 0 else -EIO
        let rc2 ← updateAud id (.gsm .none [])
        let ret := if ret == -ENOENT && rc2 == 0 then 0 else ret
        let rc3 ← updateAud id (.umts .none [] [] false 0)
        let ret := if ret == -ENOENT && rc3 == 0 then 0 else ret
        pure ret : DbM Int) x t).2 := by
    intro n x t h1 h2 h3 h4
    unfold exec
    dsimp only
    obtain ⟨o, t', y, e2, hy, -⟩ := none2_run id { db := x, script := t }
    rw [bind_run, e2]
    cases o with
    | none => exact ⟨h1, h2, by simpa [h3] using hy, .inl h4⟩
    | some rc2 =>
      dsimp only
      obtain ⟨o3, t3, z, e3, hz, -⟩ := none3_run id { db := { x with auc2 := y }, script := t' }
      rw [bind_run, e3]
      cases o3 with
      | none => exact ⟨h1, h2, by simpa [h3] using hy, by simpa [h4] using hz⟩
      | some rc3 =>
        refine ⟨h1, h2, ?_, ?_⟩
        · rw [← h3]; exact hy
        · rw [← h4]; exact hz
  rw [e, exec_bind_stmt]
  rcases sc with _ | ⟨_ | _ | _, sc⟩
  · exact .inl (key _ (sqlDelById id d).2 _ rfl rfl rfl rfl)
  · exact .inl (key _ (sqlDelById id d).2 _ rfl rfl rfl rfl)
  · exact .inr ⟨rfl, .inr rfl⟩
  · exact .inr ⟨rfl, .inl rfl⟩

/-- Stored 3G keys, under any script. -/
theorem aud3_stored {d : Db} (hG : Good d) {sc : Script} {id : Int} {al : Algo} {k o : Bytes} {p : Bool} {bl : Nat}
    (h : (exec (updateAud id (.umts al k o p bl)) d sc).1 = some 0) (hn : al ≠ .none) :
    Key3Ok (mkAuc3 id al k o p bl)
    ∧ (exec (updateAud id (.umts al k o p bl)) d sc).2 = withKey3 d id (some (mkAuc3 id al k o p bl)) := by
  by_cases hv : aud3Valid al k o bl = true
  · have hq := (aud3Valid_iff al k o p bl).mp hv
    have hm : al = .milenage ∨ al = .xor3g := by
      revert hv hn
      cases al <;> simp [aud3Valid]
    refine ⟨?_, ?_⟩
    · have hq : Hex32to64 k ∧ Hex32to64 o ∧ bl ≤ 28 := by rcases hm with rfl | rfl <;> exact hq.2
      obtain ⟨h1, h2, h3⟩ := hq
      refine ⟨by rcases hm with rfl | rfl <;> simp [mkAuc3], h1, h3, ?_⟩
      cases p
      · exact .inr ⟨o, rfl, rfl, h2⟩
      · exact .inl ⟨o, rfl, rfl, h2⟩
    · rcases exec_aud3 d hG.unique sc id al k o p bl hv hn with ⟨-, e⟩ | ⟨-, e⟩ | ⟨-, -, e⟩ | ⟨-, -, e⟩ | ⟨-, -, e⟩
      · rw [e] at h; cases h
      · rw [e] at h; exact (eio_ne h).elim
      · rw [e] at h; cases h
      · rw [e] at h; exact (eio_ne h).elim
      · rw [e]; rfl
  · have hv : aud3Valid al k o bl = false := by simpa using hv
    rw [updateAud, hv] at h
    exact (einval_ne h).elim

/-- On a working database keys are stored, or the call is refused and changes nothing. -/
theorem aud_refused {d : Db} (hG : Good d) (id : Int) (a : AudStr) :
    (exec (updateAud id a) d []).1 = some 0 ∨ (exec (updateAud id a) d []).2 = d := by
  cases a with
  | gsm al k =>
    by_cases hv : aud2Valid al k = true
    · by_cases hn : al = .none
      · subst hn
        rw [audNone2 hG]
        split
        · exact .inl rfl
        · exact .inr rfl
      · left
        rcases exec_aud2 d hG.unique [] id al k hv hn with ⟨h, -⟩ | ⟨h, -⟩ | ⟨-, h, -⟩ | ⟨-, h, -⟩ | ⟨-, -, h⟩
        · cases h
        · cases h
        · cases h
        · cases h
        · rw [h]
    · right
      have hv : aud2Valid al k = false := by simpa using hv
      rw [updateAud, hv]
      rfl
  | umts al k o p bl =>
    by_cases hv : aud3Valid al k o bl = true
    · by_cases hn : al = .none
      · subst hn
        rw [audNone3 hG]
        split
        · exact .inl rfl
        · exact .inr rfl
      · left
        rcases exec_aud3 d hG.unique [] id al k o p bl hv hn with ⟨h, -⟩ | ⟨h, -⟩ | ⟨-, h, -⟩ | ⟨-, h, -⟩ | ⟨-, -, h⟩
        · cases h
        · cases h
        · cases h
        · cases h
        · rw [h]
    · right
      have hv : aud3Valid al k o bl = false := by simpa using hv
      rw [updateAud, hv]
      rfl
  | other => exact .inr rfl

/-- Other subscribers are left alone by a call that is not addressed to them. -/
theorem same_of_owns {d : Db} {q : SubRow} (hq : q ∈ d.subs) {op : Op}
    (o : op.ownsSub q = false ∧ op.ownsKey2 q.id = false ∧ op.ownsKey3 q.id = false) (sc : Script) :
    SameFor q d (exec op.run d sc).2 := by
  have hf := (othersSame_op op).exec d sc
  refine ⟨?_, ?_, ?_⟩
  · have : q ∈ d.subs.filter (fun r => !op.ownsSub r) := by
      rw [List.mem_filter]
      exact ⟨hq, by rw [o.1]; rfl⟩
    rw [← hf.subs] at this
    exact (List.mem_filter.mp this).1
  · unfold key2
    refine find_filter _ _ (fun a => !op.ownsKey2 a.id) _ ?_ hf.auc2
    intro a ha
    have : a.id = q.id := by simpa using ha
    rw [this, o.2.1]; rfl
  · unfold key3
    refine find_filter _ _ (fun a => !op.ownsKey3 a.id) _ ?_ hf.auc3
    intro a ha
    have : a.id = q.id := by simpa using ha
    rw [this, o.2.2]; rfl

theorem subscrDelete_known {d : Db} (hG : Good d) {r : SubRow} (hr : r ∈ d.subs) :
    exec (subscrDelete r.id) d [] = (some 0, without d r.id) := by
  have hc : d.subs.countP (fun q : SubRow => q.id == r.id) = 1 := by
    have h1 := countP_le_one_of_nodup d.subs (·.id) r.id hG.unique.ids
    have h2 : 0 < d.subs.countP (fun q : SubRow => q.id == r.id) := List.countP_pos_iff.mpr ⟨r, hr, by simp⟩
    have h1' : d.subs.countP (fun q : SubRow => q.id == r.id) ≤ 1 := h1
    omega
  obtain ⟨rc, h⟩ := exec_delete_ok d [] (fun _ h => by cases h) r.id
  have hd : (exec (subscrDelete r.id) d []).2 = without d r.id := by rw [h]; rfl
  have h0 : (exec (subscrDelete r.id) d []).1 = some 0 := by
    have e : exec (subscrDelete r.id) d [] = exec (stmt (sqlDelById r.id) .error >>= fun a => match a with
      | .error => pure (-EIO)
      | .unique => pure (-EIO)
      | .done n => (do
        let ret : Int := if n = 0 then -ENOENT else if n = 1 then 0 else -EIO
        let rc2 ← updateAud r.id (.gsm .none [])
        let ret := if ret == -ENOENT && rc2 == 0 then 0 else ret
        let rc3 ← updateAud r.id (.umts .none [] [] false 0)
        let ret := if ret == -ENOENT && rc3 == 0 then 0 else ret
        pure ret : DbM Int)) d [] := rfl
    rw [e, exec_bind_stmt]
    have e1 : (sqlDelById r.id d).1 = .done 1 := by unfold sqlDelById; rw [hc]
    dsimp only
    rw [e1]
    dsimp only
    unfold exec
    obtain ⟨rc2, t2, ht2, h2⟩ := run_audNone2 { db := (sqlDelById r.id d).2, script := [] } (fun _ h => by cases h) r.id
    rw [bind_run, h2]
    dsimp only
    obtain ⟨rc3, t3, ht3, h3⟩ := run_audNone3 { db := (sqlDelAuc2 r.id (sqlDelById r.id d).2).2, script := t2 } ht2 r.id
    rw [bind_run, h3]
    have n0 : ((if (1 : Nat) = 0 then -ENOENT else if (1 : Nat) = 1 then 0 else -EIO) : Int) = 0 := by decide
    have n2 : ∀ z : Int, (if ((0 : Int) == -ENOENT && z == 0) = true then (0 : Int) else 0) = 0 := by intro z; simp
    rw [n0, n2]
    dsimp only
    rw [n2]
    rfl
  exact Prod.ext h0 hd

end Verif.Prov
