import Verif.Import.Lemmas
/-! # The invariant of an import into a database without the subscribers -/
namespace Verif.Import
open Verif Verif.Db Verif.Prov

/-- The IMEI to be stored. -/
def wantImei (N : Nitb) (n : NSub) : Option Bytes := (latest (seenWith N n.id)).map (fun e => e.imei.take 14)

/-- An imported record on which not everything has been stored yet. -/
structure Part (N : Nitb) (n : NSub) (r : SubRow) : Prop where
  msisdn : r.msisdn = none ∨ r.msisdn = n.ext
  imei : r.imei = none ∨ r.imei = wantImei N n
  rest : r.vlr = none ∧ r.sgsn = none ∧ r.purgedCs = false ∧ r.purgedPs = false ∧ r.lastLuPs = none
    ∧ r.vlrViaProxy = none ∧ r.sgsnViaProxy = none

/-- The IMSI is one of those imported. -/
def isNew (N : Nitb) (i : Bytes) : Bool := N.subs.any (fun n => n.imsi == i)

theorem isNew_iff {N : Nitb} {i : Bytes} : isNew N i = true ↔ ∃ n ∈ N.subs, n.imsi = i := by
  simp [isNew]

/-- A database into which `N` is being imported, `d0` at first. -/
structure Prog (N : Nitb) (d0 d : Db) : Prop where
  uniq : Unique d
  orphan : NoOrphanKeys d
  old : d.subs.filter (fun r => !isNew N r.imsi) = d0.subs
  new : ∀ n ∈ N.subs, ∀ r ∈ d.subs, r.imsi = n.imsi →
    Part N n r ∧ (key2 d r.id = none ∨ SameKey N n (key2 d r.id))
  keys : ∀ r ∈ d0.subs, key2 d r.id = key2 d0 r.id
  auc3 : d.auc3 = d0.auc3
  inds : d.inds = d0.inds

/-- Subscriber `n` has been imported. -/
def Full (N : Nitb) (n : NSub) (d : Db) : Prop :=
  ∃ r ∈ d.subs, Same N n r ∧ SameKey N n (key2 d r.id)

/-- … and those in `done` are complete. -/
structure Inv (N : Nitb) (d0 : Db) (done : List NSub) (d : Db) : Prop where
  prog : Prog N d0 d
  full : ∀ m ∈ done, Full N m d

theorem prog_start {N : Nitb} {d0 : Db} (hU : Unique d0) (hO : NoOrphanKeys d0) (hF : Fresh N d0) : Prog N d0 d0 := by
  have hn : ∀ r ∈ d0.subs, isNew N r.imsi = false := by
    intro r hr
    rw [Bool.eq_false_iff]
    intro h
    obtain ⟨n, hn, e⟩ := isNew_iff.1 h
    exact hF.imsi n hn r hr e.symm
  refine ⟨hU, hO, ?_, ?_, fun _ _ => rfl, rfl, rfl⟩
  · exact List.filter_eq_self.2 (fun r hr => by rw [hn r hr]; rfl)
  · intro n hn' r hr e
    exact absurd e (hF.imsi n hn' r hr)

theorem old_mem {N : Nitb} {d0 d : Db} (h : Prog N d0 d) {r : SubRow} (hr : r ∈ d0.subs) :
    r ∈ d.subs ∧ isNew N r.imsi = false := by
  rw [← h.old] at hr
  obtain ⟨h1, h2⟩ := List.mem_filter.1 hr
  exact ⟨h1, by simpa using h2⟩

/-- Statements that change the row of an imported subscriber. -/
theorem inv_upd {N : Nitb} {d0 d : Db} {done : List NSub} (h : Inv N d0 done d) {n : NSub} (hn : n ∈ N.subs)
    (hd : ∀ m ∈ done, m.imsi ≠ n.imsi) (hN : (N.subs.map (·.imsi)).Nodup) (f : SubRow → SubRow)
    (hid : ∀ r, (f r).id = r.id) (him : ∀ r, (f r).imsi = r.imsi)
    (hp : ∀ r, Part N n r → Part N n (f r))
    (hu : Unique (sqlUpdSub (·.imsi == n.imsi) f d).2) : Inv N d0 done (sqlUpdSub (·.imsi == n.imsi) f d).2 := by
  have hk : ∀ i, key2 (sqlUpdSub (·.imsi == n.imsi) f d).2 i = key2 d i := fun _ => rfl
  refine ⟨⟨hu, ?_, ?_, ?_, ?_, h.prog.auc3, h.prog.inds⟩, ?_⟩
  · exact orphan_updSub h.prog.orphan _ _ hid
  · rw [← h.prog.old]
    have : isNew N n.imsi = true := isNew_iff.2 ⟨n, hn, rfl⟩
    show List.filter _ (List.map _ d.subs) = _
    induction d.subs with
    | nil => rfl
    | cons r l ih =>
      rw [List.map_cons, List.filter_cons, List.filter_cons, ih]
      by_cases hr : r.imsi = n.imsi
      · have e1 : (r.imsi == n.imsi) = true := by simp [hr]
        rw [if_pos e1, him, hr, this]
        rfl
      · have e1 : ¬ (r.imsi == n.imsi) = true := by simp [hr]
        rw [if_neg e1]
  · intro m hm r hr e
    obtain ⟨x, hx, rfl⟩ := List.mem_map.1 (show r ∈ List.map _ d.subs from hr)
    rw [hk]
    by_cases hxi : x.imsi = n.imsi
    · have e1 : (x.imsi == n.imsi) = true := by simp [hxi]
      rw [if_pos e1] at e ⊢
      rw [him, hxi] at e
      have : m = n := eq_of_nodup_map hN hm hn e.symm
      subst this
      obtain ⟨p1, p2⟩ := h.prog.new m hm x hx hxi
      rw [hid]
      exact ⟨hp _ p1, p2⟩
    · have e1 : ¬ (x.imsi == n.imsi) = true := by simp [hxi]
      rw [if_neg e1] at e ⊢
      exact h.prog.new m hm x hx e
  · intro r hr
    rw [hk]
    exact h.prog.keys r hr
  · intro m hm
    obtain ⟨r, hr, h1, h2⟩ := h.full m hm
    refine ⟨r, ?_, h1, by rw [hk]; exact h2⟩
    refine List.mem_map.2 ⟨r, hr, ?_⟩
    have e1 : ¬ (r.imsi == n.imsi) = true := by
      rw [h1.imsi]; simpa using hd m hm
    rw [if_neg e1]

/-- Creating the subscriber. -/
theorem inv_create {N : Nitb} {d0 d : Db} {done : List NSub} (h : Inv N d0 done d) {n : NSub} (hn : n ∈ N.subs)
    (hN : (N.subs.map (·.imsi)).Nodup) (c p : Bool) :
    Inv N d0 done (sqlCreate n.imsi c p d).2 := by
  have hU := h.prog.uniq.create n.imsi c p
  unfold sqlCreate at hU ⊢
  by_cases hc : d.subs.any (fun r => r.imsi == n.imsi) = true
  · rw [if_pos hc]; exact h
  · rw [if_neg hc] at hU ⊢
    generalize hid : newId (d.subs.map (·.id)) = id at hU ⊢
    have hfresh : ∀ r ∈ d.subs, r.id ≠ id := by
      have := hU.ids
      rw [List.map_append] at this
      obtain ⟨_, h2⟩ := (nodup_snoc _ _).1 this
      intro r hr e
      exact h2 (List.mem_map.2 ⟨r, hr, e⟩)
    have hk0 : key2 d id = none := by
      unfold key2
      rw [List.find?_eq_none]
      intro a ha e
      obtain ⟨r, hr, e'⟩ := h.prog.orphan.1 a ha
      exact hfresh r hr (by rw [e']; simpa using e)
    refine ⟨⟨hU, ?_, ?_, ?_, fun r hr => h.prog.keys r hr, h.prog.auc3, h.prog.inds⟩, ?_⟩
    · exact ⟨fun a ha => by
          obtain ⟨r, hr, e⟩ := h.prog.orphan.1 a ha
          exact ⟨r, List.mem_append_left _ hr, e⟩,
        fun a ha => by
          obtain ⟨r, hr, e⟩ := h.prog.orphan.2 a ha
          exact ⟨r, List.mem_append_left _ hr, e⟩⟩
    · rw [← h.prog.old]
      dsimp only
      rw [List.filter_append]
      have : isNew N n.imsi = true := isNew_iff.2 ⟨n, hn, rfl⟩
      simp [this]
    · intro m hm r hr e
      rcases List.mem_append.1 hr with hr | hr
      · exact h.prog.new m hm r hr e
      · rw [List.mem_singleton.1 hr] at e ⊢
        have : n = m := eq_of_nodup_map hN hn hm e
        subst this
        exact ⟨⟨.inl rfl, .inl rfl, rfl, rfl, rfl, rfl, rfl, rfl, rfl⟩, .inl hk0⟩
    · intro m hm
      obtain ⟨r, hr, h1⟩ := h.full m hm
      exact ⟨r, List.mem_append_left _ hr, h1⟩

theorem find_filter_ne {l : List Auc2} {i id : Int} (h : i ≠ id) :
    (l.filter (fun a => a.id != id)).find? (fun a => a.id == i) = l.find? (fun a => a.id == i) := by
  induction l with
  | nil => rfl
  | cons a l ih =>
    by_cases ha : a.id = id
    · have e1 : ¬ (a.id != id) = true := by simp [ha]
      have e2 : (a.id == i) = false := by simp [ha]; exact fun e => h e.symm
      rw [List.filter_cons, if_neg e1, ih]
      simp only [List.find?_cons, e2]
    · have e1 : (a.id != id) = true := by simp [ha]
      rw [List.filter_cons, if_pos e1]
      simp only [List.find?_cons, ih]

/-- Replacing the key of an imported subscriber by some `l` (at most its own key). -/
theorem inv_key {N : Nitb} {d0 d : Db} {done : List NSub} (h : Inv N d0 done d) {n : NSub} (hn : n ∈ N.subs)
    (hd : ∀ m ∈ done, m.imsi ≠ n.imsi) (hN : (N.subs.map (·.imsi)).Nodup) {row : SubRow}
    (hr : row ∈ d.subs) (hi : row.imsi = n.imsi) (d' : Db)
    (hs : d'.subs = d.subs) (h3 : d'.auc3 = d.auc3) (hin : d'.inds = d.inds) (hU : Unique d') (hO : NoOrphanKeys d')
    (hk : ∀ i, i ≠ row.id → key2 d' i = key2 d i)
    (hk' : key2 d' row.id = none ∨ SameKey N n (key2 d' row.id)) : Inv N d0 done d' := by
  have other : ∀ r ∈ d.subs, r.imsi ≠ n.imsi → r.id ≠ row.id := by
    intro r hr' e e'
    have := eq_of_nodup_map h.prog.uniq.ids hr' hr e'
    subst this
    exact e hi
  refine ⟨⟨hU, hO, by rw [hs]; exact h.prog.old, ?_, ?_, h3.trans h.prog.auc3, hin.trans h.prog.inds⟩, ?_⟩
  · intro m hm r hr' e
    rw [hs] at hr'
    obtain ⟨p1, p2⟩ := h.prog.new m hm r hr' e
    refine ⟨p1, ?_⟩
    by_cases hid : r.id = row.id
    · have := eq_of_nodup_map h.prog.uniq.ids hr' hr hid
      subst this
      have : n = m := eq_of_nodup_map hN hn hm (hi.symm.trans e)
      subst this
      exact hk'
    · rw [hk _ hid]; exact p2
  · intro r hr'
    obtain ⟨h1, h2⟩ := old_mem h.prog hr'
    rw [hk _ (other r h1 ?_)]
    · exact h.prog.keys r hr'
    · intro e
      rw [e, isNew_iff.2 ⟨n, hn, rfl⟩] at h2
      cases h2
  · intro m hm
    obtain ⟨r, hr', h1, h2⟩ := h.full m hm
    refine ⟨r, by rw [hs]; exact hr', h1, ?_⟩
    rw [hk _ (other r hr' (by rw [h1.imsi]; exact hd m hm))]
    exact h2

end Verif.Import
