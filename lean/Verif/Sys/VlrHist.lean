import Verif.Sys.Props7
/-!
# Where the stored serving node comes from

In every run, the serving node, the proxy and the time that the database holds for a
subscriber are those of a location update request the HLR received.
-/
namespace Verif.Sys
open Verif Verif.Db Verif.Gsup Verif.Hlr

/-- The serving node, the proxy in between and the time of the last location update stored
for a domain. -/
def nodeOf (r : SubRow) (ps : Bool) : Option Bytes := if ps then r.sgsn else r.vlr
def viaOf (r : SubRow) (ps : Bool) : Option Bytes := if ps then r.sgsnViaProxy else r.vlrViaProxy
def timeOf (r : SubRow) (ps : Bool) : Option Int := if ps then r.lastLuPs else r.lastLu

/-- The same place. -/
def SamePlace (r r' : SubRow) : Prop :=
  r'.imsi = r.imsi ∧ ∀ ps, nodeOf r' ps = nodeOf r ps ∧ viaOf r' ps = viaOf r ps ∧ timeOf r' ps = timeOf r ps

theorem SamePlace.refl (r : SubRow) : SamePlace r r := ⟨rfl, fun _ => ⟨rfl, rfl, rfl⟩⟩

theorem SamePlace.trans {a b c : SubRow} (h : SamePlace a b) (h' : SamePlace b c) : SamePlace a c :=
  ⟨h'.1.trans h.1, fun ps => ⟨(h'.2 ps).1.trans (h.2 ps).1, (h'.2 ps).2.1.trans (h.2 ps).2.1,
    (h'.2 ps).2.2.trans (h.2 ps).2.2⟩⟩

/-- Nothing is stored for the subscriber. -/
def Unlocated (r : SubRow) : Prop := ∀ ps, nodeOf r ps = none ∧ viaOf r ps = none ∧ timeOf r ps = none

theorem Unlocated.same {a b : SubRow} (h : Unlocated a) (h' : SamePlace a b) : Unlocated b := fun ps =>
  ⟨(h'.2 ps).1.trans (h ps).1, (h'.2 ps).2.1.trans (h ps).2.1, (h'.2 ps).2.2.trans (h ps).2.2⟩

/-- No place is stored that was not stored before. -/
def NoNewPlace (d d' : Db) : Prop :=
  ∀ r' ∈ d'.subs, Unlocated r' ∨ ∃ r ∈ d.subs, SamePlace r r'

theorem noNewPlace_pre : Pre NoNewPlace := by
  refine ⟨fun d r hr => .inr ⟨r, hr, .refl r⟩, ?_⟩
  intro a b c h1 h2 r' hr'
  rcases h2 r' hr' with h | ⟨r, hr, h⟩
  · exact .inl h
  · rcases h1 r hr with h3 | ⟨r0, hr0, h3⟩
    · exact .inl (h3.same h)
    · exact .inr ⟨r0, hr0, h3.trans h⟩

theorem noNewPlace_eq {d d' : Db} (h : d'.subs = d.subs) : NoNewPlace d d' := by
  intro r hr
  rw [h] at hr
  exact .inr ⟨r, hr, .refl r⟩

theorem noNewPlace_upd (cond : SubRow → Bool) (f : SubRow → SubRow) (d : Db) (h : ∀ r, SamePlace r (f r)) :
    NoNewPlace d (sqlUpdSub cond f d).2 := by
  intro r' hr'
  obtain ⟨r, hr, rfl⟩ := List.mem_map.1 hr'
  refine .inr ⟨r, hr, ?_⟩
  split
  · exact h r
  · exact .refl r

/-- Every call but the storing of a location update. -/
def NotLu : Op → Prop
  | .lu .. => False
  | _ => True

theorem noNewPlace_op {op : Op} (h : NotLu op) : Sat NoNewPlace op.run := by
  apply Sat.op noNewPlace_pre
  intro g hg d
  cases hg with
  | lu1 => exact absurd h (by simp [NotLu])
  | lu2 => exact absurd h (by simp [NotLu])
  | create hv =>
    dsimp only [sqlCreate]
    split
    · exact noNewPlace_eq rfl
    · intro r' hr'
      rcases List.mem_append.1 hr' with hr' | hr'
      · exact .inr ⟨r', hr', .refl _⟩
      · rw [List.mem_singleton.1 hr']
        refine .inl fun ps => ?_
        cases ps <;> exact ⟨rfl, rfl, rfl⟩
  | del => exact fun r hr => .inr ⟨r, (List.mem_filter.1 hr).1, .refl r⟩
  | del2 => exact noNewPlace_eq rfl
  | del3 => exact noNewPlace_eq rfl
  | aud2d => exact noNewPlace_eq rfl
  | aud3d => exact noNewPlace_eq rfl
  | aud2i =>
    dsimp only [sqlInsAuc2]
    split <;> exact noNewPlace_eq rfl
  | aud3i =>
    dsimp only [sqlInsAuc3]
    split <;> exact noNewPlace_eq rfl
  | msisdn hv =>
    dsimp only [sqlSetMsisdn]
    split
    · exact noNewPlace_eq rfl
    · exact noNewPlace_upd _ _ _ fun r => ⟨rfl, fun ps => by cases ps <;> exact ⟨rfl, rfl, rfl⟩⟩
  | noMsisdn => exact noNewPlace_upd _ _ _ fun r => ⟨rfl, fun ps => by cases ps <;> exact ⟨rfl, rfl, rfl⟩⟩
  | imei hv => exact noNewPlace_upd _ _ _ fun r => ⟨rfl, fun ps => by cases ps <;> exact ⟨rfl, rfl, rfl⟩⟩
  | nam =>
    refine noNewPlace_upd _ _ _ fun r => ?_
    split <;> exact ⟨rfl, fun ps => by cases ps <;> exact ⟨rfl, rfl, rfl⟩⟩
  | purge =>
    refine noNewPlace_upd _ _ _ fun r => ?_
    split <;> exact ⟨rfl, fun ps => by cases ps <;> exact ⟨rfl, rfl, rfl⟩⟩
  | ind hv =>
    dsimp only [sqlIndAdd]
    split <;> exact noNewPlace_eq rfl
  | indDel hv => exact noNewPlace_eq rfl
  | sqn => exact noNewPlace_eq rfl

theorem linked_noNewPlace {d d' : Db} (h : LinkedBy NotLu d d') : NoNewPlace d d' :=
  h _ noNewPlace_pre fun _ h => noNewPlace_op h

/-! ## What a location update request stores -/

/-- What is stored for `r'` comes from what was stored in `d`, or from the request: then the
node is that of the request, and so is the time if the request was accepted (`acc`), while
otherwise the time may still be the one of before. -/
def PlaceFrom (d : Db) (imsi : Bytes) (ps : Bool) (n : Bytes) (via : Option Bytes) (now : Option Int) (acc : Prop)
    (r' : SubRow) : Prop :=
  (Unlocated r' ∨ ∃ r ∈ d.subs, SamePlace r r')
  ∨ (r'.imsi = imsi ∧ nodeOf r' ps = some n ∧ viaOf r' ps = via
    ∧ (timeOf r' ps = now ∨ ¬ acc ∧ (timeOf r' ps = none ∨ ∃ r ∈ d.subs, r.imsi = imsi ∧ timeOf r' ps = timeOf r ps))
    ∧ ((nodeOf r' (!ps) = none ∧ viaOf r' (!ps) = none ∧ timeOf r' (!ps) = none)
      ∨ ∃ r ∈ d.subs, r.imsi = imsi ∧ nodeOf r' (!ps) = nodeOf r (!ps) ∧ viaOf r' (!ps) = viaOf r (!ps)
        ∧ timeOf r' (!ps) = timeOf r (!ps)))

theorem nodeOf_place (r : SubRow) (ps : Bool) (n : Bytes) (via : Option Bytes) :
    (luPlace ps n via r).imsi = r.imsi ∧ (luPlace ps n via r).id = r.id
    ∧ nodeOf (luPlace ps n via r) ps = some n ∧ viaOf (luPlace ps n via r) ps = via
    ∧ timeOf (luPlace ps n via r) ps = timeOf r ps
    ∧ nodeOf (luPlace ps n via r) (!ps) = nodeOf r (!ps) ∧ viaOf (luPlace ps n via r) (!ps) = viaOf r (!ps)
    ∧ timeOf (luPlace ps n via r) (!ps) = timeOf r (!ps) := by
  cases ps <;> exact ⟨rfl, rfl, rfl, rfl, rfl, rfl, rfl, rfl⟩

theorem nodeOf_stamp (r : SubRow) (ps : Bool) (t : Int) :
    (luStamp ps t r).imsi = r.imsi ∧ (luStamp ps t r).id = r.id
    ∧ nodeOf (luStamp ps t r) ps = nodeOf r ps ∧ viaOf (luStamp ps t r) ps = viaOf r ps
    ∧ timeOf (luStamp ps t r) ps = some t
    ∧ nodeOf (luStamp ps t r) (!ps) = nodeOf r (!ps) ∧ viaOf (luStamp ps t r) (!ps) = viaOf r (!ps)
    ∧ timeOf (luStamp ps t r) (!ps) = timeOf r (!ps) := by
  cases ps <;> exact ⟨rfl, rfl, rfl, rfl, rfl, rfl, rfl, rfl⟩

theorem id_unique {d : Db} (hU : Unique d) {r r' : SubRow} (hr : r ∈ d.subs) (hr' : r' ∈ d.subs) (h : r'.id = r.id) : r' = r :=
  eq_of_nodup_map hU.ids hr' hr h

theorem lu_place (d : Db) (hU : Unique d) {row : SubRow} (hrow : row ∈ d.subs) (n : Bytes) (ps : Bool)
    (via : Option Bytes) (now : Option Int) (s : Script) :
    ∀ r' ∈ (exec (subscrLu row.id n ps via now) d s).2.subs,
      PlaceFrom d row.imsi ps n via now ((exec (subscrLu row.id n ps via now) d s).1 = some 0) r' := by
  have same : ∀ acc, ∀ r' ∈ d.subs, PlaceFrom d row.imsi ps n via now acc r' :=
    fun acc r' h => .inl (.inr ⟨r', h, .refl r'⟩)
  have placed : ∀ acc, ¬ acc → ∀ r' ∈ (sqlUpdSub (·.id == row.id) (luPlace ps n via) d).2.subs,
      PlaceFrom d row.imsi ps n via now acc r' := by
    intro acc ha r' hr'
    obtain ⟨r, hr, rfl⟩ := List.mem_map.1 hr'
    split
    · rename_i h
      have : r = row := id_unique hU hrow hr (by simpa using h)
      subst this
      obtain ⟨h1, -, h3, h4, h5, h6, h7, h8⟩ := nodeOf_place r ps n via
      exact .inr ⟨h1, h3, h4, .inr ⟨ha, .inr ⟨r, hr, rfl, h5⟩⟩, .inr ⟨r, hr, rfl, h6, h7, h8⟩⟩
    · exact same _ _ hr
  rcases exec_lu d s row.id n ps via now with ⟨-, h⟩ | ⟨-, h⟩ | ⟨-, hc, h⟩ | ⟨-, hc, h⟩
  · rw [h]; exact same _
  · rw [h]; exact same _
  · rw [h]
    refine placed _ ?_
    intro h0
    have h0 := Option.some.inj h0
    revert hc h0
    generalize d.subs.countP (·.id == row.id) = k
    intro hc h0
    match k, hc, h0 with
    | 0, _, h0 => simp [updRc, ENOENT] at h0
    | 1, hc, _ => exact hc rfl
    | k + 2, _, h0 => simp [updRc, EIO] at h0
  · rcases h with ⟨-, h⟩ | ⟨t, -, -, h⟩ | ⟨t, -, -, h⟩ | ⟨t, ht, -, h⟩
    · rw [h]; exact placed _ (by simp [EINVAL])
    · rw [h]; exact placed _ (by simp)
    · rw [h]; exact placed _ (by simp [EIO])
    · rw [h]
      intro r' hr'
      obtain ⟨r1, hr1, rfl⟩ := List.mem_map.1 hr'
      obtain ⟨r, hr, rfl⟩ := List.mem_map.1 hr1
      by_cases hi : r.id = row.id
      · have : r = row := id_unique hU hrow hr hi
        subst this
        obtain ⟨h1, h2, h3, h4, h5, h6, h7, h8⟩ := nodeOf_place r ps n via
        have e1 : (r.id == r.id) = true := beq_self_eq_true _
        have e2 : ((luPlace ps n via r).id == r.id) = true := by rw [h2]; exact e1
        rw [if_pos e1, if_pos e2]
        obtain ⟨g1, -, g3, g4, g5, g6, g7, g8⟩ := nodeOf_stamp (luPlace ps n via r) ps t
        exact .inr ⟨g1.trans h1, g3.trans h3, g4.trans h4, .inl (g5.trans ht.symm),
          .inr ⟨r, hr, rfl, g6.trans h6, g7.trans h7, g8.trans h8⟩⟩
      · have hi' : ¬ ((r.id == row.id) = true) := by simpa using hi
        rw [if_neg hi', if_neg hi']
        exact same _ _ hr

theorem PlaceFrom.base {d0 d : Db} (h0 : NoNewPlace d0 d) {imsi : Bytes} {ps : Bool} {n : Bytes} {via : Option Bytes}
    {now : Option Int} {acc acc' : Prop} (ha : acc' → acc) {r' : SubRow} (h : PlaceFrom d imsi ps n via now acc r') :
    PlaceFrom d0 imsi ps n via now acc' r' := by
  rcases h with (h | ⟨r, hr, h⟩) | ⟨h1, h2, h3, h4, h5⟩
  · exact .inl (.inl h)
  · rcases h0 r hr with h' | ⟨r0, hr0, h'⟩
    · exact .inl (.inl (h'.same h))
    · exact .inl (.inr ⟨r0, hr0, h'.trans h⟩)
  · refine .inr ⟨h1, h2, h3, ?_, ?_⟩
    · rcases h4 with h4 | ⟨h4, h6 | ⟨r, hr, h6, h7⟩⟩
      · exact .inl h4
      · exact .inr ⟨fun h => h4 (ha h), .inl h6⟩
      · rcases h0 r hr with h' | ⟨r0, hr0, h'⟩
        · exact .inr ⟨fun h => h4 (ha h), .inl (h7.trans (h' ps).2.2)⟩
        · exact .inr ⟨fun h => h4 (ha h), .inr ⟨r0, hr0, h'.1.symm.trans h6, h7.trans (h'.2 ps).2.2⟩⟩
    · rcases h5 with h5 | ⟨r, hr, h6, h7, h8, h9⟩
      · exact .inl h5
      · rcases h0 r hr with h' | ⟨r0, hr0, h'⟩
        · exact .inl ⟨h7.trans (h' _).1, h8.trans (h' _).2.1, h9.trans (h' _).2.2⟩
        · exact .inr ⟨r0, hr0, h'.1.symm.trans h6, h7.trans (h'.2 _).1, h8.trans (h'.2 _).2.1, h9.trans (h'.2 _).2.2⟩

/-- What a location update request stores. -/
theorem luStart_place (cfg : Cfg) (e : Env) (q : Req) (d0 : Db) (hU : Unique d0) :
    Post (fun d => d = d0) (luStartDb cfg e q) (fun o d => ∀ r' ∈ d.subs,
      (Unlocated r' ∨ ∃ r ∈ d0.subs, SamePlace r r')
      ∨ ∃ n via, q.source.cstr = some n ∧ viaName q.viaProxy = some via
        ∧ PlaceFrom d0 q.gsup.imsi (!q.gsup.isCs) n via e.now (∃ sub, o = some (.wait sub)) r') := by
  have keep : ∀ {α : Type} (o : α), Post (fun d => NoNewPlace d0 d ∧ Unique d) (Pure.pure o : DbM α)
      (fun _ d => NoNewPlace d0 d ∧ Unique d) := fun o => Post.pure fun _ h => h
  have fin : ∀ {o : Option LuRes} {d : Db}, (NoNewPlace d0 d ∧ Unique d) → ∀ r' ∈ d.subs,
      (Unlocated r' ∨ ∃ r ∈ d0.subs, SamePlace r r')
      ∨ ∃ n via, q.source.cstr = some n ∧ viaName q.viaProxy = some via
        ∧ PlaceFrom d0 q.gsup.imsi (!q.gsup.isCs) n via e.now (∃ sub, o = some (.wait sub)) r' :=
    fun h r' hr' => .inl (h.1 r' hr')
  have done : ∀ o : LuRes, Post (fun d => NoNewPlace d0 d ∧ Unique d) (Pure.pure o : DbM LuRes) (fun o d => ∀ r' ∈ d.subs,
      (Unlocated r' ∨ ∃ r ∈ d0.subs, SamePlace r r')
      ∨ ∃ n via, q.source.cstr = some n ∧ viaName q.viaProxy = some via
        ∧ PlaceFrom d0 q.gsup.imsi (!q.gsup.isCs) n via e.now (∃ sub, o = some (.wait sub)) r') :=
    fun o => (keep o).mono (fun _ h => h) (fun _ _ h => fin h)
  have hcod : Post (fun d => d = d0) (createOnDemand cfg.hlr e.rnd q.gsup.imsi) (fun _ d => NoNewPlace d0 d ∧ Unique d) := by
    intro w hw
    subst hw
    refine ⟨?_, ?_⟩
    · exact (api_cod (P := NotLu) (fun op h => by cases op <;> first | trivial | exact h) cfg.hlr e.rnd q.gsup.imsi).linked w.db w.script
        |> linked_noNewPlace
    · have h : Linked w.db (exec (createOnDemand cfg.hlr e.rnd q.gsup.imsi) w.db w.script).2 :=
        (api_cod (P := AnyOp) (fun _ _ => trivial) cfg.hlr e.rnd q.gsup.imsi).linked w.db w.script
      exact h.keeps (fun op => unique_op op) hU
  unfold luStartDb
  refine Post.bind _ hcod (fun d h => fin h) (fun _ => ?_)
  split
  · exact done _
  · refine Post.bind (fun o d => (∀ rc row, o = some (rc, some row) → row ∈ d.subs ∧ row.imsi = q.gsup.imsi)
        ∧ (NoNewPlace d0 d ∧ Unique d)) ?_ (fun d h => fin h.2) (fun r => ?_)
    · refine ((getByImsi_post q.gsup.imsi).mono (fun _ _ => trivial) (fun _ _ h => h)).and ?_
      intro w hw
      have : (getByImsi q.gsup.imsi w).2.db = w.db := by
        have hs : Sat (fun d d' => d = d') (getByImsi q.gsup.imsi) :=
          dbSel_sat ⟨fun _ => rfl, fun _ _ _ h h' => h.trans h'⟩ _
        exact (hs w).symm
      rw [this]
      exact hw
    · split
      · exact (done _).mono (fun _ h => h.2) (fun _ _ h => h)
      · rename_i rc row
        dsimp only
        have main : ∀ n via, q.source.cstr = some n → viaName q.viaProxy = some via →
            Post (fun d => (∀ rc' row', some (rc, some row) = some (rc', some row') → row' ∈ d.subs ∧ row'.imsi = q.gsup.imsi)
                ∧ (NoNewPlace d0 d ∧ Unique d))
              (do let rc ← subscrLu row.id n (!q.gsup.isCs) via e.now
                  if rc ≠ 0 then pure (.fail .netFail) else pure (.wait (HlrSubscr.ofRow row)) : DbM LuRes)
              (fun o d => ∀ r' ∈ d.subs,
                (Unlocated r' ∨ ∃ r ∈ d0.subs, SamePlace r r')
                ∨ ∃ n via, q.source.cstr = some n ∧ viaName q.viaProxy = some via
                  ∧ PlaceFrom d0 q.gsup.imsi (!q.gsup.isCs) n via e.now (∃ sub, o = some (.wait sub)) r') := by
          intro n via hn hv
          refine Post.bind (fun o d => ∀ r' ∈ d.subs,
            PlaceFrom d0 q.gsup.imsi (!q.gsup.isCs) n via e.now (o = some 0) r') ?_ ?_ ?_
          · apply Post.ofExec
            intro d s ⟨hr, h0, hu⟩ r' hr'
            obtain ⟨hm, hi⟩ := hr rc row rfl
            have := lu_place d hu hm n (!q.gsup.isCs) via e.now s r' hr'
            rw [hi] at this
            exact this.base h0 (fun h => h)
          · intro d h r' hr'
            exact .inr ⟨n, via, hn, hv, (h r' hr').base (noNewPlace_pre.refl d0) (fun h => by obtain ⟨_, h⟩ := h; cases h)⟩
          · intro rc
            split
            · rename_i hne
              refine Post.pure fun d h r' hr' => .inr ⟨n, via, hn, hv, (h r' hr').base (noNewPlace_pre.refl d0) ?_⟩
              rintro ⟨_, h⟩
              cases h
            · rename_i hne
              refine Post.pure fun d h r' hr' => .inr ⟨n, via, hn, hv, (h r' hr').base (noNewPlace_pre.refl d0) ?_⟩
              intro _
              exact congrArg some (Decidable.of_not_not hne)
        split
        · exact (done _).mono (fun _ h => h.2) (fun _ _ h => h)
        · split
          · exact (done _).mono (fun _ h => h.2) (fun _ _ h => h)
          · split
            · exact (done _).mono (fun _ h => h.2) (fun _ _ h => h)
            · rename_i n hn hv
              exact main n none hn (by rw [hv]; rfl)
            · rename_i n p hn hv
              split
              · rename_i hp
                exact main n none hn (by rw [hv]; simp only [viaName, if_pos hp])
              · rename_i hp
                split
                · exact (done _).mono (fun _ h => h.2) (fun _ _ h => h)
                · rename_i pn hpn
                  exact main n (some pn) hn (by rw [hv]; simp only [viaName, if_neg hp, hpn, Option.map_some])

/-! ## Events -/

/-- No call that stores a location update. -/
def VFr (s t : Sys) : Prop := LinkedBy NotLu s.db t.db

theorem VFr.same {s t : Sys} (h : t.db = s.db) : VFr s t := by
  unfold VFr; rw [h]; exact LinkedBy.refl _

theorem vfr_prims (cfg : Cfg) : Prims cfg (fun _ => True) VFr NotLu (fun _ => True) where
  refl _ := .same rfl
  trans h h' := LinkedBy.trans h h'
  quiet op h := by cases op <;> first | trivial | exact h
  types _ _ _ := trivial
  db _ _ h := h
  ub _ := .same rfl
  crash _ := .same rfl
  tx _ _ _ _ := .same rfl
  concl _ _ _ _ := .same rfl
  resp s q m _ _ := by
    unfold sendReqResponse
    split
    · exact .same rfl
    · split <;> exact .same rfl
  dg _ _ _ := .same rfl
  pend _ _ _ := .same rfl
  remote _ _ _ _ _ := .same rfl
  remoteTx _ _ _ _ := .same rfl
  remoteRx _ _ _ := .same rfl

theorem vfr_dispatch (cfg : Cfg) (e : Env) (k : Conn) {q : Req} (s : Sys) (ht : q.gsup.typ ≠ UPDATE_LOCATION) :
    VFr s (dispatch cfg e k q s) := by
  have pr := vfr_prims cfg
  refine pr.dispatch' e k trivial (fun _ => pr.sai (fun _ _ => trivial) trivial s e trivial) (fun h => absurd h ht) ?_ ?_
  · intro h
    exact pr.procSs (fun _ _ _ => .same rfl) e trivial h (fun _ _ _ _ => trivial)
  · refine pr.luRx trivial (fun _ _ => trivial) (fun _ _ => .same rfl) ?_
    intro t lu _ _ _ _
    exact pr.respondMsgt t trivial _ (by decide) trivial

theorem updLoc_db (cfg : Cfg) (e : Env) (k : Conn) (q : Req) (s : Sys) :
    (rxUpdLocReq cfg e k q s).db = (exec (luStartDb cfg e q) s.db e.sc).2 := by
  unfold rxUpdLocReq
  dsimp only
  generalize he : setConn s _ = s1
  have hd : s1.db = s.db := by rw [← he]; rfl
  rw [← hd]
  unfold withDb
  generalize exec (luStartDb cfg e q) s1.db e.sc = r
  obtain ⟨o, d⟩ := r
  cases o with
  | none => rfl
  | some o =>
    cases o with
    | fail c =>
      dsimp only
      rw [respondErr_frame]
    | wait sub => exact luOnenter_db ..
    | ub => rfl

/-- A message is either a location update request that gets to its handler, or stores no
place. -/
theorem readCb_place (cfg : Cfg) (e : Env) (k : Conn) (q : Req) (s : Sys) :
    VFr s (readCb cfg e k q s)
    ∨ (q.gsup.typ = UPDATE_LOCATION ∧ (readCb cfg e k q s).db = (exec (luStartDb cfg e q) s.db e.sc).2) := by
  have pr := vfr_prims cfg
  have hd : VFr s (dispatch cfg e k q s)
      ∨ (q.gsup.typ = UPDATE_LOCATION ∧ (dispatch cfg e k q s).db = (exec (luStartDb cfg e q) s.db e.sc).2) := by
    by_cases ht : q.gsup.typ = UPDATE_LOCATION
    · refine .inr ⟨ht, ?_⟩
      unfold dispatch
      rw [if_neg (by rw [ht]; decide), if_pos ht]
      exact updLoc_db ..
    · exact .inl (vfr_dispatch cfg e k s ht)
  rw [readCb_eq]
  split
  · exact .inl (pr.readCbForward s trivial)
  · split
    · split
      · exact .inl (pr.crash s)
      · split
        · exact hd
        · exact .inl (pr.proxied e trivial s (fun _ _ => trivial)).1
    · exact hd

theorem rx_place (cfg : Cfg) (e : Env) (c : ConnId) (mo : Option Msg) (s : Sys) :
    VFr s (rx cfg e c mo s)
    ∨ ∃ m q, mo = some m ∧ m.typ = UPDATE_LOCATION ∧ IsNew s c m q
      ∧ (rx cfg e c mo s).db = (exec (luStartDb cfg e q) s.db e.sc).2 := by
  have pr := vfr_prims cfg
  unfold rx
  split
  · exact .inl (pr.refl s)
  · rename_i k hk
    dsimp only
    split
    · exact .inl (.same rfl)
    · rename_i m
      have h1 : ∀ rts, VFr s (entered s c m rts) := fun rts => .same rfl
      split
      · exact .inl (LinkedBy.trans (h1 s.routes) (pr.respondMsgt _ trivial _ (by decide) trivial))
      · rename_i hs
        split
        · exact .inl (LinkedBy.trans (h1 s.routes) (pr.respondErr _ trivial _))
        · have hn : IsNew s c m (mkReq k s.nextReq m) := ⟨k, hk, .inr ⟨hs, rfl⟩⟩
          have fin : ∀ rts, VFr s (readCb cfg e k (mkReq k s.nextReq m) (entered s c m rts))
              ∨ ∃ m' q, some m = some m' ∧ m'.typ = UPDATE_LOCATION ∧ IsNew s c m' q
                ∧ (readCb cfg e k (mkReq k s.nextReq m) (entered s c m rts)).db
                  = (exec (luStartDb cfg e q) s.db e.sc).2 := by
            intro rts
            rcases readCb_place cfg e k (mkReq k s.nextReq m) (entered s c m rts) with h | ⟨h, h'⟩
            · exact .inl (LinkedBy.trans (h1 rts) h)
            · rw [Props.mkReq_gsup] at h
              exact .inr ⟨m, _, rfl, h, hn, h'⟩
          unfold connRx
          split
          · exact fin s.routes
          · dsimp only
            split
            · exact .inl (LinkedBy.trans (h1 _) (pr.respondMsgt _ trivial _ (by decide) trivial))
            · exact fin _

/-- The administration does not store locations (no VTY or CTRL command calls
db_subscr_lu(), see src/hlr_vty_subscr.c and src/ctrl.c). -/
def Ev.NoPlace : Ev → Prop
  | .db op _ => NotLu op
  | _ => True

theorem step_place (cfg : Cfg) (s : Sys) (ev : Ev) (hev : ev.NoPlace) :
    VFr s (step cfg s ev)
    ∨ ∃ c m e q, ev = .rx c (some m) e ∧ m.typ = UPDATE_LOCATION ∧ IsNew s c m q
      ∧ (step cfg s ev).db = (exec (luStartDb cfg e q) s.db e.sc).2 := by
  have pr := vfr_prims cfg
  unfold step
  split
  · exact .inl (pr.refl s)
  · cases ev with
    | connect => exact .inl (.same rfl)
    | ccm c sernr =>
      refine .inl ?_
      dsimp only
      split
      · exact pr.refl s
      · unfold ccmCb
        split <;> exact .same rfl
    | close c =>
      refine .inl ?_
      dsimp only
      split
      · exact pr.refl s
      · exact .same rfl
    | rx c m e =>
      rcases rx_place cfg e c m s with h | ⟨m', q, rfl, h1, h2, h3⟩
      · exact .inl h
      · exact .inr ⟨c, m', e, q, rfl, h1, h2, h3⟩
    | luTimeout nr => exact .inl (pr.luTimeout nr (fun _ _ => trivial) (fun _ _ => .same rfl))
    | ssTimeout imsi id => exact .inl (pr.ssTimeout (fun _ _ _ => .same rfl) imsi id (fun _ _ _ _ => trivial))
    | db op sc =>
      refine .inl ?_
      dsimp only
      exact pr.withDb (api_op hev) (pr.refl s) (fun _ _ _ h => h)
    | notify imsi sc =>
      refine .inl (pr.withDb (api_getByImsi _) (pr.refl s) (fun a d _ h => ?_))
      split
      · exact pr.trans h (pr.notify _ _ _)
      · exact h
    | nam imsi val isPs sc sc' =>
      refine .inl (pr.withDb (api_getByImsi _) (pr.refl s) (fun a d _ h => ?_))
      split
      · exact pr.trans h (pr.nam _ _ _ _ _)
      · exact h
    | remoteUp a => exact .inl (pr.remoteUp a s (fun _ _ => trivial)).1
    | remoteDown a => exact .inl (pr.remoteDown a s (fun _ _ => trivial)).1
    | remoteLost a => exact .inl (pr.remoteLost a s (fun _ _ => trivial)).1
    | remoteRx a m e => exact .inl (pr.rxRemote e a m s trivial (fun _ _ => trivial)).1
    | lookup imsi res e => exact .inl (pr.lookupResult e imsi res s (fun _ _ => trivial)).1
    | proxyGc clock => exact .inl (pr.setProxy s _ (fun _ _ => trivial)).1
    | kill => exact .inl (pr.crash s)

/-! ## Histories -/

/-- The event makes the HLR begin a location update procedure: the subscriber may use the
domain, the node has been stored, and the subscriber data have been sent to it. -/
def Begins (cfg : Cfg) (s : Sys) (ev : Ev) (imsi : Bytes) (ps : Bool) : Prop :=
  ∃ lu ∈ (step cfg s ev).lus, lu ∉ s.lus ∧ lu.req.gsup.imsi = imsi ∧ lu.isPs = ps

/-- After the history `evs1`, `ev` is a location update request for the domain, with the
node's name `n` and the proxy's name `via`, received at the time `now`; `acc` says whether
the update was stored completely. -/
def LuAt (cfg : Cfg) (d : Db) (evs1 : List (Cfg × Ev)) (ev : Ev) (imsi : Bytes) (ps : Bool) (n : Bytes) (via : Option Bytes)
    (now : Option Int) (acc : Prop) : Prop :=
  ∃ c m e q, ev = .rx c (some m) e ∧ IsNew (run (init d) evs1) c m q ∧ m.typ = UPDATE_LOCATION
    ∧ m.imsi = imsi ∧ m.isCs = !ps ∧ q.source.cstr = some n ∧ viaName q.viaProxy = some via ∧ e.now = now
    ∧ (acc ↔ ∃ sub, (exec (luStartDb cfg e q) (run (init d) evs1).db e.sc).1 = some (.wait sub))

/-- The history contains such a request. -/
def LuReceived (d : Db) (evs : List (Cfg × Ev)) (imsi : Bytes) (ps : Bool) (n : Bytes) (via : Option Bytes)
    (now : Option Int) (acc : Prop) : Prop :=
  ∃ e1 cfg ev e2, evs = e1 ++ (cfg, ev) :: e2 ∧ LuAt cfg d e1 ev imsi ps n via now acc

/-- The history contains such a request, and after it no procedure was begun for the domain
of the subscriber. -/
def LuLast (d : Db) (evs : List (Cfg × Ev)) (imsi : Bytes) (ps : Bool) (n : Bytes) (via : Option Bytes)
    (now : Option Int) (acc : Prop) : Prop :=
  ∃ e1 cfg ev e2, evs = e1 ++ (cfg, ev) :: e2 ∧ LuAt cfg d e1 ev imsi ps n via now acc
    ∧ ∀ e3 cfg' ev' e4, e2 = e3 ++ (cfg', ev') :: e4 →
      ¬ Begins cfg' (run (init d) (e1 ++ (cfg, ev) :: e3)) ev' imsi ps

/-- What is stored for a domain of a subscriber is what the last request for it carried; the
time may be that of an earlier request if the storing of the last one was cut short. -/
def PlaceOk (d : Db) (evs : List (Cfg × Ev)) (r : SubRow) (ps : Bool) : Prop :=
  (nodeOf r ps = none ∧ viaOf r ps = none ∧ timeOf r ps = none)
  ∨ ∃ n via now acc, nodeOf r ps = some n ∧ viaOf r ps = via ∧ LuLast d evs r.imsi ps n via now acc
    ∧ (timeOf r ps = now ∨ ¬ acc ∧ (timeOf r ps = none
      ∨ ∃ n' via' now' acc', timeOf r ps = now' ∧ LuReceived d evs r.imsi ps n' via' now' acc'))

section
variable {cfg : Cfg} {d : Db} {evs : List (Cfg × Ev)} {imsi : Bytes} {ps : Bool} {n : Bytes} {via : Option Bytes}
  {now : Option Int} {acc : Prop}

theorem LuLast.received (h : LuLast d evs imsi ps n via now acc) : LuReceived d evs imsi ps n via now acc := by
  obtain ⟨e1, cfg, ev, e2, h1, h2, -⟩ := h
  exact ⟨e1, cfg, ev, e2, h1, h2⟩

theorem LuReceived.snoc (h : LuReceived d evs imsi ps n via now acc) (cfg : Cfg) (ev : Ev) :
    LuReceived d (evs ++ [(cfg, ev)]) imsi ps n via now acc := by
  obtain ⟨e1, cfg1, ev1, e2, rfl, h⟩ := h
  exact ⟨e1, cfg1, ev1, e2 ++ [(cfg, ev)], by simp, h⟩

theorem LuLast.snoc (h : LuLast d evs imsi ps n via now acc) (ev : Ev)
    (hb : ¬ Begins cfg (run (init d) evs) ev imsi ps) : LuLast d (evs ++ [(cfg, ev)]) imsi ps n via now acc := by
  obtain ⟨e1, cfg1, ev1, e2, rfl, h, hl⟩ := h
  refine ⟨e1, cfg1, ev1, e2 ++ [(cfg, ev)], by simp, h, ?_⟩
  intro e3 cfg' ev' e4 he
  rcases List.eq_nil_or_concat e4 with rfl | ⟨l, x, rfl⟩
  · obtain ⟨h1, h2⟩ := List.append_inj' he rfl
    cases h2
    subst h1
    exact hb
  · rw [List.concat_eq_append, ← List.cons_append, ← List.append_assoc] at he
    obtain ⟨h1, -⟩ := List.append_inj' he rfl
    exact hl e3 cfg' ev' l h1
end

theorem PlaceOk.snoc {cfg : Cfg} {d : Db} {evs : List (Cfg × Ev)} {r r' : SubRow} {ps : Bool}
    (h : PlaceOk d evs r ps) (ev : Ev) (hb : ¬ Begins cfg (run (init d) evs) ev r.imsi ps)
    (hi : r'.imsi = r.imsi) (h1 : nodeOf r' ps = nodeOf r ps)
    (h2 : viaOf r' ps = viaOf r ps) (h3 : timeOf r' ps = timeOf r ps) : PlaceOk d (evs ++ [(cfg, ev)]) r' ps := by
  unfold PlaceOk
  rw [h1, h2, h3, hi]
  rcases h with h | ⟨n, via, now, acc, h4, h5, h6, h7⟩
  · exact .inl h
  · refine .inr ⟨n, via, now, acc, h4, h5, h6.snoc ev hb, ?_⟩
    rcases h7 with h7 | ⟨h7, h8 | ⟨n', via', now', acc', h8, h9⟩⟩
    · exact .inl h7
    · exact .inr ⟨h7, .inl h8⟩
    · exact .inr ⟨h7, .inr ⟨n', via', now', acc', h8, h9.snoc cfg ev⟩⟩

/-- If the event begins a procedure, what it carries is stored. -/
theorem begins_place {cfg : Cfg} {d : Db} {evs : List (Cfg × Ev)} {ev : Ev} (hU : Unique (step cfg (run (init d) evs) ev).db)
    {r' : SubRow} (hr' : r' ∈ (step cfg (run (init d) evs) ev).db.subs) {ps : Bool}
    (h : Begins cfg (run (init d) evs) ev r'.imsi ps) : PlaceOk d (evs ++ [(cfg, ev)]) r' ps := by
  obtain ⟨lu, hl, hn, hi, hps⟩ := h
  rcases step_lus cfg _ ev lu hl with h | ⟨c, m, e, rfl, hq, ht, hv, hb⟩
  · exact absurd h hn
  obtain ⟨-, -, h3⟩ := Props.isNew_eqs hq
  have hp := (luStart_post cfg e lu.req).exec (run (init d) evs).db e.sc trivial
  rw [hb.exec] at hp
  obtain ⟨hs, hsub, n, via, t, hn', hv', ht', r, hr, hri, hrec⟩ := hp _ rfl
  have : r' = r := eq_of_nodup_map hU.imsis hr' hr (hi.symm.trans hri.symm)
  subst this
  have hps' : ps = !lu.req.gsup.isCs := by rw [← hps, hb.isPs]
  have hrec' : nodeOf r' ps = some n ∧ viaOf r' ps = via ∧ timeOf r' ps = some t := by
    rw [← hps'] at hrec
    revert hrec
    cases ps
    · exact fun h => h.2
    · exact fun h => h.2
  refine .inr ⟨n, via, some t, True, hrec'.1, hrec'.2.1, ⟨evs, cfg, _, [], rfl, ⟨c, m, e, lu.req, rfl, hq, ht, ?_, ?_, hn', hv', ht', ?_⟩, ?_⟩,
    .inl hrec'.2.2⟩
  · rw [← h3, hi]
  · rw [← h3, hps', Bool.not_not]
  · exact ⟨fun _ => ⟨_, congrArg Prod.fst hb.exec⟩, fun _ => trivial⟩
  · intro e3 cfg' ev' e4 h
    simp at h

theorem place_step {cfg : Cfg} {d : Db} {evs : List (Cfg × Ev)} (hU : Unique (run (init d) evs).db)
    (h : ∀ r ∈ (run (init d) evs).db.subs, ∀ ps, PlaceOk d evs r ps) (ev : Ev) (hev : ev.NoPlace) :
    ∀ r ∈ (run (init d) (evs ++ [(cfg, ev)])).db.subs, ∀ ps, PlaceOk d (evs ++ [(cfg, ev)]) r ps := by
  rw [Props.run_snoc]
  intro r' hr' ps
  have hU' : Unique (step cfg (run (init d) evs) ev).db := by
    have := (run_linked (run (init d) evs) [(cfg, ev)]).keeps unique_op hU
    exact this
  by_cases hb : Begins cfg (run (init d) evs) ev r'.imsi ps
  · exact begins_place hU' hr' hb
  have none : Unlocated r' → PlaceOk d (evs ++ [(cfg, ev)]) r' ps := fun h => .inl (h ps)
  have same : ∀ r, r ∈ (run (init d) evs).db.subs → SamePlace r r' → PlaceOk d (evs ++ [(cfg, ev)]) r' ps :=
    fun r hr hs => (h r hr ps).snoc ev (hs.1 ▸ hb) hs.1 (hs.2 ps).1 (hs.2 ps).2.1 (hs.2 ps).2.2
  rcases step_place cfg (run (init d) evs) ev hev with hv | ⟨c, m, e, q, rfl, ht, hq, hdb⟩
  · rcases linked_noNewPlace hv r' hr' with h' | ⟨r, hr, h'⟩
    · exact none h'
    · exact same r hr h'
  · rw [hdb] at hr'
    have := (luStart_place cfg e q _ hU).exec _ e.sc rfl r' hr'
    rcases this with (h' | ⟨r, hr, h'⟩) | ⟨n, via, hn, hv, h'⟩
    · exact none h'
    · exact same r hr h'
    · rcases h' with (h' | ⟨r, hr, h'⟩) | ⟨hi, g1, g2, g3, g4⟩
      · exact none h'
      · exact same r hr h'
      · have hg := (Props.isNew_eqs hq).2.2
        have hrec : LuLast d (evs ++ [(cfg, .rx c (some m) e)]) r'.imsi (!q.gsup.isCs) n via e.now
            (∃ sub, (exec (luStartDb cfg e q) (run (init d) evs).db e.sc).1 = some (.wait sub)) := by
          refine ⟨evs, cfg, _, [], rfl, ⟨c, m, e, q, rfl, hq, ht, by rw [hi, hg], by rw [hg, Bool.not_not], hn, hv, rfl, Iff.rfl⟩, ?_⟩
          intro e3 cfg' ev' e4 h
          simp at h
        by_cases hps : ps = !q.gsup.isCs
        · subst hps
          refine .inr ⟨n, via, e.now, _, g1, g2, hrec, ?_⟩
          rcases g3 with g3 | ⟨g3, g5 | ⟨r, hr, g5, g6⟩⟩
          · exact .inl g3
          · exact .inr ⟨g3, .inl g5⟩
          · refine .inr ⟨g3, ?_⟩
            rw [g6]
            rcases h r hr (!q.gsup.isCs) with h' | ⟨n', via', now', acc', -, -, h6, h7⟩
            · exact .inl h'.2.2
            · rw [g5.trans hi.symm] at h6 h7
              rcases h7 with h7 | ⟨-, h8 | ⟨n', via', now', acc', h8, h9⟩⟩
              · exact .inr ⟨n', via', now', acc', h7, h6.received.snoc _ _⟩
              · exact .inl h8
              · exact .inr ⟨n', via', now', acc', h8, h9.snoc _ _⟩
        · have hps : ps = !(!q.gsup.isCs) := by
            revert hps
            cases ps <;> cases q.gsup.isCs <;> simp
          rw [hps] at hb ⊢
          rcases g4 with g4 | ⟨r, hr, g5, g6, g7, g8⟩
          · exact .inl g4
          · exact (h r hr _).snoc _ (by rw [g5, ← hi]; exact hb) (hi.trans g5.symm) g6 g7 g8

/-- In every run that starts with no locations stored. -/
theorem place_run (d : Db) (hU : Unique d) (hd : ∀ r ∈ d.subs, Unlocated r) (evs : List (Cfg × Ev))
    (hev : ∀ x ∈ evs, x.2.NoPlace) :
    ∀ r ∈ (run (init d) evs).db.subs, ∀ ps, PlaceOk d evs r ps := by
  have gen : ∀ l2 l1 : List (Cfg × Ev), (∀ x ∈ l2, x.2.NoPlace) →
      (∀ r ∈ (run (init d) l1).db.subs, ∀ ps, PlaceOk d l1 r ps) →
      ∀ r ∈ (run (init d) (l1 ++ l2)).db.subs, ∀ ps, PlaceOk d (l1 ++ l2) r ps := by
    intro l2
    induction l2 with
    | nil => intro l1 _ h; simpa using h
    | cons x l2 ih =>
      intro l1 hev h
      obtain ⟨cfg, ev⟩ := x
      have := ih (l1 ++ [(cfg, ev)]) (fun e he => hev e (List.mem_cons_of_mem _ he))
        (place_step (Props.c01_running d hU l1) h ev (hev _ List.mem_cons_self))
      simpa using this
  have := gen evs [] hev (fun r hr ps => .inl (hd r hr ps))
  simpa using this

end Verif.Sys
