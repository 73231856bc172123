import Verif.Config.Reload
/-! # Reading the written configuration: profiles, and the whole file -/
namespace Verif.Config
open Verif Verif.Sys Verif.Mslookup Verif.Mslookup.Mdns Verif.Config.Spec

/-! ## APNs -/

theorem goodApn_iff (s : Bytes) : ∃ l ls, apnLabels s = l :: ls ∧ ∀ acc, goodApn acc s = true ↔ (acc ++ l ≠ [] ∧ [] ∉ ls) := by
  induction s with
  | nil => exact ⟨[], [], rfl, fun acc => by simp [goodApn]⟩
  | cons c s ih =>
    obtain ⟨l, ls, hl, h⟩ := ih
    by_cases hc : c = 46
    · refine ⟨[], l :: ls, by rw [apnLabels, if_pos hc, hl], fun acc => ?_⟩
      have h0 := h []
      rw [goodApn, if_pos hc, Bool.and_eq_true, h0, List.nil_append, List.append_nil, List.mem_cons, not_or]
      refine and_congr (by simp) (and_congr (not_congr eq_comm) Iff.rfl)
    · refine ⟨c :: l, ls, by rw [apnLabels, if_neg hc, hl], fun acc => ?_⟩
      rw [goodApn, if_neg hc, h (acc ++ [c])]
      simp

theorem goodApn_labels {a : Bytes} (h : [] ∉ apnLabels a) : goodApn [] a = true := by
  obtain ⟨l, ls, hl, hg⟩ := goodApn_iff a
  rw [hl] at h
  refine (hg []).2 ⟨?_, fun hm => h (List.mem_cons_of_mem _ hm)⟩
  intro e
  rw [List.nil_append] at e
  subst e
  exact h List.mem_cons_self

/-! ## Profiles -/

def pdpPs : Parents := [(.ps, 2), (.hlr, 1), (.config, 0)]

def AtPdp (r : Reader) : Prop := align 3 r.node r.ind r.parents = some (.profiles, 3, pdpPs)

/-- A profile that can be read again. -/
def PdpGood (p : Pdp) : Prop :=
  p.ctx ≠ 0 ∧ PdpOk p ∧ ∀ x, p.apn = some x → ∃ a, x = apnEnc a ∧ GoodWord a ∧ a.length ≤ 99 ∧ [] ∉ apnLabels a

theorem getPdp_free {done : List Pdp} (hd : ∀ p ∈ done, p.ctx ≠ 0) (k : Nat) :
    getPdp 0 (done ++ List.replicate (k + 1) ({} : Pdp)) = some done.length := by
  unfold getPdp
  rw [List.findIdx?_eq_some_iff_getElem]
  refine ⟨by simp, by simp, ?_⟩
  intro j hj
  rw [List.getElem_append_left hj]
  simpa using hd _ (List.getElem_mem hj)

theorem set_mid {α : Type} (l : List α) (x y : α) (m : List α) : (l ++ x :: m).set l.length y = l ++ y :: m := by
  simp

theorem modify_mid {α : Type} (l : List α) (x : α) (f : α → α) (m : List α) : (l ++ x :: m).modify l.length f = l ++ f x :: m := by
  induction l with
  | nil => rfl
  | cons y l ih =>
    rw [List.cons_append, List.length_cons, List.modify_succ_cons, ih]
    rfl

theorem read_pdp {e : Env} {p : Pdp} (hp : PdpGood p) {done : List Pdp} (hd : ∀ q ∈ done, q.ctx ≠ 0) (hn : p.ctx ∉ done.map (·.ctx))
    {k : Nat} {r : Reader} (h : AtPdp r) (hs : r.st.slots = done ++ List.replicate (k + 1) ({} : Pdp)) :
    ∃ r', readLines e r (writePdp p) = some r' ∧ AtPdp r' ∧
      r'.st = { r.st with slots := (done ++ [p]) ++ List.replicate k ({} : Pdp), num := r.st.num + 1 } := by
  obtain ⟨h0, ⟨hinfo, hctx, -⟩, happ⟩ := hp
  have hinfo := hinfo h0
  have g1 : getPdp p.ctx r.st.slots = none := by
    unfold getPdp
    rw [List.findIdx?_eq_none_iff, hs]
    intro q hq
    rcases List.mem_append.1 hq with hq | hq
    · have : q.ctx ≠ p.ctx := fun e => hn (e ▸ List.mem_map_of_mem hq)
      simpa using this
    · have : q = {} := (List.mem_replicate.1 hq).2
      subst this
      have : (0 : Nat) ≠ p.ctx := fun e => h0 e.symm
      simpa using this
  have g2 : createPdp p.ctx r.st = some (done.length,
      { r.st with slots := done ++ { ctx := p.ctx, info := true } :: List.replicate k ({} : Pdp), num := r.st.num + 1 }) := by
    unfold createPdp
    rw [hs, getPdp_free hd, List.replicate_succ, Option.map_some, set_mid]
  have hx : exec true .profiles r.st (.profile p.ctx) = (.ok, .profile done.length,
      { r.st with slots := done ++ { ctx := p.ctx, info := true } :: List.replicate k ({} : Pdp), num := r.st.num + 1 }) := by
    unfold exec
    dsimp only
    rw [g1]
    dsimp only
    rw [g2]
  have l1 : readLine e r (3, [Kw.text .profile, dec p.ctx]) = some
      { node := .profile done.length, ind := none, parents := (.profiles, 3) :: pdpPs,
        st := { r.st with slots := done ++ { ctx := p.ctx, info := true } :: List.replicate k ({} : Pdp), num := r.st.num + 1 } } := by
    refine (readLine_at (e := e) (c := .profile p.ctx) h (by simp) ?_ ?_).trans ?_
    · simp only [parse, Kw.of_text, rangeVal_dec (show 1 ≤ p.ctx by omega) hctx (by omega), Option.map_some]
    · rw [hx]; intro h; cases h
    · rw [hx]; rfl
  unfold writePdp
  rw [if_neg h0, readLines, l1, Option.bind_some, if_pos hinfo]
  cases ha : p.apn with
  | none =>
    refine ⟨_, rfl, rfl, ?_⟩
    have : p = { ctx := p.ctx, info := true } := by
      rw [← hinfo, ← ha]
    rw [← this]
    simp
  | some x =>
    obtain ⟨a, rfl, hw, hl, hlab⟩ := happ x ha
    dsimp only
    rw [if_neg (show apnEnc a ≠ [] from apnEncGo_ne [] a), apnText_enc (goodApn_labels hlab) hl, readLines]
    have hx2 : exec true (.profile done.length) { r.st with slots := done ++ { ctx := p.ctx, info := true } :: List.replicate k ({} : Pdp), num := r.st.num + 1 } (.apn a) =
        (.ok, .profile done.length, { r.st with slots := (done ++ [p]) ++ List.replicate k ({} : Pdp), num := r.st.num + 1 }) := by
      unfold exec
      dsimp only
      rw [if_neg (by unfold APN_MAXLEN; omega), modify_mid]
      dsimp only
      have : p = { ctx := p.ctx, info := true, apn := some (apnEnc a) } := by
        rw [← hinfo, ← ha]
      rw [← this]
      simp
    have l2 : readLine e
      { node := .profile done.length, ind := none, parents := (.profiles, 3) :: pdpPs,
        st := { r.st with slots := done ++ { ctx := p.ctx, info := true } :: List.replicate k ({} : Pdp), num := r.st.num + 1 } }
      (4, [Kw.text .apn, a]) = some
        { node := .profile done.length, ind := some 4, parents := (.profiles, 3) :: pdpPs,
          st := { r.st with slots := (done ++ [p]) ++ List.replicate k ({} : Pdp), num := r.st.num + 1 } } := by
      refine (readLine_at (e := e) (c := .apn a) (n := .profile done.length) (ps := (.profiles, 3) :: pdpPs) rfl (by simp) ?_ ?_).trans ?_
      · simp only [parse, Kw.of_text]
      · rw [hx2]; intro h; cases h
      · rw [hx2]; rfl
    rw [l2]
    exact ⟨_, rfl, rfl, rfl⟩

theorem read_pdpList {e : Env} (ps : List Pdp) : ∀ (done : List Pdp) (k : Nat) (r : Reader), (∀ p ∈ ps, PdpGood p) →
    (∀ q ∈ done, q.ctx ≠ 0) → ((done ++ ps).map (·.ctx)).Nodup → ps.length ≤ k → AtPdp r →
    r.st.slots = done ++ List.replicate k ({} : Pdp) →
    ∃ r', readLines e r (ps.flatMap writePdp) = some r' ∧
      r'.st = { r.st with slots := (done ++ ps) ++ List.replicate (k - ps.length) ({} : Pdp), num := r.st.num + ps.length } := by
  induction ps with
  | nil =>
    intro done k r _ _ _ _ _ hs
    refine ⟨r, rfl, ?_⟩
    simp only [List.append_nil, List.length_nil, Nat.sub_zero, Nat.add_zero]
    rw [← hs]
  | cons p ps ih =>
    intro done k r hp hd hn hk ha hs
    obtain ⟨k, rfl⟩ : ∃ j, k = j + 1 := ⟨k - 1, by simp at hk; omega⟩
    have hpp := hp p List.mem_cons_self
    have hnn : p.ctx ∉ done.map (·.ctx) := by
      intro hm
      rw [List.map_append, List.nodup_append] at hn
      exact hn.2.2 _ hm p.ctx (by simp) rfl
    obtain ⟨r1, h1, h2, h3⟩ := read_pdp (e := e) hpp hd hnn ha hs
    obtain ⟨r2, h4, h5⟩ := ih (done ++ [p]) k r1 (fun q hq => hp q (List.mem_cons_of_mem _ hq))
      (by
        intro q hq
        rcases List.mem_append.1 hq with hq | hq
        · exact hd q hq
        · cases List.mem_singleton.1 hq; exact hpp.1)
      (by simpa using hn) (by simp at hk; omega) h2 (by rw [h3])
    refine ⟨r2, ?_, ?_⟩
    · rw [List.flatMap_cons, readLines_append, h1]
      exact h4
    · rw [h5, h3]
      simp [Nat.add_assoc, Nat.add_comm 1]

/-- What the section brings back. -/
def pdpSt (s t : St) : St :=
  if s.pdpOn then
    { t with pdpOn := true, slots := s.slots.take s.num ++ List.replicate (10 - (s.slots.take s.num).length) ({} : Pdp),
             num := (s.slots.take s.num).length }
  else t

theorem ctxs_map {l : List Pdp} (h : ∀ p ∈ l, p.ctx ≠ 0) : ctxs l = l.map (·.ctx) := by
  induction l with
  | nil => rfl
  | cons p l ih =>
    rw [ctxs_cons, if_neg (h p List.mem_cons_self), ih fun q hq => h q (List.mem_cons_of_mem _ hq)]
    rfl

theorem ctxs_append (l m : List Pdp) : ctxs (l ++ m) = ctxs l ++ ctxs m := List.filterMap_append

theorem read_ps {e : Env} {s : St} (hi : Inv e s) (hg : s.pdpOn = true → ∀ p ∈ s.slots.take s.num, PdpGood p) {r : Reader}
    (h : AtHlr r) (t1 : r.st.slots = List.replicate 10 ({} : Pdp)) (t2 : r.st.num = 0) :
    ∃ r', readLines e r (writePs ++ writePdps s) = some r' ∧ r'.st = pdpSt s r.st := by
  have h0 : readLine e r (1, [Kw.text .ps]) = some { node := .ps, ind := none, parents := [(.hlr, 1), (.config, 0)], st := r.st } := by
    refine (readLine_at (e := e) (c := .ps) h (by simp) ?_ nofun).trans rfl
    simp only [parse, parseHlr, Kw.of_text, if_true]
  unfold writePs writePdps pdpSt
  rw [List.cons_append, List.nil_append, readLines, h0, Option.bind_some]
  cases hp : s.pdpOn with
  | false => exact ⟨_, rfl, rfl⟩
  | true =>
    have hg := hg hp
    have h1 : readLine e { node := .ps, ind := none, parents := [(.hlr, 1), (.config, 0)], st := r.st }
        (2, [Kw.text .pdpProfiles, Kw.text .default]) =
        some { node := .profiles, ind := none, parents := pdpPs, st := { r.st with pdpOn := true } } := by
      refine (readLine_at (e := e) (c := .pdpProfiles) (n := .ps) (ps := [(.hlr, 1), (.config, 0)]) rfl (by simp) ?_ nofun).trans rfl
      simp only [parse, Kw.of_text]
    rw [if_neg (by simp), readLines, h1, Option.bind_some]
    have hlen : (s.slots.take s.num).length ≤ 10 := by
      have := hi.slots
      rw [List.length_take]; omega
    have hnd : ((s.slots.take s.num).map (·.ctx)).Nodup := by
      rw [← ctxs_map fun p hp => (hg p hp).1]
      have := hi.ctx
      rw [← List.take_append_drop s.num s.slots, ctxs_append] at this
      exact (List.nodup_append.1 this).1
    obtain ⟨r', h2, h3⟩ := read_pdpList (e := e) (s.slots.take s.num) [] 10
      { node := .profiles, ind := none, parents := pdpPs, st := { r.st with pdpOn := true } } hg nofun hnd hlen rfl t1
    refine ⟨r', h2, ?_⟩
    rw [h3, if_pos rfl]
    simp only [List.nil_append, t2, Nat.zero_add]

/-! ## Where the APNs come from -/

/-- The APNs are the arguments of commands `apn`. -/
def ApnsOk (Q : Bytes → Prop) (s : St) : Prop :=
  ∀ p ∈ s.slots, ∀ x, p.apn = some x → ∃ a, x = apnEnc a ∧ a.length ≤ 99 ∧ Q a

theorem apns_exec {Q : Bytes → Prop} {s : St} (h : ApnsOk Q s) (file : Bool) (n : Node) {c : Cmd} (hc : ∀ a, c = .apn a → Q a) :
    ApnsOk Q (exec file n s c).2.2 := by
  cases c with
  | profile c =>
    unfold exec createPdp
    dsimp only
    split
    · exact h
    · split
      · rename_i i s' hs
        obtain ⟨j, hj, hs⟩ := Option.map_eq_some_iff.1 hs
        cases hs
        intro p hp x hx
        rcases List.mem_or_eq_of_mem_set hp with hp | rfl
        · exact h p hp x hx
        · cases hx
      · exact h
  | noProfile c =>
    unfold exec destroyPdp
    dsimp only
    split
    · intro p hp x hx
      rcases List.mem_or_eq_of_mem_set hp with hp | rfl
      · exact h p hp x hx
      · cases hx
    · exact h
  | apn a =>
    unfold exec
    dsimp only
    split
    · split
      · exact h
      · rename_i hl
        intro p hp x hx
        rcases mem_modify hp with hp | ⟨q, hq, rfl⟩
        · exact h p hp x hx
        · cases hx
          exact ⟨a, rfl, by unfold APN_MAXLEN at hl; omega, hc a rfl⟩
    · exact h
  | noApn =>
    unfold exec
    dsimp only
    split
    · intro p hp x hx
      rcases mem_modify hp with hp | ⟨q, hq, rfl⟩
      · exact h p hp x hx
      · cases hx
    · exact h
  | _ =>
    unfold exec
    try dsimp only
    repeat' split
    all_goals first
      | exact h
      | (obtain ⟨m, hm⟩ := execMsl_msl n s _; rw [hm]; exact h)

theorem kw_of {w : Bytes} {k : Kw} (h : Kw.of w = some k) : w = k.text := by
  have := List.find?_some h
  simp at this
  exact this.symm

theorem parseMsl_ne {e : Env} {n : Node} {ws : List Bytes} {a : Bytes} : parseMsl e n ws ≠ some (.apn a) := by
  intro h
  unfold parseMsl at h
  repeat' split at h
  all_goals first
    | (cases h; done)
    | (obtain ⟨v, hv, h⟩ := Option.map_eq_some_iff.1 h; cases h; done)

theorem parse_apn {e : Env} {n : Node} {ws : List Bytes} {a : Bytes} (h : parse e n ws = some (.apn a)) : ws = [b "apn", a] := by
  unfold parse at h
  split at h
  case h_2 => exact absurd rfl ((parseHlr_ne h).2 a)
  case h_9 => exact absurd h parseMsl_ne
  all_goals repeat' split at h
  all_goals first
    | (cases h; done)
    | (obtain ⟨v, hv, h⟩ := Option.map_eq_some_iff.1 h; cases h; done)
    | (cases h; rename_i hk; rw [kw_of hk]; rfl)
    | (cases h; rename_i hk _; rw [kw_of hk]; rfl)

theorem apns_config (e : Env) (h : List Input) (Q : Bytes → Prop) (hq : ∀ x ∈ h, ∀ a, x.words = [b "apn", a] → Q a) :
    ApnsOk Q (config e h) := by
  suffices H : ∀ (h : List Input) s, (∀ x ∈ h, ∀ a, x.words = [b "apn", a] → Q a) → ApnsOk Q s → ApnsOk Q (h.foldl (after e) s) from
    H h _ hq (by
      intro p hp x hx
      have : p = {} := by simpa using hp
      subst this
      cases hx)
  intro h
  induction h with
  | nil => intro s _ hi; exact hi
  | cons x h ih =>
    intro s hq hi
    refine ih _ (fun y hy => hq y (List.mem_cons_of_mem _ hy)) ?_
    unfold after
    split
    · exact hi
    · rename_i c hc
      refine apns_exec hi _ _ ?_
      rintro a rfl
      exact hq x List.mem_cons_self a (parse_apn hc)

/-! ## The whole file -/

theorem hlrCmds_good {e : Env} {s : St} (hi : Inv e s) : ∀ l ∈ writeHlr s, GoodLine l := by
  intro l hl
  unfold writeHlr at hl
  simp only [List.mem_append, List.mem_cons, List.not_mem_nil, or_false] at hl
  rcases hl with (((rfl | rfl | rfl) | hl) | hl) | rfl
  · exact ⟨0, .hlr, [], rfl, nofun⟩
  · exact ⟨1, .rejectCause, _, rfl, by simp [Kw.good, Rej.good]⟩
  · exact ⟨1, .rejectCause, _, rfl, by simp [Kw.good, Rej.good]⟩
  · split at hl
    · cases List.mem_singleton.1 hl
      exact ⟨1, .storeImei, [], rfl, nofun⟩
    · cases hl
  · split at hl
    · cases List.mem_singleton.1 hl
      exact ⟨1, .database, _, rfl, by simp [hi.db]⟩
    · cases hl
  · unfold writeCod
    have hf : GoodWord (if s.codCs && s.codPs then Kw.text .csps else if s.codCs then Kw.text .cs
        else if s.codPs then Kw.text .ps else Kw.text .none_) := by
      cases s.codCs <;> cases s.codPs <;> first | exact Kw.good .csps | exact Kw.good .cs | exact Kw.good .ps | exact Kw.good .none_
    cases s.cod with
    | disabled => exact ⟨1, .no, _, rfl, by simp [Kw.good]⟩
    | noMsisdn => exact ⟨1, .cod, _, rfl, by simp only [List.mem_cons, List.not_mem_nil, or_false, forall_eq_or_imp, forall_eq]; exact ⟨Kw.good _, hf⟩⟩
    | msisdnFromImsi => exact ⟨1, .cod, _, rfl, by simp only [List.mem_cons, List.not_mem_nil, or_false, forall_eq_or_imp, forall_eq]; exact ⟨Kw.good _, hf⟩⟩
    | randMsisdn l => exact ⟨1, .cod, _, rfl, by simp only [List.mem_cons, List.not_mem_nil, or_false, forall_eq_or_imp, forall_eq]; exact ⟨dec_good _, hf⟩⟩

theorem gsup_good {e : Env} {s : St} (hi : Inv e s) : ∀ l ∈ writeGsup s, GoodLine l := by
  intro l hl
  unfold writeGsup at hl
  simp only [List.mem_append, List.mem_cons, List.not_mem_nil, or_false] at hl
  rcases hl with (rfl | hl) | rfl
  · exact ⟨1, .gsup, [], rfl, nofun⟩
  · cases hb : s.bind with
    | none => rw [hb] at hl; cases hl
    | some a =>
      rw [hb] at hl
      cases List.mem_singleton.1 hl
      exact ⟨2, .bind, _, rfl, by simp [Kw.good, (hi.bind a hb).1]⟩
  · exact ⟨2, .ipaName, _, rfl, by simp [hi.ipa]⟩

theorem nameOf_good {l : List Ent} (h : ∀ x ∈ l, GoodWord x.name) {id : Nat} {x : Ent} (hx : deref l id = some x) : GoodWord (nameOf l id) := by
  unfold nameOf
  rw [hx]
  exact h x (deref_some hx).1

theorem iuse_good (i : Iuse) : GoodWord (iuseText i) := by cases i; exact Kw.good .ownMsisdn; exact Kw.good .ownImsi; exact Kw.good .testIdle

theorem euse_good {e : Env} {s : St} (hi : Inv e s) {u : List Line} (hu : writeEuse s = some u) : ∀ l ∈ u, GoodLine l := by
  obtain ⟨rfl, h1, h2⟩ := writeEuse_eq hu
  intro l hl
  obtain ⟨x, hx, rfl⟩ := List.mem_map.1 hl
  unfold euseCmds at hx
  rcases List.mem_append.1 hx with hx | hx
  · rcases List.mem_append.1 hx with hx | hx
    · rcases List.mem_append.1 hx with hx | hx
      · obtain ⟨y, hy, rfl⟩ := List.mem_map.1 hx
        exact ⟨1, .euse, _, rfl, by simp [hi.euseGood y hy]⟩
      · obtain ⟨r, hr, rfl⟩ := List.mem_map.1 hx
        have hp := hi.routeGood r hr
        dsimp only
        unfold routeWords
        cases ht : r.tgt with
        | int i => exact ⟨1, .ussd, _, rfl, by simp [Kw.good, hp, iuse_good]⟩
        | ext id =>
          obtain ⟨x, hx⟩ := h1 r hr id ht
          exact ⟨1, .ussd, _, rfl, by simp [Kw.good, hp, nameOf_good hi.euseGood hx]⟩
    · unfold defaultCmds at hx
      cases hd : s.euseDefault with
      | none => rw [hd] at hx; cases hx
      | some id =>
        rw [hd] at hx
        cases List.mem_singleton.1 hx
        obtain ⟨x, hx⟩ := h2 id hd
        exact ⟨1, .ussd, _, rfl, by simp [Kw.good, nameOf_good hi.euseGood hx]⟩
  · unfold guardCmds at hx
    split at hx
    · cases List.mem_singleton.1 hx
      exact ⟨1, .ncssGuardTimeout, _, rfl, by simp [dec_good]⟩
    · cases hx

theorem smsc_good {e : Env} {s : St} (hi : Inv e s) {u : List Line} (hu : writeSmsc s = some u) : ∀ l ∈ u, GoodLine l := by
  obtain ⟨rfl, h1, h2⟩ := writeSmsc_eq hu
  intro l hl
  obtain ⟨x, hx, rfl⟩ := List.mem_map.1 hl
  unfold smscCmds at hx
  rcases List.mem_append.1 hx with hx | hx
  · rcases List.mem_append.1 hx with hx | hx
    · obtain ⟨y, hy, rfl⟩ := List.mem_map.1 hx
      exact ⟨1, .smsc, _, rfl, by simp [Kw.good, hi.smscGood y hy]⟩
    · obtain ⟨r, hr, rfl⟩ := List.mem_map.1 hx
      obtain ⟨x, hx⟩ := h1 r hr
      exact ⟨1, .smsc, _, rfl, by simp [Kw.good, hi.smscRouteGood r hr, nameOf_good hi.smscGood hx]⟩
  · unfold smscDefaultCmds at hx
    cases hd : s.smscDefault with
    | none => rw [hd] at hx; cases hx
    | some id =>
      rw [hd] at hx
      cases List.mem_singleton.1 hx
      obtain ⟨x, hx⟩ := h2 id hd
      exact ⟨1, .smsc, _, rfl, by simp [Kw.good, nameOf_good hi.smscGood hx]⟩

theorem pdp_good {s : St} (hg : s.pdpOn = true → ∀ p ∈ s.slots.take s.num, PdpGood p) : ∀ l ∈ writePdps s, GoodLine l := by
  intro l hl
  unfold writePdps at hl
  split at hl
  · cases hl
  · rename_i hp
    rcases List.mem_cons.1 hl with rfl | hl
    · exact ⟨2, .pdpProfiles, _, rfl, by simp [Kw.good]⟩
    · obtain ⟨p, hpm, hl⟩ := List.mem_flatMap.1 hl
      obtain ⟨-, -, happ⟩ := hg (by simpa using hp) p hpm
      unfold writePdp at hl
      split at hl
      · cases hl
      · rcases List.mem_cons.1 hl with rfl | hl
        · exact ⟨3, .profile, _, rfl, by simp [dec_good]⟩
        · split at hl
          · split at hl
            · rename_i x hx
              split at hl
              · cases hl
              · cases List.mem_singleton.1 hl
                obtain ⟨a, rfl, hw, hlen, hlab⟩ := happ x hx
                rw [apnText_enc (goodApn_labels hlab) hlen]
                exact ⟨4, .apn, _, rfl, by simp [hw]⟩
            · cases hl
          · cases hl

/-- Everything the file brings back. -/
def reloaded (s : St) : St := pdpSt s (smscSt s (euseSt s { hlrSt s with bind := s.bind, ipa := s.ipa }))

theorem read_file {e : Env} {s : St} (hi : Inv e s) (hm : writeMsl e s.msl = [])
    (hg : s.pdpOn = true → ∀ p ∈ s.slots.take s.num, PdpGood p) {f : List Bytes} (hf : fileOf e s = some f) :
    readFile e f = some (reloaded s) := by
  unfold fileOf at hf
  obtain ⟨ls, hls, rfl⟩ := Option.map_eq_some_iff.1 hf
  unfold write at hls
  obtain ⟨u, hu, hls⟩ := Option.bind_eq_some_iff.1 hls
  obtain ⟨m, hms, hls⟩ := Option.bind_eq_some_iff.1 hls
  cases hls
  rw [hm, List.append_nil]
  unfold readFile
  rw [tokens_lines]
  · obtain ⟨r1, a1, b1, c1⟩ := read_hlr (e := e) hi
    obtain ⟨r2, a2, b2, c2⟩ := read_gsup (e := e) hi b1 (by rw [c1]; rfl)
    obtain ⟨r3, a3, b3, c3⟩ := read_euse (e := e) hi hu b2 (by rw [c2, c1]; rfl) (by rw [c2, c1]; rfl) (by rw [c2, c1]; rfl)
      (by rw [c2, c1]; rfl)
    obtain ⟨r4, a4, b4, c4⟩ := read_smsc (e := e) hi hms b3 (by rw [c3, c2, c1]; rfl) (by rw [c3, c2, c1]; rfl)
      (by rw [c3, c2, c1]; rfl)
    obtain ⟨r5, a5, c5⟩ := read_ps (e := e) hi hg b4 (by rw [c4, c3, c2, c1]; rfl) (by rw [c4, c3, c2, c1]; rfl)
    rw [List.append_assoc, readLines_append, readLines_append, readLines_append, readLines_append, a1, Option.bind_some, a2, Option.bind_some, a3,
      Option.bind_some, a4, Option.bind_some, a5, Option.map_some, c5, c4, c3, c2, c1]
    rfl
  · intro l hl
    rcases List.mem_append.1 hl with hl | hl
    · rcases List.mem_append.1 hl with hl | hl
      · rcases List.mem_append.1 hl with hl | hl
        · rcases List.mem_append.1 hl with hl | hl
          · rcases List.mem_append.1 hl with hl | hl
            · exact hlrCmds_good hi l hl
            · exact gsup_good hi l hl
          · exact euse_good hi hu l hl
        · exact smsc_good hi hms l hl
      · cases List.mem_singleton.1 hl
        exact ⟨1, .ps, [], rfl, nofun⟩
    · exact pdp_good hg l hl

end Verif.Config
