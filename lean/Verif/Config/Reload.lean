import Verif.Config.Inv
/-! # Reading the written configuration -/
namespace Verif.Config
open Verif Verif.Sys Verif.Mslookup Verif.Mslookup.Mdns Verif.Config.Spec

/-! ## Lines -/

def GoodLine (l : Line) : Prop := ∃ (i : Nat) (k : Kw) (ws : List Bytes), l = (i, k.text :: ws) ∧ ∀ w ∈ ws, GoodWord w

theorem tokens_good {l : Line} (h : GoodLine l) : tokens l.text = l := by
  obtain ⟨i, k, ws, rfl, hw⟩ := h
  exact tokens_kw hw

theorem tokens_lines {ls : List Line} (h : ∀ l ∈ ls, GoodLine l) : (ls.map Line.text).map tokens = ls := by
  rw [List.map_map]
  conv => rhs; rw [← List.map_id ls]
  exact List.map_congr_left fun l hl => tokens_good (h l hl)

/-! ## Commands of the node `hlr` -/

theorem execMsl_complete (n : Node) (s : St) (c : Cmd) : (execMsl n s c).1 ≠ .incomplete := by
  unfold execMsl
  split
  all_goals try unfold svcCmd
  all_goals try unfold bindHalf
  all_goals repeat' split
  all_goals first
    | (intro h; cases h; done)
    | (rename_i h; intro h'; rw [h] at h'; cases h'; done)
    | (dsimp only; repeat' split) <;> (intro h; cases h; done)

theorem exec_complete (file : Bool) (n : Node) (s : St) {c : Cmd} (h1 : ∀ x, c ≠ .profile x) (h2 : ∀ x, c ≠ .apn x) :
    (exec file n s c).1 ≠ .incomplete := by
  unfold exec
  split
  all_goals first
    | exact absurd rfl (h1 _)
    | exact absurd rfl (h2 _)
    | exact execMsl_complete n s _
    | skip
  all_goals repeat' split
  all_goals (intro h; cases h; done)

theorem parseHlr_ne {ws : List Bytes} {c : Cmd} (h : parseHlr ws = some c) : (∀ x, c ≠ .profile x) ∧ ∀ x, c ≠ .apn x := by
  unfold parseHlr parseNoHlr at h
  repeat' split at h
  all_goals first
    | (cases h; done)
    | (cases h; exact ⟨nofun, nofun⟩)
    | (obtain ⟨v, hv, rfl⟩ := Option.map_eq_some_iff.1 h; exact ⟨nofun, nofun⟩)

theorem kind_hlr {n : Node} (h : n.kind = Node.kind .hlr) : n = .hlr := by
  cases n with
  | hlr => rfl
  | server m => cases m <;> cases h
  | _ => cases h

/-- The next line indented by one is a command of the node `hlr`. -/
def AtHlr (r : Reader) : Prop := align 1 r.node r.ind r.parents = some (.hlr, 1, [(.config, 0)])

/-- Lines that are commands of the node `hlr`. -/
theorem hlrLines {e : Env} (cs : List (List Bytes × Cmd)) (hp : ∀ x ∈ cs, parseHlr x.1 = some x.2) {r : Reader} (h : AtHlr r) :
    ∃ r', readLines e r (cs.map fun x => (1, x.1)) = some r' ∧ AtHlr r' ∧
      r'.st = cs.foldl (fun s x => (exec true .hlr s x.2).2.2) r.st := by
  induction cs generalizing r with
  | nil => exact ⟨r, rfl, h, rfl⟩
  | cons x cs ih =>
    have hx := hp x List.mem_cons_self
    have hw : x.1 ≠ [] := by
      intro e; rw [e] at hx; cases hx
    have hl := readLine_at (e := e) h hw (show parse e .hlr x.1 = some x.2 from hx)
      (exec_complete true .hlr r.st (parseHlr_ne hx).1 (parseHlr_ne hx).2)
    rw [List.map_cons, readLines, hl, List.foldl_cons]
    split
    · rename_i hk
      refine ih (fun y hy => hp y (List.mem_cons_of_mem _ hy)) (r := ⟨_, _, _, _⟩) ?_
      unfold AtHlr
      dsimp only
      rw [kind_hlr hk]
      rfl
    · exact ih (fun y hy => hp y (List.mem_cons_of_mem _ hy)) (r := ⟨_, _, _, _⟩) rfl

/-- The effect of a command of the node `hlr` in the file. -/
abbrev ex (s : St) (c : Cmd) : St := (exec true .hlr s c).2.2

/-! ## The section `hlr` -/

def codCmd (s : St) : List Bytes × Cmd :=
  ((writeCod s).2, match s.cod with
    | .disabled => .noCod
    | m => .cod m s.codCs s.codPs)

def hlrCmds (s : St) : List (List Bytes × Cmd) :=
  [([Kw.text .rejectCause, Kw.text .notFound, s.rej.text], .reject false s.rej),
   ([Kw.text .rejectCause, Kw.text .noProxy, s.noProxy.text], .reject true s.noProxy)]
  ++ (if s.storeImei then [([Kw.text .storeImei], .storeImei)] else [])
  ++ (if s.db ≠ b "hlr.db" then [([Kw.text .database, s.db], .database s.db)] else [])
  ++ [codCmd s]

theorem writeHlr_eq (s : St) : writeHlr s = (0, [Kw.text .hlr]) :: (hlrCmds s).map fun x => (1, x.1) := by
  unfold writeHlr hlrCmds codCmd writeCod
  cases s.storeImei <;> by_cases h : s.db ≠ b "hlr.db" <;> cases s.cod <;> simp [h]

theorem hlrCmds_ok {e : Env} {s : St} (hi : Inv e s) : ∀ x ∈ hlrCmds s, parseHlr x.1 = some x.2 := by
  intro x hx
  unfold hlrCmds at hx
  simp only [List.mem_append, List.mem_cons, List.not_mem_nil, or_false] at hx
  rcases hx with (((rfl | rfl) | hx) | hx) | rfl
  · simp only [parseHlr, Kw.of_text, Rej.of_text, Option.map_some]
  · simp only [parseHlr, Kw.of_text, Rej.of_text, Option.map_some]
  · split at hx
    · simp only [List.mem_cons, List.not_mem_nil, or_false] at hx
      subst hx
      simp only [parseHlr, Kw.of_text, if_true]
    · cases hx
  · split at hx
    · simp only [List.mem_cons, List.not_mem_nil, or_false] at hx
      subst hx
      simp only [parseHlr, Kw.of_text]
    · cases hx
  · unfold codCmd writeCod
    have hf : codFlags (if s.codCs && s.codPs then Kw.text .csps else if s.codCs then Kw.text .cs
        else if s.codPs then Kw.text .ps else Kw.text .none_) = some (s.codCs, s.codPs) := by
      cases s.codCs <;> cases s.codPs <;> simp [codFlags, Kw.of_text]
    cases hc : s.cod with
    | disabled => simp only [parseHlr, parseNoHlr, Kw.of_text]
    | noMsisdn => simp only [parseHlr, codMode, Kw.of_text, hf]
    | msisdnFromImsi => simp only [parseHlr, codMode, Kw.of_text, hf]
    | randMsisdn l =>
      obtain ⟨h3, h15⟩ := hi.cod l hc
      have hm : codMode (dec l) = some (.randMsisdn l) := by
        obtain ⟨l', rfl⟩ : ∃ l', l = l' + 3 := ⟨l - 3, by omega⟩
        have : l' < 13 := by omega
        clear hc h3 h15
        revert l'
        decide +kernel
      simp only [parseHlr, Kw.of_text, hf, hm]

/-- What the section brings back. -/
def hlrSt (s : St) : St :=
  { rej := s.rej, noProxy := s.noProxy, storeImei := s.storeImei, db := s.db, cod := s.cod,
    codCs := if s.cod = .disabled then false else s.codCs, codPs := if s.cod = .disabled then false else s.codPs }

theorem hlrCmds_st (s : St) : (hlrCmds s).foldl (fun s x => ex s x.2) {} = hlrSt s := by
  unfold hlrCmds codCmd hlrSt
  by_cases h : s.db = b "hlr.db"
  · rw [h]
    cases s.storeImei <;> cases hc : s.cod <;> rfl
  · rw [if_pos h]
    cases s.storeImei <;> cases hc : s.cod <;> rfl

theorem read_hlr {e : Env} {s : St} (hi : Inv e s) : ∃ r, readLines e {} (writeHlr s) = some r ∧ AtHlr r ∧ r.st = hlrSt s := by
  rw [writeHlr_eq, readLines]
  have h0 : readLine e {} (0, [Kw.text .hlr]) = some { node := .hlr, ind := none, parents := [(.config, 0)], st := {} } := by
    refine (readLine_at (e := e) (r := {}) (n := .config) (c := .hlr) (ps := []) rfl (by simp) ?_ nofun).trans rfl
    simp only [parse, Kw.of_text]
  rw [h0]
  obtain ⟨r, h1, h2, h3⟩ := hlrLines (e := e) (hlrCmds s) (hlrCmds_ok hi)
    (r := { node := .hlr, ind := none, parents := [(.config, 0)], st := {} }) rfl
  exact ⟨r, h1, h2, h3.trans (hlrCmds_st s)⟩

/-! ## The section `gsup` -/

theorem read_gsup {e : Env} {s : St} (hi : Inv e s) {r : Reader} (h : AtHlr r) (hb : r.st.bind = none) :
    ∃ r', readLines e r (writeGsup s) = some r' ∧ AtHlr r' ∧ r'.st = { r.st with bind := s.bind, ipa := s.ipa } := by
  have h0 : readLine e r (1, [Kw.text .gsup]) = some { node := .gsup, ind := none, parents := [(.hlr, 1), (.config, 0)], st := r.st } := by
    refine (readLine_at (e := e) (c := .gsup) h (by simp) ?_ nofun).trans rfl
    simp only [parse, parseHlr, Kw.of_text, if_true]
  have hb : ∀ (r : Reader) a, s.bind = some a → r.node = .gsup → r.ind = none → r.parents = [(.hlr, 1), (.config, 0)] →
      readLine e r (2, [Kw.text .bind, Kw.text .ip, a]) =
      some { node := .gsup, ind := some 2, parents := [(.hlr, 1), (.config, 0)], st := { r.st with bind := some a } } := by
    intro r a ha h1 h2 h3
    refine (readLine_at (e := e) (c := .bindIp a) (n := .gsup) (ps := [(.hlr, 1), (.config, 0)]) ?_ (by simp) ?_ nofun).trans rfl
    · rw [h1, h2, h3]; rfl
    · simp only [parse, Kw.of_text, (hi.bind a ha).2, if_true]
  have hn : ∀ (r : Reader), align 2 r.node r.ind r.parents = some (.gsup, 2, [(.hlr, 1), (.config, 0)]) →
      readLine e r (2, [Kw.text .ipaName, s.ipa]) =
      some { node := .gsup, ind := some 2, parents := [(.hlr, 1), (.config, 0)], st := { r.st with ipa := s.ipa } } := by
    intro r h
    refine (readLine_at (e := e) (c := .ipaName s.ipa) h (by simp) ?_ nofun).trans rfl
    simp only [parse, Kw.of_text]
  unfold writeGsup
  cases hs : s.bind with
  | none =>
    refine ⟨{ node := .gsup, ind := some 2, parents := [(.hlr, 1), (.config, 0)], st := { r.st with ipa := s.ipa } }, ?_, rfl, ?_⟩
    · dsimp only
      rw [List.append_nil, List.cons_append, List.nil_append, readLines, h0, Option.bind_some, readLines, hn]
      · rfl
      · rfl
    · dsimp only
      have := ‹r.st.bind = none›
      rw [← this]
  | some a =>
    refine ⟨{ node := .gsup, ind := some 2, parents := [(.hlr, 1), (.config, 0)],
              st := { r.st with bind := some a, ipa := s.ipa } }, ?_, rfl, rfl⟩
    dsimp only
    show readLines e r [_, _, _] = _
    rw [readLines, h0, Option.bind_some, readLines,
      hb _ a hs rfl rfl rfl, Option.bind_some, readLines, hn]
    · rfl
    · rfl

/-! ## EUSEs, SMSCs and routes -/

/-- The objects made for these names. -/
def mkEnts (i : Nat) : List Bytes → List Ent
  | [] => []
  | n :: ns => ⟨i, n⟩ :: mkEnts (i + 1) ns

theorem mkEnts_names (i : Nat) (ns : List Bytes) : (mkEnts i ns).map (·.name) = ns := by
  induction ns generalizing i with
  | nil => rfl
  | cons n ns ih => rw [mkEnts, List.map_cons, ih]

theorem mkEnts_ge {i : Nat} {ns : List Bytes} {x : Ent} (h : x ∈ mkEnts i ns) : i ≤ x.id := by
  induction ns generalizing i with
  | nil => cases h
  | cons n ns ih =>
    rw [mkEnts] at h
    rcases List.mem_cons.1 h with rfl | h
    · exact Nat.le_refl _
    · have := ih h; omega

theorem mkEnts_ids (i : Nat) (ns : List Bytes) : ((mkEnts i ns).map (·.id)).Nodup := by
  induction ns generalizing i with
  | nil => exact List.nodup_nil
  | cons n ns ih =>
    rw [mkEnts, List.map_cons, List.nodup_cons]
    refine ⟨?_, ih _⟩
    intro hm
    obtain ⟨x, hx, e⟩ := List.mem_map.1 hm
    have := mkEnts_ge hx
    dsimp only at e
    omega

theorem deref_mem {l : List Ent} (hn : (l.map (·.id)).Nodup) {x : Ent} (hx : x ∈ l) : deref l x.id = some x := by
  induction l with
  | nil => cases hx
  | cons y l ih =>
    rw [List.map_cons, List.nodup_cons] at hn
    unfold deref
    rcases List.mem_cons.1 hx with rfl | hx
    · rw [List.find?_cons_of_pos (by simp)]
    · rw [List.find?_cons_of_neg]
      · exact ih hn.2 hx
      · intro e
        have : y.id = x.id := by simpa using e
        exact hn.1 (this ▸ List.mem_map_of_mem hx)

theorem deref_some {l : List Ent} {id : Nat} {x : Ent} (h : deref l id = some x) : x ∈ l ∧ x.id = id :=
  ⟨List.mem_of_find?_eq_some h, by have := List.find?_some h; simpa using this⟩

theorem entFind_some {l : List Ent} {n : Bytes} (h : n ∈ l.map (·.name)) : ∃ x, entFind l n = some x := by
  cases hf : entFind l n with
  | some x => exact ⟨x, rfl⟩
  | none => exact absurd h (entFind_none hf)

/-- The object that has the name of this object. -/
def reid (old new : List Ent) (id : Nat) : Nat :=
  match deref old id with
  | some x => match entFind new x.name with
    | some y => y.id
    | none => 0
  | none => 0

theorem deref_reid {old new : List Ent} (hid : (new.map (·.id)).Nodup) (hn : new.map (·.name) = old.map (·.name)) {id : Nat}
    {x : Ent} (hx : deref old id = some x) : (deref new (reid old new id)).map (·.name) = some x.name := by
  obtain ⟨y, hy⟩ := entFind_some (l := new) (n := x.name) (by rw [hn]; exact List.mem_map_of_mem (deref_some hx).1)
  unfold reid
  rw [hx]
  dsimp only
  rw [hy]
  dsimp only
  rw [deref_mem hid (entFind_mem hy).1]
  exact congrArg some (entFind_mem hy).2

theorem fold_euse (ns : List Bytes) : ∀ t : St, (t.euses.map (·.name) ++ ns).Nodup →
    (ns.map Cmd.euse).foldl ex t = { t with euses := t.euses ++ mkEnts t.nextId ns, nextId := t.nextId + ns.length } := by
  induction ns with
  | nil => intro t _; simp [mkEnts]
  | cons n ns ih =>
    intro t hn
    rw [List.map_cons, List.foldl_cons]
    have hf : entFind t.euses n = none := by
      refine List.find?_eq_none.2 fun x hx e => ?_
      have e : x.name = n := by simpa using e
      rw [List.nodup_append] at hn
      exact hn.2.2 _ (List.mem_map_of_mem hx) n List.mem_cons_self e
    have hx : ex t (.euse n) = { t with euses := t.euses ++ [⟨t.nextId, n⟩], nextId := t.nextId + 1 } := by
      unfold ex exec
      dsimp only
      rw [hf]
    rw [hx, ih]
    · simp [mkEnts, Nat.add_assoc, Nat.add_comm 1]
    · simpa using hn

theorem fold_smsc (ns : List Bytes) : ∀ t : St, (t.smscs.map (·.name) ++ ns).Nodup →
    (ns.map Cmd.smscEntity).foldl ex t = { t with smscs := t.smscs ++ mkEnts t.nextId ns, nextId := t.nextId + ns.length } := by
  induction ns with
  | nil => intro t _; simp [mkEnts]
  | cons n ns ih =>
    intro t hn
    rw [List.map_cons, List.foldl_cons]
    have hf : entFind t.smscs n = none := by
      refine List.find?_eq_none.2 fun x hx e => ?_
      have e : x.name = n := by simpa using e
      rw [List.nodup_append] at hn
      exact hn.2.2 _ (List.mem_map_of_mem hx) n List.mem_cons_self e
    have hx : ex t (.smscEntity n) = { t with smscs := t.smscs ++ [⟨t.nextId, n⟩], nextId := t.nextId + 1 } := by
      unfold ex exec
      dsimp only
      rw [hf]
    rw [hx, ih]
    · simp [mkEnts, Nat.add_assoc, Nat.add_comm 1]
    · simpa using hn

/-- The name of an object. -/
def nameOf (l : List Ent) (id : Nat) : Bytes := match deref l id with | some x => x.name | none => []

def routeCmd (s : St) (r : URoute) : Cmd :=
  match r.tgt with
  | .int i => .routeInt r.pfx i
  | .ext id => .routeExt r.pfx (nameOf s.euses id)

/-- The same route with the new objects. -/
def reroute (old new : List Ent) (r : URoute) : URoute :=
  ⟨r.pfx, match r.tgt with
    | .int i => .int i
    | .ext id => .ext (reid old new id)⟩

/-- No route leads to an object that has been freed. -/
def RouteOk (s : St) (r : URoute) : Prop := ∀ id, r.tgt = .ext id → ∃ x, deref s.euses id = some x

theorem fold_route (s : St) (new : List Ent) (hnew : new.map (·.name) = s.euses.map (·.name)) (rs : List URoute) :
    ∀ t : St, t.euses = new → (t.routes.map (·.pfx) ++ rs.map (·.pfx)).Nodup → (∀ r ∈ rs, RouteOk s r) →
    (rs.map (routeCmd s)).foldl ex t = { t with routes := t.routes ++ rs.map (reroute s.euses new) } := by
  induction rs with
  | nil => intro t _ _ _; simp
  | cons r rs ih =>
    intro t ht hn hok
    rw [List.map_cons, List.foldl_cons]
    have hf : routeFind t.routes r.pfx = none := by
      refine List.find?_eq_none.2 fun x hx e => ?_
      have e : x.pfx = r.pfx := by simpa using e
      rw [List.nodup_append] at hn
      exact hn.2.2 _ (List.mem_map_of_mem hx) r.pfx List.mem_cons_self e
    have hx : ex t (routeCmd s r) = { t with routes := t.routes ++ [reroute s.euses new r] } := by
      unfold routeCmd reroute
      cases hr : r.tgt with
      | int i =>
        unfold ex exec
        dsimp only
        rw [hf]
      | ext id =>
        obtain ⟨x, hx⟩ := hok r List.mem_cons_self id hr
        obtain ⟨y, hy⟩ := entFind_some (l := new) (n := x.name) (by rw [hnew]; exact List.mem_map_of_mem (deref_some hx).1)
        unfold ex exec nameOf reid
        dsimp only
        rw [hf, hx]
        dsimp only
        rw [ht, hy]
    rw [hx, ih]
    · simp
    · exact ht
    · simpa [reroute] using hn
    · exact fun r' hr' => hok r' (List.mem_cons_of_mem _ hr')

def smscRouteCmd (s : St) (r : SRoute) : Cmd := .smscRoute r.num (nameOf s.smscs r.smsc)

def reSmsc (old new : List Ent) (r : SRoute) : SRoute := ⟨r.num, reid old new r.smsc⟩

theorem fold_smscRoute (s : St) (new : List Ent) (hnew : new.map (·.name) = s.smscs.map (·.name)) (rs : List SRoute) :
    ∀ t : St, t.smscs = new → (t.smscRoutes.map (·.num) ++ rs.map (·.num)).Nodup → (∀ r ∈ rs, ∃ x, deref s.smscs r.smsc = some x) →
    (rs.map (smscRouteCmd s)).foldl ex t = { t with smscRoutes := t.smscRoutes ++ rs.map (reSmsc s.smscs new) } := by
  induction rs with
  | nil => intro t _ _ _; simp
  | cons r rs ih =>
    intro t ht hn hok
    rw [List.map_cons, List.foldl_cons]
    have hf : smscRouteFind t.smscRoutes r.num = none := by
      refine List.find?_eq_none.2 fun x hx e => ?_
      have e : x.num = r.num := by simpa using e
      rw [List.nodup_append] at hn
      exact hn.2.2 _ (List.mem_map_of_mem hx) r.num List.mem_cons_self e
    have hx : ex t (smscRouteCmd s r) = { t with smscRoutes := t.smscRoutes ++ [reSmsc s.smscs new r] } := by
      obtain ⟨x, hx⟩ := hok r List.mem_cons_self
      obtain ⟨y, hy⟩ := entFind_some (l := new) (n := x.name) (by rw [hnew]; exact List.mem_map_of_mem (deref_some hx).1)
      unfold smscRouteCmd reSmsc ex exec nameOf reid
      dsimp only
      rw [hf, hx]
      dsimp only
      rw [ht, hy]
    rw [hx, ih]
    · simp
    · exact ht
    · simpa [reSmsc] using hn
    · exact fun r' hr' => hok r' (List.mem_cons_of_mem _ hr')

/-! ## The section of the EUSEs -/

theorem allSome_map {α β : Type} {f : α → Option β} {l : List α} {m : List β} (h : allSome (l.map f) = some m) :
    (∀ x ∈ l, ∃ y, f x = some y) ∧ ∀ (g : α → β), (∀ x ∈ l, ∀ y, f x = some y → y = g x) → m = l.map g := by
  induction l generalizing m with
  | nil => cases h; exact ⟨nofun, fun _ _ => rfl⟩
  | cons x l ih =>
    rw [List.map_cons] at h
    cases hx : f x with
    | none => rw [hx] at h; cases h
    | some y =>
      rw [hx] at h
      obtain ⟨m', hm, rfl⟩ := Option.map_eq_some_iff.1 h
      obtain ⟨h1, h2⟩ := ih hm
      refine ⟨?_, ?_⟩
      · intro z hz
        rcases List.mem_cons.1 hz with rfl | hz
        · exact ⟨y, hx⟩
        · exact h1 z hz
      · intro g hg
        rw [List.map_cons, ← hg x List.mem_cons_self y hx, ← h2 g fun z hz => hg z (List.mem_cons_of_mem _ hz)]

def routeWords (s : St) (r : URoute) : List Bytes :=
  match r.tgt with
  | .int i => [Kw.text .ussd, Kw.text .route, Kw.text .prefix, r.pfx, Kw.text .internal, iuseText i]
  | .ext id => [Kw.text .ussd, Kw.text .route, Kw.text .prefix, r.pfx, Kw.text .external, nameOf s.euses id]

def defaultCmds (s : St) : List (List Bytes × Cmd) :=
  match s.euseDefault with
  | none => []
  | some id => [([Kw.text .ussd, Kw.text .defaultRoute, Kw.text .external, nameOf s.euses id], .ussdDefault (nameOf s.euses id))]

def guardCmds (s : St) : List (List Bytes × Cmd) :=
  if s.guard ≠ 30 then [([Kw.text .ncssGuardTimeout, dec s.guard], .guard s.guard)] else []

def euseCmds (s : St) : List (List Bytes × Cmd) :=
  s.euses.map (fun x => ([Kw.text .euse, x.name], .euse x.name)) ++ s.routes.map (fun r => (routeWords s r, routeCmd s r))
  ++ defaultCmds s ++ guardCmds s

theorem writeEuse_eq {s : St} {u : List Line} (h : writeEuse s = some u) :
    u = (euseCmds s).map (fun x => (1, x.1)) ∧ (∀ r ∈ s.routes, RouteOk s r) ∧
    ∀ id, s.euseDefault = some id → ∃ x, deref s.euses id = some x := by
  unfold writeEuse at h
  obtain ⟨rs, hrs, h⟩ := Option.bind_eq_some_iff.1 h
  obtain ⟨d, hd, h⟩ := Option.bind_eq_some_iff.1 h
  cases h
  obtain ⟨h1, h2⟩ := allSome_map hrs
  have hrs' := h2 (fun r => (1, routeWords s r)) (by
    intro r _ y hy
    unfold writeRoute at hy
    unfold routeWords
    cases ht : r.tgt with
    | int i => rw [ht] at hy; cases hy; rfl
    | ext id =>
      rw [ht] at hy
      obtain ⟨x, hx, rfl⟩ := Option.map_eq_some_iff.1 hy
      unfold nameOf
      dsimp only
      rw [hx])
  have hd' : d = (defaultCmds s).map (fun x => (1, x.1)) ∧ ∀ id, s.euseDefault = some id → ∃ x, deref s.euses id = some x := by
    unfold writeUssdDefault at hd
    unfold defaultCmds
    cases hdf : s.euseDefault with
    | none => rw [hdf] at hd; cases hd; exact ⟨rfl, nofun⟩
    | some id =>
      rw [hdf] at hd
      obtain ⟨x, hx, rfl⟩ := Option.map_eq_some_iff.1 hd
      refine ⟨?_, fun id' e => by cases e; exact ⟨x, hx⟩⟩
      unfold nameOf
      dsimp only
      rw [hx]
      rfl
  refine ⟨?_, ?_, hd'.2⟩
  · unfold euseCmds guardCmds
    rw [List.map_append, List.map_append, List.map_append, List.map_map, List.map_map, ← hd'.1, hrs']
    congr 1
    split <;> rfl
  · intro r hr id hid
    obtain ⟨y, hy⟩ := h1 r hr
    unfold writeRoute at hy
    rw [hid] at hy
    obtain ⟨x, hx, -⟩ := Option.map_eq_some_iff.1 hy
    exact ⟨x, hx⟩

theorem euseCmds_ok {e : Env} {s : St} (hi : Inv e s) : ∀ x ∈ euseCmds s, parseHlr x.1 = some x.2 := by
  intro x hx
  unfold euseCmds at hx
  rcases List.mem_append.1 hx with hx | hx
  · rcases List.mem_append.1 hx with hx | hx
    · rcases List.mem_append.1 hx with hx | hx
      · obtain ⟨y, hy, rfl⟩ := List.mem_map.1 hx
        simp only [parseHlr, Kw.of_text]
      · obtain ⟨r, hr, rfl⟩ := List.mem_map.1 hx
        unfold routeWords routeCmd
        cases r.tgt with
        | int i => cases i <;> simp only [parseHlr, Kw.of_text, iuseText]
        | ext id => simp only [parseHlr, Kw.of_text]
    · unfold defaultCmds at hx
      cases hd : s.euseDefault with
      | none => rw [hd] at hx; cases hx
      | some id =>
        rw [hd] at hx
        cases List.mem_singleton.1 hx
        simp only [parseHlr, Kw.of_text]
  · unfold guardCmds at hx
    split at hx
    · cases List.mem_singleton.1 hx
      have := hi.guard
      simp only [parseHlr, Kw.of_text, rangeVal_dec (Nat.zero_le s.guard) this (by omega), Option.map_some]
    · cases hx

/-- What the section brings back. -/
def euseSt (s t : St) : St :=
  let new := mkEnts t.nextId (s.euses.map (·.name))
  { t with euses := new, nextId := t.nextId + s.euses.length, routes := s.routes.map (reroute s.euses new),
           euseDefault := s.euseDefault.map (reid s.euses new), guard := s.guard }

theorem euseCmds_st {e : Env} {s t : St} (hi : Inv e s) (h1 : ∀ r ∈ s.routes, RouteOk s r)
    (h2 : ∀ id, s.euseDefault = some id → ∃ x, deref s.euses id = some x)
    (t1 : t.euses = []) (t2 : t.routes = []) (t3 : t.euseDefault = none) (t4 : t.guard = 30) :
    (euseCmds s).foldl (fun s x => ex s x.2) t = euseSt s t := by
  rw [← List.foldl_map (f := Prod.snd) (g := ex)]
  unfold euseCmds
  rw [List.map_append, List.map_append, List.map_append, List.foldl_append, List.foldl_append, List.foldl_append, List.map_map,
    List.map_map]
  have e1 : (s.euses.map (Prod.snd ∘ fun x => ([Kw.text .euse, x.name], Cmd.euse x.name))) = (s.euses.map (·.name)).map Cmd.euse := by
    rw [List.map_map]; rfl
  have hnew : (mkEnts t.nextId (s.euses.map (·.name))).map (·.name) = s.euses.map (·.name) := mkEnts_names ..
  rw [e1, fold_euse _ t (by rw [t1]; simpa using hi.euseNames)]
  rw [show (Prod.snd ∘ fun r => (routeWords s r, routeCmd s r)) = routeCmd s from rfl,
    fold_route s _ hnew s.routes _ (by rw [t1]; rfl) (by dsimp only; rw [t2]; simpa using hi.routePfx) h1]
  dsimp only
  have hd : ∀ u : St, u.euses = mkEnts t.nextId (s.euses.map (·.name)) → u.euseDefault = none →
      ((defaultCmds s).map Prod.snd).foldl ex u =
      { u with euseDefault := s.euseDefault.map (reid s.euses (mkEnts t.nextId (s.euses.map (·.name)))) } := by
    intro u hu hu2
    unfold defaultCmds
    cases hd : s.euseDefault with
    | none =>
      show u = { u with euseDefault := none }
      rw [← hu2]
    | some id =>
      obtain ⟨x, hx⟩ := h2 id hd
      obtain ⟨y, hy⟩ := entFind_some (l := mkEnts t.nextId (s.euses.map (·.name))) (n := x.name)
        (by rw [hnew]; exact List.mem_map_of_mem (deref_some hx).1)
      show ex u (.ussdDefault (nameOf s.euses id)) = _
      unfold ex exec nameOf
      rw [Option.map_some]
      unfold reid
      dsimp only
      rw [hx]
      dsimp only
      rw [hu, hy]
  rw [hd _ (by dsimp only; rw [t1]; rfl) (by dsimp only; exact t3)]
  unfold guardCmds euseSt
  dsimp only
  rw [t1, t2]
  simp only [List.nil_append, List.length_map]
  by_cases hg : s.guard = 30
  · rw [if_neg (by simpa using hg), hg, ← t4]
    rfl
  · rw [if_pos hg]
    rfl

theorem read_euse {e : Env} {s : St} (hi : Inv e s) {u : List Line} (hu : writeEuse s = some u) {r : Reader} (h : AtHlr r)
    (t1 : r.st.euses = []) (t2 : r.st.routes = []) (t3 : r.st.euseDefault = none) (t4 : r.st.guard = 30) :
    ∃ r', readLines e r u = some r' ∧ AtHlr r' ∧ r'.st = euseSt s r.st := by
  obtain ⟨rfl, h1, h2⟩ := writeEuse_eq hu
  obtain ⟨r', hr, ha, hs⟩ := hlrLines (e := e) (euseCmds s) (euseCmds_ok hi) h
  exact ⟨r', hr, ha, hs.trans (euseCmds_st hi h1 h2 t1 t2 t3 t4)⟩

/-! ## The section of the SMSCs -/

def smscDefaultCmds (s : St) : List (List Bytes × Cmd) :=
  match s.smscDefault with
  | none => []
  | some id => [([Kw.text .smsc, Kw.text .defaultRoute, nameOf s.smscs id], .smscDefault (nameOf s.smscs id))]

def smscCmds (s : St) : List (List Bytes × Cmd) :=
  s.smscs.map (fun x => ([Kw.text .smsc, Kw.text .entity, x.name], .smscEntity x.name))
  ++ s.smscRoutes.map (fun r => ([Kw.text .smsc, Kw.text .route, r.num, nameOf s.smscs r.smsc], smscRouteCmd s r))
  ++ smscDefaultCmds s

theorem writeSmsc_eq {s : St} {u : List Line} (h : writeSmsc s = some u) :
    u = (smscCmds s).map (fun x => (1, x.1)) ∧ (∀ r ∈ s.smscRoutes, ∃ x, deref s.smscs r.smsc = some x) ∧
    ∀ id, s.smscDefault = some id → ∃ x, deref s.smscs id = some x := by
  unfold writeSmsc at h
  obtain ⟨rs, hrs, h⟩ := Option.bind_eq_some_iff.1 h
  obtain ⟨d, hd, h⟩ := Option.bind_eq_some_iff.1 h
  cases h
  obtain ⟨h1, h2⟩ := allSome_map hrs
  have hrs' := h2 (fun r => (1, [Kw.text .smsc, Kw.text .route, r.num, nameOf s.smscs r.smsc])) (by
    intro r _ y hy
    unfold writeSmscRoute at hy
    obtain ⟨x, hx, rfl⟩ := Option.map_eq_some_iff.1 hy
    unfold nameOf
    rw [hx])
  have hd' : d = (smscDefaultCmds s).map (fun x => (1, x.1)) ∧ ∀ id, s.smscDefault = some id → ∃ x, deref s.smscs id = some x := by
    unfold writeSmscDefault at hd
    unfold smscDefaultCmds
    cases hdf : s.smscDefault with
    | none => rw [hdf] at hd; cases hd; exact ⟨rfl, nofun⟩
    | some id =>
      rw [hdf] at hd
      obtain ⟨x, hx, rfl⟩ := Option.map_eq_some_iff.1 hd
      refine ⟨?_, fun id' e => by cases e; exact ⟨x, hx⟩⟩
      unfold nameOf
      dsimp only
      rw [hx]
      rfl
  refine ⟨?_, ?_, hd'.2⟩
  · unfold smscCmds
    rw [List.map_append, List.map_append, List.map_map, List.map_map, ← hd'.1, hrs']
    rfl
  · intro r hr
    obtain ⟨y, hy⟩ := h1 r hr
    unfold writeSmscRoute at hy
    obtain ⟨x, hx, -⟩ := Option.map_eq_some_iff.1 hy
    exact ⟨x, hx⟩

theorem smscCmds_ok (s : St) : ∀ x ∈ smscCmds s, parseHlr x.1 = some x.2 := by
  intro x hx
  unfold smscCmds at hx
  rcases List.mem_append.1 hx with hx | hx
  · rcases List.mem_append.1 hx with hx | hx
    · obtain ⟨y, hy, rfl⟩ := List.mem_map.1 hx
      simp only [parseHlr, Kw.of_text]
    · obtain ⟨r, hr, rfl⟩ := List.mem_map.1 hx
      simp only [parseHlr, Kw.of_text, smscRouteCmd]
  · unfold smscDefaultCmds at hx
    cases hd : s.smscDefault with
    | none => rw [hd] at hx; cases hx
    | some id =>
      rw [hd] at hx
      cases List.mem_singleton.1 hx
      simp only [parseHlr, Kw.of_text]

/-- What the section brings back. -/
def smscSt (s t : St) : St :=
  let new := mkEnts t.nextId (s.smscs.map (·.name))
  { t with smscs := new, nextId := t.nextId + s.smscs.length, smscRoutes := s.smscRoutes.map (reSmsc s.smscs new),
           smscDefault := s.smscDefault.map (reid s.smscs new) }

theorem smscCmds_st {e : Env} {s t : St} (hi : Inv e s) (h1 : ∀ r ∈ s.smscRoutes, ∃ x, deref s.smscs r.smsc = some x)
    (h2 : ∀ id, s.smscDefault = some id → ∃ x, deref s.smscs id = some x)
    (t1 : t.smscs = []) (t2 : t.smscRoutes = []) (t3 : t.smscDefault = none) :
    (smscCmds s).foldl (fun s x => ex s x.2) t = smscSt s t := by
  rw [← List.foldl_map (f := Prod.snd) (g := ex)]
  unfold smscCmds
  rw [List.map_append, List.map_append, List.foldl_append, List.foldl_append, List.map_map, List.map_map]
  have e1 : (s.smscs.map (Prod.snd ∘ fun x => ([Kw.text .smsc, Kw.text .entity, x.name], Cmd.smscEntity x.name))) =
      (s.smscs.map (·.name)).map Cmd.smscEntity := by
    rw [List.map_map]; rfl
  have hnew : (mkEnts t.nextId (s.smscs.map (·.name))).map (·.name) = s.smscs.map (·.name) := mkEnts_names ..
  rw [e1, fold_smsc _ t (by rw [t1]; simpa using hi.smscNames)]
  rw [show (Prod.snd ∘ fun r => ([Kw.text .smsc, Kw.text .route, r.num, nameOf s.smscs r.smsc], smscRouteCmd s r)) = smscRouteCmd s from rfl,
    fold_smscRoute s _ hnew s.smscRoutes _ (by rw [t1]; rfl) (by dsimp only; rw [t2]; simpa using hi.smscRouteNum) h1]
  dsimp only
  unfold smscSt
  dsimp only
  rw [t1, t2]
  simp only [List.nil_append, List.length_map]
  unfold smscDefaultCmds
  cases hd : s.smscDefault with
  | none =>
    rw [List.map_nil, List.foldl_nil, t3]
    rfl
  | some id =>
    obtain ⟨x, hx⟩ := h2 id hd
    obtain ⟨y, hy⟩ := entFind_some (l := mkEnts t.nextId (s.smscs.map (·.name))) (n := x.name)
      (by rw [hnew]; exact List.mem_map_of_mem (deref_some hx).1)
    rw [List.map_cons, List.map_nil, List.foldl_cons, List.foldl_nil]
    unfold ex exec nameOf
    rw [Option.map_some]
    have hre : reid s.smscs (mkEnts t.nextId (s.smscs.map (·.name))) id = y.id := by
      unfold reid
      rw [hx]
      dsimp only
      rw [hy]
    rw [hre, hx]
    dsimp only
    rw [hy]

theorem read_smsc {e : Env} {s : St} (hi : Inv e s) {u : List Line} (hu : writeSmsc s = some u) {r : Reader} (h : AtHlr r)
    (t1 : r.st.smscs = []) (t2 : r.st.smscRoutes = []) (t3 : r.st.smscDefault = none) :
    ∃ r', readLines e r u = some r' ∧ AtHlr r' ∧ r'.st = smscSt s r.st := by
  obtain ⟨rfl, h1, h2⟩ := writeSmsc_eq hu
  obtain ⟨r', hr, ha, hs⟩ := hlrLines (e := e) (smscCmds s) (smscCmds_ok s) h
  exact ⟨r', hr, ha, hs.trans (smscCmds_st hi h1 h2 t1 t2 t3)⟩

end Verif.Config
