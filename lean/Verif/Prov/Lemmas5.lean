import Verif.Prov.Lemmas4
/-! # Lemmas on the provisioning commands: the effect of SET, create and delete -/
namespace Verif.Prov
open Verif Verif.Db Verif.Auc Verif.Mslookup Verif.Mslookup.Mdns

/-- The answer of a SET from one database call. -/
theorem answer_run (m : DbM Int) (e : Option Bytes) (w : World) :
    ((do pure (answer (.error e) (← m)) : DbM Reply) w).2.db = (m w).2.db
    ∧ (((do pure (answer (.error e) (← m)) : DbM Reply) w).1 = some okReply ↔ (m w).1 = some 0)
    ∧ (((do pure (answer (.error e) (← m)) : DbM Reply) w).1 = none ↔ (m w).1 = none) := by
  rw [bind_run]
  rcases h : m w with ⟨o, w'⟩
  cases o with
  | none => simp
  | some rc =>
    dsimp only
    refine ⟨rfl, ?_, ?_⟩
    · show some (answer (.error e) rc) = some okReply ↔ _
      unfold answer okReply
      by_cases h : rc = 0
      · simp [h]
      · simp [h]
    · constructor
      · intro h; cases h
      · intro h; cases h

/-- What a SET does under any script: nothing, or the one database call it stands for. -/
def OneCall (d : Db) (sc : Script) (sel : Bytes) (x : Var) (v : Bytes) (res : Option Reply × Db) : Prop :=
  (res.2 = d ∧ res.1 ≠ some okReply)
  ∨ ∃ c r op sc', selCond sel = .ok c ∧ d.subs.find? c = some r ∧ Stands r x v op
      ∧ res.2 = (exec op.run d sc').2
      ∧ (res.1 = some okReply ↔ (exec op.run d sc').1 = some 0)
      ∧ (res.1 = none ↔ (exec op.run d sc').1 = none)
      ∧ (sc = [] → sc' = [])

theorem withSub_oneCall {d : Db} {sel : Bytes} {x : Var} {v : Bytes} {k : HlrSubscr → DbM Reply} (sc : Script)
    (h : ∀ r ∈ d.subs, (∃ e, k (HlrSubscr.ofRow r) = pure (.error e))
      ∨ ∃ op e, Stands r x v op ∧ k (HlrSubscr.ofRow r) = (do pure (answer (.error e) (← op.run)) : DbM Reply)) :
    OneCall d sc sel x v (exec (withSub sel k) d sc) := by
  rcases withSub_run (k := k) sel { db := d, script := sc } with ⟨o, t, h1, h2⟩ | ⟨c, r, t, hc, hf, h1, ht⟩
  · left
    unfold exec
    rw [h1]
    refine ⟨rfl, ?_⟩
    rcases h2 with rfl | ⟨e, rfl⟩
    · intro h; cases h
    · intro h; cases h
  · rcases h r (List.mem_of_find?_eq_some hf) with ⟨e, he⟩ | ⟨op, e, hs, he⟩
    · left
      unfold exec
      rw [h1, he]
      exact ⟨rfl, fun h => by cases h⟩
    · right
      obtain ⟨a1, a2, a3⟩ := answer_run op.run e { db := d, script := t }
      refine ⟨c, r, op, t, hc, hf, hs, ?_⟩
      unfold exec
      rw [h1, he]
      exact ⟨a1, a2, a3, fun e => by rw [ht, e]; rfl⟩

theorem nam_unknown {d : Db} {i : Bytes} (h : ¬ Known d i) (v ps : Bool) (sc : Script) :
    (exec (subscrNam i v ps) d sc).2 = d ∧ (exec (subscrNam i v ps) d sc).1 ≠ some 0 := by
  have hc : d.subs.countP (fun r : SubRow => r.imsi == i) = 0 := by
    rw [List.countP_eq_zero]
    intro r hr e
    exact h ⟨r, hr, by simpa using e⟩
  have hm : ∀ f : SubRow → SubRow, d.subs.map (fun r => if (r.imsi == i) = true then f r else r) = d.subs := by
    intro f
    conv => rhs; rw [← List.map_id d.subs]
    apply List.map_congr_left
    intro r hr
    have : (r.imsi == i) = false := by
      rw [beq_eq_false_iff_ne]
      exact fun e => h ⟨r, hr, e⟩
    rw [this]
    rfl
  unfold subscrNam
  rw [exec_bind_stmt]
  unfold sqlUpdSub
  dsimp only
  rw [hc, hm]
  rcases sc with _ | ⟨_ | _ | _, sc⟩
  · exact ⟨rfl, by simp [exec_pure, updRc]⟩
  · exact ⟨rfl, by simp [exec_pure, updRc]⟩
  · exact ⟨rfl, by simp [exec_pure, updRc]⟩
  · exact ⟨rfl, by simp⟩

theorem withImsi_nam {d : Db} (hG : Good d) {sel v : Bytes} (hv : v = b "0" ∨ v = b "1") (ps : Bool) (sc : Script) :
    OneCall d sc sel (if ps then .ps else .cs) v
      (exec (withImsi sel fun i => do pure (answer (.error none) (← subscrNam i (v == b "1") ps))) d sc) := by
  have st : ∀ r : SubRow, Stands r (if ps then .ps else .cs) v (.nam r.imsi (v == b "1") ps) := by
    intro r
    cases ps
    · exact .cs hv
    · exact .ps hv
  unfold withImsi
  by_cases hp : startswith sel byImsi = true
  · rw [if_pos hp]
    obtain ⟨a1, a2, a3⟩ := answer_run (subscrNam (sel.drop byImsi.length) (v == b "1") ps) none { db := d, script := sc }
    by_cases hk : Known d (sel.drop byImsi.length)
    · right
      obtain ⟨r, hr, hi⟩ := hk
      have hv' : imsiValid (sel.drop byImsi.length) = true := by
        rw [← hi]; exact digits_valid.mpr (hG.idents r hr).1
      refine ⟨(·.imsi == sel.drop byImsi.length), r, .nam r.imsi (v == b "1") ps, sc, ?_, ?_, st r, ?_⟩
      · unfold selCond
        rw [if_pos hp, hv']
        rfl
      · cases hf : d.subs.find? (fun r : SubRow => r.imsi == sel.drop byImsi.length) with
        | none => exact absurd (by simpa using hi) (by simpa using List.find?_eq_none.mp hf r hr)
        | some r' =>
          have e1 := List.find?_some hf
          have e1 : r'.imsi = sel.drop byImsi.length := by simpa using e1
          rw [eq_of_nodup_map hG.unique.imsis (List.mem_of_find?_eq_some hf) hr (e1.trans hi.symm)]
      · rw [← hi] at a1 a2 a3 ⊢
        exact ⟨a1, a2, a3, fun e => e⟩
    · left
      obtain ⟨n1, n2⟩ := nam_unknown hk (v == b "1") ps sc
      exact ⟨a1.trans n1, fun h => n2 (a2.mp h)⟩
  · rw [if_neg hp]
    refine withSub_oneCall sc fun r hr => .inr ⟨.nam r.imsi (v == b "1") ps, none, st r, ?_⟩
    rw [ofRow_imsi hG hr]
    rfl

theorem parseErr2 {v : Bytes} {e : Reply} (h : parseAud2 v = .error e) : ∃ t, e = .error t := by
  unfold parseAud2 err at h
  repeat' split at h
  all_goals first
    | (cases h; done)
    | (cases h; exact ⟨_, rfl⟩)

theorem parseOpcErr {a : AlgoInfo} {v : Bytes} {e : Reply} (h : parseOpc a v = .error e) : ∃ t, e = .error t := by
  unfold parseOpc err at h
  dsimp only at h
  split at h
  · cases h; exact ⟨_, rfl⟩
  · split at h
    · cases h; exact ⟨_, rfl⟩
    · split at h
      · split at h
        · cases h; exact ⟨_, rfl⟩
        · cases h
      · cases h

theorem parseErr3 {v : Bytes} {e : Reply} (h : parseAud3 v = .error e) : ∃ t, e = .error t := by
  unfold parseAud3 at h
  split at h
  · cases h; exact ⟨_, rfl⟩
  · split at h
    · cases h
    · split at h
      · cases h; exact ⟨_, rfl⟩
      · split at h
        · cases h
        · split at h
          · cases h; exact ⟨_, rfl⟩
          · split at h
            · cases h; exact ⟨_, rfl⟩
            · split at h
              · cases h; exact ⟨_, rfl⟩
              · split at h
                · cases h; exact ⟨_, rfl⟩
                · split at h
                  · rename_i ho; cases h; exact parseOpcErr ho
                  · cases h

/-- Every SET under any script. -/
theorem set_oneCall {d : Db} (hG : Good d) (sel : Bytes) (x : Var) (v : Bytes) (sc : Script) :
    OneCall d sc sel x v (exec (set sel x v) d sc) := by
  have no : ∀ s : String, OneCall d sc sel x v (exec (pure (err s)) d sc) := fun s => .inl ⟨rfl, fun h => by cases h⟩
  unfold set setVar
  cases x <;> dsimp only
  case imsi => exact no _
  case info => exact no _
  case infoAud => exact no _
  case infoAll => exact no _
  all_goals split
  all_goals try exact no _
  case cs hv => exact withImsi_nam hG (by simpa [verify] using hv) false sc
  case ps hv => exact withImsi_nam hG (by simpa [verify] using hv) true sc
  case msisdn hv =>
    have hv : v.length ≤ 15 ∧ (v = b "none" ∨ msisdnValid v = true) := by simpa [verify] using hv
    refine withSub_oneCall sc fun r hr => .inr ?_
    rw [ofRow_imsi hG hr]
    by_cases h : v = b "none"
    · subst h
      refine ⟨_, some (b "Update MSISDN failed"), .noMsisdn, ?_⟩
      rw [if_pos rfl]
      rfl
    · rcases hv.2 with hv | hv
      · exact absurd hv h
      · refine ⟨_, some (b "Update MSISDN failed"), .msisdn (digits_valid.mp hv), ?_⟩
        rw [if_neg h]
        rfl
  case aud2g hv =>
    refine withSub_oneCall sc fun r hr => ?_
    cases hp : parseAud2 v with
    | error e =>
      left
      obtain ⟨t, rfl⟩ := parseErr2 hp
      exact ⟨t, rfl⟩
    | ok a => exact .inr ⟨_, _, parseAud2_stands r hp, rfl⟩
  case aud3g hv =>
    refine withSub_oneCall sc fun r hr => ?_
    cases hp : parseAud3 v with
    | error e =>
      left
      obtain ⟨t, rfl⟩ := parseErr3 hp
      exact ⟨t, rfl⟩
    | ok a => exact .inr ⟨_, _, parseAud3_stands r hp, rfl⟩

/-! ## A working database -/

theorem audNone2 {d : Db} (hG : Good d) (id : Int) (k : Bytes) :
    exec (updateAud id (.gsm .none k)) d []
      = if (key2 d id).isSome then (some 0, withKey2 d id none) else (some (-ENOENT), d) := by
  rw [updateAud]
  show exec (stmt (sqlDelAuc2 id) .error >>= fun a => match audAfterDelete true a with
      | .inl rc => (pure rc : DbM Int)
      | .inr () => do pure (audAfterInsert (← stmt (sqlInsAuc2 { id := id, algo := .none, ki := k }) .error))) d [] = _
  rw [exec_bind_stmt]
  dsimp only
  have hw : (sqlDelAuc2 id d).2 = withKey2 d id none := by simp [sqlDelAuc2, withKey2]
  rcases delAuc2_count d hG.unique id with h | h
  · have hc : d.auc2.countP (fun a : Auc2 => a.id == id) = 0 := by simpa [sqlDelAuc2] using h
    have hz := List.countP_eq_zero.mp hc
    have hf : d.auc2.filter (fun a : Auc2 => a.id != id) = d.auc2 := by
      rw [List.filter_eq_self]
      intro a ha
      simpa using hz a ha
    have hk : key2 d id = none := by
      unfold key2
      rw [List.find?_eq_none]
      exact hz
    have he : (sqlDelAuc2 id d).2 = d := by
      unfold sqlDelAuc2
      dsimp only
      rw [hf]
    rw [h, hk, he]
    rfl
  · have hc : d.auc2.countP (fun a : Auc2 => a.id == id) = 1 := by simpa [sqlDelAuc2] using h
    have hk : (key2 d id).isSome = true := by
      unfold key2
      rw [List.find?_isSome]
      obtain ⟨a, ha, e⟩ := List.countP_pos_iff.mp (by omega : 0 < d.auc2.countP (fun a : Auc2 => a.id == id))
      exact ⟨a, ha, e⟩
    rw [h, hk, hw]
    rfl

theorem audNone3 {d : Db} (hG : Good d) (id : Int) (k o : Bytes) (p : Bool) (bl : Nat) :
    exec (updateAud id (.umts .none k o p bl)) d []
      = if (key3 d id).isSome then (some 0, withKey3 d id none) else (some (-ENOENT), d) := by
  rw [updateAud]
  show exec (stmt (sqlDelAuc3 id) .error >>= fun a => match audAfterDelete true a with
      | .inl rc => (pure rc : DbM Int)
      | .inr () => do pure (audAfterInsert (← stmt (sqlInsAuc3 (mkAuc3 id .none k o p bl)) .error))) d [] = _
  rw [exec_bind_stmt]
  dsimp only
  have hw : (sqlDelAuc3 id d).2 = withKey3 d id none := by simp [sqlDelAuc3, withKey3]
  rcases delAuc3_count d hG.unique id with h | h
  · have hc : d.auc3.countP (fun a : Auc3 => a.id == id) = 0 := by simpa [sqlDelAuc3] using h
    have hz := List.countP_eq_zero.mp hc
    have hf : d.auc3.filter (fun a : Auc3 => a.id != id) = d.auc3 := by
      rw [List.filter_eq_self]
      intro a ha
      simpa using hz a ha
    have hk : key3 d id = none := by
      unfold key3
      rw [List.find?_eq_none]
      exact hz
    have he : (sqlDelAuc3 id d).2 = d := by
      unfold sqlDelAuc3
      dsimp only
      rw [hf]
    rw [h, hk, he]
    rfl
  · have hc : d.auc3.countP (fun a : Auc3 => a.id == id) = 1 := by simpa [sqlDelAuc3] using h
    have hk : (key3 d id).isSome = true := by
      unfold key3
      rw [List.find?_isSome]
      obtain ⟨a, ha, e⟩ := List.countP_pos_iff.mp (by omega : 0 < d.auc3.countP (fun a : Auc3 => a.id == id))
      exact ⟨a, ha, e⟩
    rw [h, hk, hw]
    rfl

/-- Any call other than a deletion that is not acknowledged changed nothing. -/
theorem op_refused {d : Db} (hG : Good d) {op : Op} (hop : ∃ r x v, Stands r x v op) :
    (exec op.run d []).1 = some 0 ∨ (exec op.run d []).2 = d := by
  obtain ⟨r, x, v, hs⟩ := hop
  have aud2 : ∀ id al k, (exec (updateAud id (.gsm al k)) d []).1 = some 0 ∨ (exec (updateAud id (.gsm al k)) d []).2 = d := by
    intro id al k
    by_cases hv : aud2Valid al k = true
    · by_cases hn : al = .none
      · subst hn
        rw [audNone2 hG]
        split
        · exact .inl rfl
        · exact .inr rfl
      · left
        rcases exec_aud2 d hG.unique [] id al k hv hn with ⟨h, -⟩ | ⟨h, -⟩ | ⟨-, h, -⟩ | ⟨-, h, -⟩ | ⟨-, -, h⟩
        · cases h
        · cases h
        · cases h
        · cases h
        · rw [h]
    · right
      have hv : aud2Valid al k = false := by simpa using hv
      rw [updateAud, hv]
      rfl
  have aud3 : ∀ id al k o p bl, (exec (updateAud id (.umts al k o p bl)) d []).1 = some 0
      ∨ (exec (updateAud id (.umts al k o p bl)) d []).2 = d := by
    intro id al k o p bl
    by_cases hv : aud3Valid al k o bl = true
    · by_cases hn : al = .none
      · subst hn
        rw [audNone3 hG]
        split
        · exact .inl rfl
        · exact .inr rfl
      · left
        rcases exec_aud3 d hG.unique [] id al k o p bl hv hn with ⟨h, -⟩ | ⟨h, -⟩ | ⟨-, h, -⟩ | ⟨-, h, -⟩ | ⟨-, -, h⟩
        · cases h
        · cases h
        · cases h
        · cases h
        · rw [h]
    · right
      have hv : aud3Valid al k o bl = false := by simpa using hv
      rw [updateAud, hv]
      rfl
  cases hs with
  | cs h =>
    have c := contract_nam d hG.unique [] r.imsi (v == b "1") false
    by_cases h : (exec (subscrNam r.imsi (v == b "1") false) d []).1 = some 0
    · exact .inl h
    · exact .inr (c.noEffect h)
  | ps h =>
    have c := contract_nam d hG.unique [] r.imsi (v == b "1") true
    by_cases h : (exec (subscrNam r.imsi (v == b "1") true) d []).1 = some 0
    · exact .inl h
    · exact .inr (c.noEffect h)
  | msisdn h =>
    have c := contract_msisdn d hG.unique [] r.imsi v
    by_cases h : (exec (updateMsisdn r.imsi (some v)) d []).1 = some 0
    · exact .inl h
    · exact .inr (c.noEffect h)
  | noMsisdn =>
    have c := contract_delMsisdn d hG.unique [] r.imsi
    by_cases h : (exec (updateMsisdn r.imsi none) d []).1 = some 0
    · exact .inl h
    · exact .inr (c.noEffect h)
  | aud2 => exact aud2 _ _ _
  | noAud2 => exact aud2 _ _ _
  | aud3 => exact aud3 _ _ _ _ _ _
  | noAud3 => exact aud3 _ _ _ _ _ _

/-! ## What an acknowledged call did, under any script -/

theorem eio_ne {x : Db} (h : ((some (-EIO), x) : Option Int × Db).1 = some 0) : False := by
  have h : some (-EIO) = some (0 : Int) := h
  revert h
  decide

theorem einval_ne (h : some (-EINVAL) = some (0 : Int)) : False := by revert h; decide

theorem aud2_ok {d : Db} (hG : Good d) {sc : Script} {id : Int} {al : Algo} {k : Bytes}
    (h : (exec (updateAud id (.gsm al k)) d sc).1 = some 0) (hn : al ≠ .none) :
    Key2Ok { id := id, algo := al, ki := k }
    ∧ (exec (updateAud id (.gsm al k)) d sc).2 = withKey2 d id (some { id := id, algo := al, ki := k }) := by
  by_cases hv : aud2Valid al k = true
  · have hq := (aud2Valid_iff al k).mp hv
    refine ⟨?_, ?_⟩
    · revert hq
      cases al
      case none => exact absurd rfl hn
      all_goals exact fun h => h
    · rcases exec_aud2 d hG.unique sc id al k hv hn with ⟨-, e⟩ | ⟨-, e⟩ | ⟨-, -, e⟩ | ⟨-, -, e⟩ | ⟨-, -, e⟩
      · rw [e] at h; cases h
      · rw [e] at h; exact (eio_ne h).elim
      · rw [e] at h; cases h
      · rw [e] at h; exact (eio_ne h).elim
      · rw [e]; rfl
  · have hv : aud2Valid al k = false := by simpa using hv
    rw [updateAud, hv] at h
    exact (einval_ne h).elim

theorem aud3_ok {d : Db} (hG : Good d) {sc : Script} {id : Int} {al : Algo} {k o : Bytes} {p : Bool} {bl : Nat}
    (h : (exec (updateAud id (.umts al k o p bl)) d sc).1 = some 0) (hn : al ≠ .none) (hx : al ≠ .xor3g) :
    al = .milenage ∧ Key3Ok (newKey3 id k o p bl)
    ∧ (exec (updateAud id (.umts al k o p bl)) d sc).2 = withKey3 d id (some (newKey3 id k o p bl)) := by
  by_cases hv : aud3Valid al k o bl = true
  · have hq := (aud3Valid_iff al k o p bl).mp hv
    have hm : al = .milenage := by
      revert hv hx hn
      cases al <;> simp [aud3Valid]
    subst hm
    refine ⟨rfl, ?_, ?_⟩
    · obtain ⟨-, h1, h2, h3⟩ : _ ∧ Hex32to64 k ∧ Hex32to64 o ∧ bl ≤ 28 := hq
      refine ⟨by simp [newKey3], h1, h3, ?_⟩
      cases p
      · exact .inr ⟨o, rfl, rfl, h2⟩
      · exact .inl ⟨o, rfl, rfl, h2⟩
    · rcases exec_aud3 d hG.unique sc id .milenage k o p bl hv hn with ⟨-, e⟩ | ⟨-, e⟩ | ⟨-, -, e⟩ | ⟨-, -, e⟩ | ⟨-, -, e⟩
      · rw [e] at h; cases h
      · rw [e] at h; exact (eio_ne h).elim
      · rw [e] at h; cases h
      · rw [e] at h; exact (eio_ne h).elim
      · rw [e]; rfl
  · have hv : aud3Valid al k o bl = false := by simpa using hv
    rw [updateAud, hv] at h
    exact (einval_ne h).elim

theorem none2_ok {d : Db} {sc : Script} {id : Int} {k : Bytes}
    (h : (exec (updateAud id (.gsm .none k)) d sc).1 = some 0) :
    (exec (updateAud id (.gsm .none k)) d sc).2 = withKey2 d id none := by
  have hw : (sqlDelAuc2 id d).2 = withKey2 d id none := by simp [sqlDelAuc2, withKey2]
  have he : exec (updateAud id (.gsm .none k)) d sc = exec (stmt (sqlDelAuc2 id) .error >>= fun a => match audAfterDelete true a with
      | .inl rc => (pure rc : DbM Int)
      | .inr () => do pure (audAfterInsert (← stmt (sqlInsAuc2 { id := id, algo := .none, ki := k }) .error))) d sc := rfl
  rw [he, exec_bind_stmt] at h ⊢
  rw [← hw]
  have key : ∀ (a : WRes) (x : Db) (t : Script), (exec (match audAfterDelete true a with
      | .inl rc => (pure rc : DbM Int)
      | .inr () => do pure (audAfterInsert (← stmt (sqlInsAuc2 { id := id, algo := .none, ki := k }) .error))) x t).2 = x := by
    intro a x t
    rcases a with n | _ | _
    · rcases n with _ | _ | n <;> rfl
    · rfl
    · rfl
  rcases sc with _ | ⟨_ | _ | _, sc⟩
  · exact key _ _ _
  · exact key _ _ _
  · exact (eio_ne h).elim
  · cases h

theorem none3_ok {d : Db} {sc : Script} {id : Int} {k o : Bytes} {p : Bool} {bl : Nat}
    (h : (exec (updateAud id (.umts .none k o p bl)) d sc).1 = some 0) :
    (exec (updateAud id (.umts .none k o p bl)) d sc).2 = withKey3 d id none := by
  have hw : (sqlDelAuc3 id d).2 = withKey3 d id none := by simp [sqlDelAuc3, withKey3]
  have he : exec (updateAud id (.umts .none k o p bl)) d sc = exec (stmt (sqlDelAuc3 id) .error >>= fun a => match audAfterDelete true a with
      | .inl rc => (pure rc : DbM Int)
      | .inr () => do pure (audAfterInsert (← stmt (sqlInsAuc3 (mkAuc3 id .none k o p bl)) .error))) d sc := rfl
  rw [he, exec_bind_stmt] at h ⊢
  rw [← hw]
  have key : ∀ (a : WRes) (x : Db) (t : Script), (exec (match audAfterDelete true a with
      | .inl rc => (pure rc : DbM Int)
      | .inr () => do pure (audAfterInsert (← stmt (sqlInsAuc3 (mkAuc3 id .none k o p bl)) .error))) x t).2 = x := by
    intro a x t
    rcases a with n | _ | _
    · rcases n with _ | _ | n <;> rfl
    · rfl
    · rfl
  rcases sc with _ | ⟨_ | _ | _, sc⟩
  · exact key _ _ _
  · exact key _ _ _
  · exact (eio_ne h).elim
  · cases h

/-- An acknowledged call has the effect the value asks for. -/
theorem stands_effect {d : Db} (hG : Good d) {r : SubRow} {x : Var} {v : Bytes} {op : Op}
    (hs : Stands r x v op) {sc : Script} (h : (exec op.run d sc).1 = some 0) : Effect d r x v (exec op.run d sc).2 := by
  have fl : (v == b "1") = decide (v = b "1") := by
    by_cases e : v = b "1"
    · simp [e]
    · simp [e]
  cases hs with
  | cs hv =>
    have c := contract_nam d hG.unique sc r.imsi (v == b "1") false
    rw [show (exec (Op.nam r.imsi (v == b "1") false).run d sc).2 = _ from c.effect h, fl]
    exact .cs hv
  | ps hv =>
    have c := contract_nam d hG.unique sc r.imsi (v == b "1") true
    rw [show (exec (Op.nam r.imsi (v == b "1") true).run d sc).2 = _ from c.effect h, fl]
    exact .ps hv
  | msisdn hv =>
    have c := contract_msisdn d hG.unique sc r.imsi v
    rw [show (exec (Op.msisdn r.imsi (some v)).run d sc).2 = _ from c.effect h]
    exact .msisdn hv (c.success.mp h).2.2.1
  | noMsisdn =>
    have c := contract_delMsisdn d hG.unique sc r.imsi
    rw [show (exec (Op.msisdn r.imsi none).run d sc).2 = _ from c.effect h]
    exact .noMsisdn
  | aud2 hf hc hn hx =>
    obtain ⟨h1, h2⟩ := aud2_ok hG h hn
    rw [show (exec (Op.aud r.id _).run d sc).2 = _ from h2]
    exact .aud2 hf hc h1
  | noAud2 hf hc =>
    rw [show (exec (Op.aud r.id _).run d sc).2 = _ from none2_ok h]
    exact .noAud2 hf hc
  | aud3 hf hc hn hx hch hb =>
    obtain ⟨rfl, h1, h2⟩ := aud3_ok hG h hn hx
    rw [show (exec (Op.aud r.id _).run d sc).2 = _ from h2]
    exact .aud3 hf hc hch hb h1
  | noAud3 hf hc =>
    rw [show (exec (Op.aud r.id _).run d sc).2 = _ from none3_ok h]
    exact .noAud3 hf hc

/-! ## Other subscribers -/

/-- The rows and keys of a subscriber. -/
def SameFor (q : SubRow) (d d' : Db) : Prop :=
  (q ∈ d'.subs) ∧ key2 d' q.id = key2 d q.id ∧ key3 d' q.id = key3 d q.id

theorem find_filter {α : Type} (l l' : List α) (p c : α → Bool) (h : ∀ a, c a = true → p a = true)
    (e : l.filter p = l'.filter p) : l.find? c = l'.find? c := by
  have key : ∀ l : List α, l.find? c = (l.filter p).find? c := by
    intro l
    induction l with
    | nil => rfl
    | cons a l ih =>
      by_cases hc : c a = true
      · rw [List.filter_cons, if_pos (h a hc), List.find?_cons_of_pos hc, List.find?_cons_of_pos hc]
      · rw [List.find?_cons_of_neg hc, ih, List.filter_cons]
        split
        · rw [List.find?_cons_of_neg hc]
        · rfl
  rw [key l, key l', e]

theorem others_same {d : Db} (hG : Good d) {r q : SubRow} (hr : r ∈ d.subs) (hq : q ∈ d.subs) (hne : q ≠ r)
    {x : Var} {v : Bytes} {op : Op} (hs : Stands r x v op) (sc : Script) : SameFor q d (exec op.run d sc).2 := by
  have hf := (othersSame_op op).exec d sc
  have hi : q.imsi ≠ r.imsi := fun e => hne (eq_of_nodup_map hG.unique.imsis hq hr e)
  have hid : q.id ≠ r.id := fun e => hne (eq_of_nodup_map hG.unique.ids hq hr e)
  have o : op.ownsSub q = false ∧ op.ownsKey2 q.id = false ∧ op.ownsKey3 q.id = false := by
    cases hs <;> simp [Op.ownsSub, Op.ownsKey2, Op.ownsKey3, hi, hid]
  refine ⟨?_, ?_, ?_⟩
  · have : q ∈ d.subs.filter (fun r => !op.ownsSub r) := by
      rw [List.mem_filter]
      exact ⟨hq, by rw [o.1]; rfl⟩
    rw [← hf.subs] at this
    exact (List.mem_filter.mp this).1
  · unfold key2
    refine find_filter _ _ (fun a => !op.ownsKey2 a.id) _ ?_ hf.auc2
    intro a ha
    have : a.id = q.id := by simpa using ha
    rw [this, o.2.1]; rfl
  · unfold key3
    refine find_filter _ _ (fun a => !op.ownsKey3 a.id) _ ?_ hf.auc3
    intro a ha
    have : a.id = q.id := by simpa using ha
    rw [this, o.2.2]; rfl

end Verif.Prov
