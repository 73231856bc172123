import Verif.Prov.VtyLemmas
import Verif.Prov.Lemmas6
/-! # Lemmas on the VTY: running the commands -/
namespace Verif.Prov.Vty
open Verif Verif.Db Verif.Auc Verif.Mslookup Verif.Mslookup.Mdns Verif.Prov

/-- The command ended with CMD_SUCCESS. -/
def Succ (o : Option Res) : Prop := ∃ tx ac, o = some (.done true tx ac)

theorem not_succ_warn (t : Bytes) : ¬ Succ (some (warn t)) := by rintro ⟨tx, ac, h⟩; cases h
theorem not_succ_none : ¬ Succ none := by rintro ⟨tx, ac, h⟩; cases h

theorem withSub_eq (t : IdType) (id : Bytes) (k : Bytes → HlrSubscr → DbM Res) :
    withSub t id k = (dbSel (cond t id) >>= fun a => match a with
      | (_, none) => pure (warn ((ident t id).2 ++ b "% No subscriber for " ++ t.text ++ b " = '" ++ (ident t id).1 ++ b "'\n"))
      | (_, some row) => k (ident t id).2 (HlrSubscr.ofRow row)) := by
  unfold withSub
  rw [lookup_eq]
  rfl

theorem withSub_exec (t : IdType) (id : Bytes) (k : Bytes → HlrSubscr → DbM Res) (d : Db) (sc : Script) :
    (exec (withSub t id k) d sc).2 = d ∧ ¬ Succ (exec (withSub t id k) d sc).1 ∧ (exec (withSub t id k) d sc).1 ≠ some .ub
    ∨ ∃ r, d.subs.find? (cond t id) = some r
        ∧ exec (withSub t id k) d sc = exec (k (strip t id) (HlrSubscr.ofRow r)) d sc.tail := by
  rw [withSub_eq]
  rcases exec_sel (cond t id) (fun a => match a with
      | (_, none) => pure (warn ((ident t id).2 ++ b "% No subscriber for " ++ t.text ++ b " = '" ++ (ident t id).1 ++ b "'\n"))
      | (_, some row) => k (ident t id).2 (HlrSubscr.ofRow row)) d sc with e | e | ⟨-, e⟩ | ⟨r, hf, e⟩
  · rw [e]; exact .inl ⟨rfl, not_succ_none, by simp⟩
  · rw [e]; exact .inl ⟨rfl, not_succ_warn _, fun h => by cases h⟩
  · rw [e]; exact .inl ⟨rfl, not_succ_warn _, fun h => by cases h⟩
  · rw [e, ident_snd]; exact .inr ⟨r, hf, rfl⟩

theorem withSub_found {t : IdType} {id : Bytes} {d : Db} {r : SubRow} (hf : d.subs.find? (cond t id) = some r)
    (k : Bytes → HlrSubscr → DbM Res) :
    exec (withSub t id k) d [] = exec (k (strip t id) (HlrSubscr.ofRow r)) d [] := by
  rw [withSub_eq]
  unfold exec
  rw [bind_run, dbSel_nil, hf, ident_snd]

theorem withSub_none {t : IdType} {id : Bytes} {d : Db} (hf : d.subs.find? (cond t id) = none)
    (k : Bytes → HlrSubscr → DbM Res) :
    exec (withSub t id k) d [] = (some (warn (strip t id ++ b "% No subscriber for " ++ t.text ++ b " = '" ++ (ident t id).1
      ++ b "'\n")), d) := by
  rw [withSub_eq]
  unfold exec
  rw [bind_run, dbSel_nil, hf, ident_snd]
  rfl

/-! ## Uniformity -/

theorem withSub_uniform (t : IdType) (id : Bytes) {k : Bytes → HlrSubscr → DbM Res} (h : ∀ p s, Uniform (k p s)) :
    Uniform (withSub t id k) := by
  unfold withSub
  rw [lookup_eq]
  refine .bind (dbSel_uniform _) fun a => ?_
  obtain ⟨rc, o⟩ := a
  cases o with
  | none => exact .pure _
  | some r => exact h _ _

theorem dump_uniform (ck : Clock) (s : HlrSubscr) : Uniform (dump ck s) := by
  refine .ite (.pure _) (.bind (getAuthData_uniform _) fun a => ?_)
  cases a with
  | keys _ g u => exact .pure _
  | err rc => exact .ite (.pure _) (.pure _)

theorem setKeys_uniform (t : IdType) (id : Bytes) (a : AudStr) (e : Bool) (w : Bytes) : Uniform (setKeys t id a e w) :=
  withSub_uniform t id fun _ _ => .bind (updateAud_uniform _ _) fun _ => .ite (.pure _) (.pure _)

theorem hlrNam_uniform (s : HlrSubscr) (v ps : Bool) : Uniform (hlrNam s v ps) :=
  .ite (.pure _) (.bind (subscrNam_uniform _ _ _) fun _ => .pure _)

theorem imei_put_uniform (t : IdType) (id : Bytes) (i : Option Bytes) : Uniform (imei.put t id i) :=
  withSub_uniform t id fun _ _ => .bind (updateImei_uniform _ _) fun _ => .ite (.pure _) (.pure _)

theorem vty_uniform (ck : Clock) (c : Cmd) : Uniform (vty ck c) := by
  cases c with
  | show_ t id =>
    show Uniform (show_ ck t id)
    unfold show_
    exact withSub_uniform t id fun _ _ => .bind (dump_uniform _ _) fun _ => .pure _
  | create i =>
    have hd : ∀ a, Uniform (create.created ck i a) := by
      intro a
      obtain ⟨rc, o⟩ := a
      cases o with
      | none => exact .pure _
      | some r => exact .bind (dump_uniform _ _) fun _ => .pure _
    have hr : ∀ rc, Uniform (create.report ck i rc) := fun rc => .ite (.pure _) (.bind (dbSel_uniform _) hd)
    exact .ite (.pure _) (.bind (subscrCreate_uniform _ _ _) hr)
  | delete t id =>
    show Uniform (delete t id)
    unfold delete
    exact withSub_uniform t id fun _ _ => .bind (subscrDelete_uniform _) fun _ => .ite (.pure _) (.pure _)
  | msisdn t id v =>
    refine .ite (.pure _) (.ite (.pure _) (withSub_uniform t id fun _ _ => .bind (updateMsisdn_uniform _ _) fun _ =>
      .ite (.pure _) (.ite (.pure _) (.bind (dbSel_uniform _) fun a => ?_))))
    obtain ⟨rc, o⟩ := a
    cases o <;> exact .pure _
  | noAud2 t id => exact setKeys_uniform _ _ _ _ _
  | aud2 t id alg ki =>
    show Uniform (aud2 t id alg ki)
    unfold aud2
    split
    · exact .pure _
    · split
      · exact .pure _
      · exact setKeys_uniform _ _ _ _ _
  | noAud3 t id => exact setKeys_uniform _ _ _ _ _
  | aud3 t id alg k c o bl =>
    show Uniform (aud3 t id alg k c o bl)
    unfold aud3
    dsimp only
    split
    · exact .pure _
    · split
      · exact .pure _
      · split
        · exact .pure _
        · exact setKeys_uniform _ _ _ _ _
  | xor3 t id k bl =>
    show Uniform (xor3 t id k bl)
    unfold xor3
    split
    · exact .pure _
    · split
      · exact .pure _
      · exact setKeys_uniform _ _ _ _ _
  | imei t id v =>
    exact .ite (imei_put_uniform _ _ _) (.ite (imei_put_uniform _ _ _) (.ite (imei_put_uniform _ _ _) (.pure _)))
  | nam t id v =>
    show Uniform (nam t id v)
    unfold nam
    refine withSub_uniform t id fun _ s => .bind ?_ fun _ => .bind ?_ fun _ => .pure _
    · exact .ite (hlrNam_uniform _ _ _) (.pure _)
    · exact .ite (hlrNam_uniform _ _ _) (.pure _)

/-! ## One database call -/

/-- The database call a command stands for. -/
inductive Stands (r : SubRow) : Cmd → Op → Prop
  | delete {t id} : Stands r (.delete t id) (.delete r.id)
  | msisdn {t id v} : Digits 1 15 v → Stands r (.msisdn t id v) (.msisdn r.imsi (some v))
  | noMsisdn {t id} : Stands r (.msisdn t id (b "none")) (.msisdn r.imsi none)
  | noAud2 {t id} : Stands r (.noAud2 t id) (.aud r.id (.gsm .none []))
  | noAud3 {t id} : Stands r (.noAud3 t id) (.aud r.id (.umts .none [] [] false 0))
  | aud2 {t id alg al ki} : Called alg al → (al = .none → ki = []) → Stands r (.aud2 t id alg ki) (.aud r.id (.gsm al ki))
  | aud3 {t id alg al k c o p bl n} : Called alg al → (al = .none → k = [] ∧ o = []) → (al = .xor3g → o = []) →
    (p = true ↔ c.map lower = b "op") → (∀ m < 2 ^ 31, Bitlen bl m → n = m) →
    Stands r (.aud3 t id alg k c o bl) (.aud r.id (.umts al k o p n))
  | xor3 {t id k bl n} : (∀ m < 2 ^ 31, Bitlen bl m → n = m) →
    Stands r (.xor3 t id k bl) (.aud r.id (.umts .xor3g k (b "00000000000000000000000000000000") false n))
  | imei {t id v} : Digits 14 14 v → Stands r (.imei t id v) (.imei r.imsi (some v))
  | fullImei {t id v} : FullImei v → Stands r (.imei t id v) (.imei r.imsi (some (v.take 14)))
  | noImei {t id} : Stands r (.imei t id (b "none")) (.imei r.imsi none)

/-- Whether -ENOENT counts as success. -/
def Cmd.lenient : Cmd → Bool
  | .noAud2 _ _ | .noAud3 _ _ => true
  | _ => false

/-- The return codes that count as success. -/
def Cmd.Good (c : Cmd) (rc : Option Int) : Prop := rc = some 0 ∨ (c.lenient = true ∧ rc = some (-ENOENT))

/-- What a command of one call does under any script: nothing, or that call. -/
def OneCall (d : Db) (sc : Script) (c : Cmd) (res : Option Res × Db) : Prop :=
  (res.2 = d ∧ ¬ Succ res.1 ∧ res.1 ≠ some .ub)
  ∨ ∃ t id r op sc', c.about = some (t, id) ∧ d.subs.find? (cond t id) = some r ∧ Stands r c op
      ∧ res.2 = (exec op.run d sc').2 ∧ (Succ res.1 → c.Good (exec op.run d sc').1) ∧ res.1 ≠ some .ub
      ∧ (sc = [] → sc' = [] ∧ (c.Good (exec op.run d sc').1 → Succ res.1))

theorem bind_exec {α β : Type} (m : DbM α) (g : α → DbM β) (d : Db) (sc : Script) :
    ((exec m d sc).1 = none ∧ exec (m >>= g) d sc = (none, (exec m d sc).2))
    ∨ ∃ a t, (exec m d sc).1 = some a ∧ exec (m >>= g) d sc = exec (g a) (exec m d sc).2 t
        ∧ t = (m { db := d, script := sc }).2.script := by
  unfold exec
  rw [bind_run]
  rcases h : m { db := d, script := sc } with ⟨o, w⟩
  cases o with
  | none => exact .inl ⟨rfl, rfl⟩
  | some a => exact .inr ⟨a, w.script, rfl, rfl, rfl⟩

theorem op_script {m : DbM α} (h : Uniform m) (d : Db) : (m { db := d, script := [] }).2.script = [] := by
  obtain ⟨a, d', hu, -⟩ := h d
  rw [hu]

theorem withSub_call {d : Db} {c : Cmd} {t : IdType} {id : Bytes} {k : Bytes → HlrSubscr → DbM Res} (sc : Script)
    (ha : c.about = some (t, id))
    (h : ∀ p, ∀ r ∈ d.subs, ∃ op fin, Stands r c op ∧ Uniform op.run ∧ k p (HlrSubscr.ofRow r) = (op.run >>= fin)
      ∧ (∀ rc x s, (exec (fin rc) x s).2 = x ∧ (exec (fin rc) x s).1 ≠ some .ub ∧ (Succ (exec (fin rc) x s).1 → c.Good (some rc)))
      ∧ (∀ rc x, c.Good (some rc) → Succ (exec (fin rc) x []).1)) :
    OneCall d sc c (exec (withSub t id k) d sc) := by
  rcases withSub_exec t id k d sc with h1 | ⟨r, hf, h1⟩
  · exact .inl h1
  · obtain ⟨op, fin, hs, hu, hk, h2, h3⟩ := h (strip t id) r (List.mem_of_find?_eq_some hf)
    refine .inr ⟨t, id, r, op, sc.tail, ha, hf, hs, ?_⟩
    rw [h1, hk]
    rcases bind_exec op.run fin d sc.tail with ⟨e1, e2⟩ | ⟨rc, t', e1, e2, e3⟩
    · rw [e2, e1]
      refine ⟨rfl, fun h => absurd h not_succ_none, by simp, fun e => ⟨by rw [e]; rfl, ?_⟩⟩
      rintro (h | ⟨-, h⟩) <;> cases h
    · rw [e2, e1]
      obtain ⟨a1, a2, a3⟩ := h2 rc (exec op.run d sc.tail).2 t'
      refine ⟨a1, a3, a2, fun e => ?_⟩
      subst e
      rw [show t' = [] by rw [e3]; exact op_script hu d]
      exact ⟨rfl, h3 rc _⟩

theorem msisdn_ne_none {v : Bytes} (h : Digits 1 15 v) : v ≠ b "none" := by
  rintro rfl
  have := h.2.2 110 (by decide +kernel)
  revert this
  decide

theorem bitlen_ok (bl : Option Bytes) : ∀ m < 2 ^ 31, Bitlen bl m → bitlen bl = m := by
  intro m hm h
  cases bl with
  | none => exact h.symm
  | some t => exact atoi_numeral h hm

theorem setKeys_call {d : Db} {c : Cmd} {t : IdType} {id : Bytes} {a : AudStr} {e : Bool} {w : Bytes} (sc : Script)
    (ha : c.about = some (t, id)) (hs : ∀ r, Stands r c (.aud r.id a)) (he : e = c.lenient) :
    OneCall d sc c (exec (setKeys t id a e w) d sc) := by
  subst he
  refine withSub_call sc ha fun p r hr => ⟨.aud r.id a, fun rc =>
    if rc ≠ 0 ∧ ¬ (c.lenient = true ∧ rc = -ENOENT) then
      pure (warn (p ++ b "% Error: cannot " ++ w ++ b " auth data for IMSI='" ++ (HlrSubscr.ofRow r).imsi ++ b "'\n"))
    else pure (success p), hs r, updateAud_uniform _ _, rfl, ?_, ?_⟩
  · intro rc x s
    dsimp only
    by_cases h : rc ≠ 0 ∧ ¬ (c.lenient = true ∧ rc = -ENOENT)
    · rw [if_pos h]
      exact ⟨rfl, (fun h => by cases h), fun h => absurd h (not_succ_warn _)⟩
    · rw [if_neg h]
      refine ⟨rfl, (fun h => by cases h), fun _ => ?_⟩
      by_cases h0 : rc = 0
      · exact .inl (by rw [h0])
      · by_cases h1 : c.lenient = true ∧ rc = -ENOENT
        · exact .inr ⟨h1.1, by rw [h1.2]⟩
        · exact absurd ⟨h0, h1⟩ h
  · intro rc x h
    dsimp only
    rw [if_neg]
    · exact ⟨_, _, rfl⟩
    · rintro ⟨h1, h2⟩
      rcases h with h | ⟨h3, h4⟩
      · exact h1 (Option.some.inj h)
      · exact h2 ⟨h3, Option.some.inj h4⟩

theorem hex_empty {lo : Nat} {s : Bytes} (h : isHexStr (lo * 2) (0 * 2) s = true) : s = [] := by
  simp only [isHexStr, Bool.and_eq_true, decide_eq_true_eq] at h
  exact List.eq_nil_of_length_eq_zero (by omega)

theorem algoParse_info {t : Bytes} {a : AlgoInfo} (h : algoParse t = some a) : a = infoOf a.algo := by
  unfold algoParse at h
  repeat' split at h
  all_goals first
    | (cases h; rfl)
    | cases h

theorem hexkey_ok {l v : Bytes} {lo hi : Nat} (h : hexkey l v lo hi = none) : isHexStr (lo * 2) (hi * 2) v = true := by
  unfold hexkey at h
  split at h
  · assumption
  · cases h

theorem zero_eq : zeroOpc = b "00000000000000000000000000000000" := by decide +kernel

/-- Every command of one call, under any script. -/
theorem vty_oneCall (ck : Clock) {d : Db} (hG : Good d) (c : Cmd) (sc : Script)
    (h1 : ∀ t id, c ≠ .show_ t id) (h2 : ∀ i, c ≠ .create i) (h3 : ∀ t id v, c ≠ .nam t id v) :
    OneCall d sc c (exec (vty ck c) d sc) := by
  have no : ∀ t, OneCall d sc c (exec (pure (warn t)) d sc) := fun t => .inl ⟨rfl, not_succ_warn _, fun h => by cases h⟩
  cases c with
  | show_ t id => exact absurd rfl (h1 t id)
  | create i => exact absurd rfl (h2 i)
  | nam t id v => exact absurd rfl (h3 t id v)
  | delete t id =>
    refine withSub_call sc rfl fun p r hr => ⟨.delete r.id, fun rc =>
      if rc ≠ 0 then pure (warn (p ++ b "% Error: Failed to remove subscriber for IMSI '" ++ (HlrSubscr.ofRow r).imsi ++ b "'\n"))
      else pure (success (p ++ b "% Deleted subscriber for IMSI '" ++ (HlrSubscr.ofRow r).imsi ++ b "'\n")),
      .delete, subscrDelete_uniform _, rfl, ?_, ?_⟩
    · intro rc x s
      dsimp only
      by_cases h : rc = 0
      · rw [if_neg (fun e => e h)]
        exact ⟨rfl, (fun h => by cases h), fun _ => .inl (by rw [h])⟩
      · rw [if_pos h]
        exact ⟨rfl, (fun h => by cases h), fun h => absurd h (not_succ_warn _)⟩
    · rintro rc x (h | ⟨h, -⟩)
      · cases h
        exact ⟨_, _, rfl⟩
      · cases h
  | msisdn t id v =>
    show OneCall d sc _ (exec (msisdn t id v) d sc)
    unfold msisdn
    by_cases hl : v ≠ b "none" ∧ v.length > 15
    · rw [if_pos hl]; exact no _
    rw [if_neg hl]
    by_cases hv : v ≠ b "none" ∧ msisdnValid v = false
    · rw [if_pos hv]; exact no _
    rw [if_neg hv]
    refine withSub_call sc rfl fun p r hr => ?_
    by_cases hn : v = b "none"
    · subst hn
      refine ⟨.msisdn r.imsi none, fun rc => if rc ≠ 0 then
          pure (warn (p ++ b "% Error: cannot update MSISDN for subscriber IMSI='" ++ (HlrSubscr.ofRow r).imsi ++ b "'\n"))
        else pure (.done true (p ++ b "% Updated subscriber IMSI='" ++ (HlrSubscr.ofRow r).imsi ++ b "': removed MSISDN\n")
          [.notify (HlrSubscr.ofRow r)]), .noMsisdn, updateMsisdn_uniform r.imsi none, ?_, ?_, ?_⟩
      · rw [if_pos rfl, ofRow_imsi hG hr]
        simp only [if_true]
        rfl
      · intro rc x s
        dsimp only
        by_cases h : rc = 0
        · rw [if_neg (fun e => e h)]
          exact ⟨rfl, (fun h => by cases h), fun _ => .inl (by rw [h])⟩
        · rw [if_pos h]
          exact ⟨rfl, (fun h => by cases h), fun h => absurd h (not_succ_warn _)⟩
      · rintro rc x (h | ⟨h, -⟩)
        · cases h
          exact ⟨_, _, rfl⟩
        · cases h
    · have hd : Digits 1 15 v := by
        refine digits_valid.mp ?_
        cases e : msisdnValid v with
        | true => exact e
        | false => exact absurd ⟨hn, e⟩ hv
      refine ⟨.msisdn r.imsi (some v), fun rc => if rc ≠ 0 then
          pure (warn (p ++ b "% Error: cannot update MSISDN for subscriber IMSI='" ++ (HlrSubscr.ofRow r).imsi ++ b "'\n"))
        else (dbSel (fun q : SubRow => q.msisdn == some v) >>= fun a => match a with
          | (_, none) => pure (success (p ++ b "% Updated subscriber IMSI='" ++ (HlrSubscr.ofRow r).imsi ++ b "' to MSISDN='" ++ v ++ b "'\n"))
          | (_, some q) => pure (.done true (p ++ b "% Updated subscriber IMSI='" ++ (HlrSubscr.ofRow r).imsi ++ b "' to MSISDN='" ++ v ++ b "'\n")
              [.notify (HlrSubscr.ofRow q)])), .msisdn hd, updateMsisdn_uniform r.imsi (some v), ?_, ?_, ?_⟩
      · rw [if_neg hn, ofRow_imsi hG hr]
        simp only [if_neg hn]
        rfl
      · intro rc x s
        dsimp only
        by_cases h : rc = 0
        · rw [if_neg (fun e => e h)]
          rcases exec_sel (fun q : SubRow => q.msisdn == some v) (fun a => match a with
            | (_, none) => pure (success (p ++ b "% Updated subscriber IMSI='" ++ (HlrSubscr.ofRow r).imsi ++ b "' to MSISDN='" ++ v ++ b "'\n"))
            | (_, some q) => pure (.done true (p ++ b "% Updated subscriber IMSI='" ++ (HlrSubscr.ofRow r).imsi ++ b "' to MSISDN='" ++ v ++ b "'\n")
              [.notify (HlrSubscr.ofRow q)])) x s with e | e | ⟨-, e⟩ | ⟨q, -, e⟩
          all_goals
            rw [e]
            exact ⟨rfl, (fun h => by cases h), fun _ => .inl (by rw [h])⟩
        · rw [if_pos h]
          exact ⟨rfl, (fun h => by cases h), fun h => absurd h (not_succ_warn _)⟩
      · rintro rc x (h | ⟨h, -⟩)
        · cases h
          dsimp only
          rw [if_neg (fun e => e rfl)]
          unfold exec
          rw [bind_run, dbSel_nil]
          cases x.subs.find? (fun q : SubRow => q.msisdn == some v) <;> exact ⟨_, _, rfl⟩
        · cases h
  | noAud2 t id => exact setKeys_call sc rfl (fun r => .noAud2) rfl
  | noAud3 t id => exact setKeys_call sc rfl (fun r => .noAud3) rfl
  | aud2 t id alg ki =>
    show OneCall d sc _ (exec (aud2 t id alg ki) d sc)
    unfold aud2
    split
    · exact no _
    · rename_i a hp
      split
      · exact no _
      · rename_i hk
        refine setKeys_call sc rfl (fun r => .aud2 (algoParse_called hp) fun e => ?_) rfl
        have hi := algoParse_info hp
        rw [e] at hi
        rw [hi] at hk
        exact hex_empty (hexkey_ok hk)
  | aud3 t id alg k c o bl =>
    show OneCall d sc _ (exec (aud3 t id alg k c o bl) d sc)
    unfold aud3
    dsimp only
    split
    · exact no _
    · rename_i a hp
      split
      · exact no _
      · rename_i hk
        split
        · exact no _
        · rename_i ho
          have hi := algoParse_info hp
          refine setKeys_call sc rfl (fun r => .aud3 (algoParse_called hp) (fun e => ?_) (fun e => ?_) ?_ (bitlen_ok bl)) rfl
          · rw [e] at hi
            rw [hi] at hk ho
            exact ⟨hex_empty (hexkey_ok hk), hex_empty (hexkey_ok ho)⟩
          · rw [e] at hi
            rw [hi] at ho
            exact hex_empty (hexkey_ok ho)
          · rw [caseEq_iff]
            have e : (b "op").map lower = b "op" := by decide +kernel
            rw [e]
            exact eq_comm
  | xor3 t id k bl =>
    show OneCall d sc _ (exec (xor3 t id k bl) d sc)
    unfold xor3
    have hp : algoParse (b "xor-3g") = some (infoOf .xor3g) := by decide +kernel
    rw [hp]
    dsimp only
    split
    · exact no _
    · rw [zero_eq]
      exact setKeys_call sc rfl (fun r => .xor3 (bitlen_ok bl)) rfl
  | imei t id v =>
    show OneCall d sc _ (exec (imei t id v) d sc)
    have put : ∀ i : Option Bytes, (∀ r : SubRow, Stands r (.imei t id v) (.imei r.imsi i)) →
        OneCall d sc (.imei t id v) (exec (imei.put t id i) d sc) := by
      intro i hs
      refine withSub_call sc rfl fun p r hr => ⟨.imei r.imsi i, fun rc => if rc ≠ 0 then
          pure (warn (p ++ b "% Error: cannot update IMEI for subscriber IMSI='" ++ (HlrSubscr.ofRow r).imsi ++ b "'\n"))
        else pure (success (p ++ b "% Updated subscriber IMSI='" ++ (HlrSubscr.ofRow r).imsi ++ (match i with
          | some i => b "' to IMEI='" ++ i ++ b "'\n"
          | none => b "': removed IMEI\n"))), hs r, updateImei_uniform _ _, ?_, ?_, ?_⟩
      · rw [ofRow_imsi hG hr]
        cases i <;> rfl
      · intro rc x s
        dsimp only
        by_cases h : rc = 0
        · rw [if_neg (fun e => e h)]
          exact ⟨rfl, (fun h => by cases h), fun _ => .inl (by rw [h])⟩
        · rw [if_pos h]
          exact ⟨rfl, (fun h => by cases h), fun h => absurd h (not_succ_warn _)⟩
      · rintro rc x (h | ⟨h, -⟩)
        · cases h
          exact ⟨_, _, rfl⟩
        · cases h
    unfold imei
    by_cases hn : v = b "none"
    · subst hn
      rw [if_pos rfl]
      exact put none fun r => .noImei
    rw [if_neg hn]
    by_cases hf : imeiChkValid v = true
    · rw [if_pos hf]
      exact put _ fun r => .fullImei (chk_iff.mp hf)
    rw [if_neg hf]
    by_cases hi : imeiValid v = true
    · rw [if_pos hi]
      exact put _ fun r => .imei (digits_valid.mp hi)
    rw [if_neg hi]
    exact no _

end Verif.Prov.Vty
