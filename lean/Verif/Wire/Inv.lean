import Verif.Wire.Lemmas
/-!
# What the HLR handles is what arrived
-/
namespace Verif.Wire
open Verif Verif.Sys

theorem readCb_gsup (p : UInt8) (d : Bytes) : gsupOf (p, d) = match (readCb p d).1 with
    | .gsup m => some m
    | _ => none := by
  unfold gsupOf readCb
  dsimp only
  by_cases h : p = 0xee
  · subst h
    rw [if_pos rfl, if_neg (by decide), if_neg (by decide)]
    rcases d with _ | ⟨e, m⟩
    · rfl
    · by_cases he : e = 0x05
      · subst he; rfl
      · dsimp only
        rw [if_neg he]
        split
        · rename_i h; exact absurd (List.cons.inj h).1 he
        · split
          · rename_i h; split at h <;> simp at h
          · rfl
  · rw [if_neg h]
    split
    · rename_i h'; split at h'
      · simp at h'
      · simp at h'
    · rfl

/-- What a frame is to the HLR. -/
def frameEv (L : Lib) (w : W) (c : ConnId) (p : UInt8) (d : Bytes) (e : Env) : Option Ev :=
  match (readCb p d).1 with
  | .gsup m => some (.rx c (L.dec m) e)
  | .ccm d => match L.ccm d with
    | .bad => some (.close c)
    | .other => none
    | .resp tlv => some (.ccm c (ccmGet (tlvpCopy tlv (w.id c)) IDTAG_SERNR))
  | .oap => none
  | .invalid => none

theorem frameIn_sys (L : Lib) (cfg : Cfg) (w : W) (c : ConnId) (p : UInt8) (d : Bytes) (e : Env) :
    (frameIn L cfg w c p d e).buf = w.buf ∧ (frameIn L cfg w c p d e).sys = match frameEv L w c p d e with
      | some ev => step cfg w.sys ev
      | none => w.sys := by
  unfold frameIn frameEv
  dsimp only
  have hw : ∀ w' : W, w' = (if (readCb p d).2 = .lost then { w with lost := w.lost + 1 } else w) → w'.sys = w.sys ∧ w'.buf = w.buf ∧ w'.id = w.id := by
    rintro _ rfl
    split <;> exact ⟨rfl, rfl, rfl⟩
  generalize (if (readCb p d).2 = Buf.lost then ({ w with lost := w.lost + 1 } : W) else w) = w' at hw
  obtain ⟨h1, h2, h3⟩ := hw w' rfl
  cases (readCb p d).1 with
  | gsup m => dsimp only; rw [h1]; exact ⟨h2, rfl⟩
  | ccm d' =>
    dsimp only
    cases L.ccm d' with
    | bad => unfold kick; dsimp only; rw [h1]; exact ⟨h2, rfl⟩
    | other => exact ⟨h2, h1⟩
    | resp t =>
      unfold ccmCb; dsimp only; rw [h3]
      refine ⟨h2, ?_⟩
      show step cfg w'.sys _ = _
      rw [h1]
  | oap => exact ⟨h2, h1⟩
  | invalid => exact ⟨h2, h1⟩

theorem conn_mem {s : Sys} {c : ConnId} : (s.conn? c).isSome = true ↔ c ∈ s.conns.map (·.id) := by
  unfold Sys.conn?
  rw [List.find?_isSome]
  constructor
  · rintro ⟨k, hk, h⟩
    exact List.mem_map.2 ⟨k, hk, by simpa using h⟩
  · intro h
    obtain ⟨k, hk, rfl⟩ := List.mem_map.1 h
    exact ⟨k, hk, by simp⟩

/-- A connection that is open was so before, or is new. -/
theorem conn_step (cfg : Cfg) {s : Sys} (hn : (s.conns.map (·.id)).Nodup) (ev : Ev) :
    (∀ c, ((step cfg s ev).conn? c).isSome → (s.conn? c).isSome ∨ c = s.nextConn ∧ (step cfg s ev).nextConn = s.nextConn + 1)
    ∧ s.nextConn ≤ (step cfg s ev).nextConn := by
  have fr : CFr s (step cfg s ev) → (∀ c, ((step cfg s ev).conn? c).isSome → (s.conn? c).isSome ∨ c = s.nextConn ∧ (step cfg s ev).nextConn = s.nextConn + 1)
      ∧ s.nextConn ≤ (step cfg s ev).nextConn := by
    rintro ⟨h0, h⟩
    refine ⟨fun c hc => .inl ?_, Nat.le_of_eq h0.symm⟩
    rw [conn_mem] at hc ⊢
    rcases h with ⟨h, -⟩ | ⟨-, f, h, h'⟩
    · rw [h] at hc; simp at hc
    · rw [h] at hc
      obtain ⟨k', hk', rfl⟩ := List.mem_map.1 hc
      obtain ⟨k, hk, rfl⟩ := List.mem_map.1 hk'
      rw [(h' k hk).id]
      exact List.mem_map_of_mem hk
  have hcl : ∀ c', (∀ c, ((close s c').conn? c).isSome → (s.conn? c).isSome) := by
    intro c' c hc
    rw [conn_mem] at hc ⊢
    obtain ⟨k', hk', rfl⟩ := List.mem_map.1 hc
    exact List.mem_map_of_mem (List.mem_filter.1 hk').1
  by_cases hu : s.ub = true
  · unfold step; rw [if_pos hu]; exact ⟨fun c h => .inl h, Nat.le_refl _⟩
  cases ev with
  | connect =>
    unfold step; rw [if_neg hu]; dsimp only
    refine ⟨fun c hc => ?_, Nat.le_succ _⟩
    rw [conn_mem] at hc ⊢
    unfold connect at hc
    simp only [List.map_append, List.map_cons, List.map_nil, List.mem_append, List.mem_singleton] at hc
    exact hc.imp id (fun h => ⟨h, rfl⟩)
  | ccm c n =>
    unfold step; rw [if_neg hu]; dsimp only
    split
    · exact ⟨fun c h => .inl h, Nat.le_refl _⟩
    · rename_i k hk
      unfold Sys.ccmCb
      split
      · exact ⟨fun c h => .inl (hcl _ c h), Nat.le_refl _⟩
      · exact ⟨fun c h => .inl (hcl _ c h), Nat.le_refl _⟩
      · refine ⟨fun c h => .inl ?_, Nat.le_refl _⟩
        rw [conn_mem] at h ⊢
        have h : c ∈ (setConn s _).conns.map (·.id) := h
        rw [setConn_ids] at h
        exact h
  | close c' =>
    unfold step; rw [if_neg hu]; dsimp only
    split
    · exact ⟨fun c h => .inl h, Nat.le_refl _⟩
    · exact ⟨fun c h => .inl (hcl _ c h), Nat.le_refl _⟩
  | _ => exact fr (step_cfr cfg hn (by simp) (by simp) (by simp))

theorem readAll_snoc (cap : Nat) (buf bs : Bytes) (x : UInt8) {tail : Bytes} (h : (readAll cap buf bs).2 = some tail) :
    readAll cap buf (bs ++ [x]) = match push cap tail x with
      | .more b => ((readAll cap buf bs).1, some b)
      | .bad => ((readAll cap buf bs).1, none)
      | .frame p d => ((readAll cap buf bs).1 ++ [(p, d)], some []) := by
  induction bs generalizing buf with
  | nil =>
    rw [readAll] at h
    obtain rfl := Option.some.inj h
    rw [List.nil_append, readAll, readAll]
    split <;> rename_i hp <;> rw [hp] <;> rfl
  | cons y bs ih =>
    rw [List.cons_append, readAll, readAll]
    rw [readAll] at h
    cases hp : push cap buf y with
    | more b => rw [hp] at h; exact ih b h
    | bad => rw [hp] at h; simp at h
    | frame p d =>
      rw [hp] at h
      dsimp only at h ⊢
      rw [ih [] h]
      split <;> rfl

theorem wrun_append (L : Lib) (w : W) (l l' : List (Cfg × WEv)) : wrun L w (l ++ l') = wrun L (wrun L w l) l' := by
  induction l generalizing w with
  | nil => rfl
  | cons x l ih => exact ih _

theorem heard_append (L : Lib) (w : W) (c : ConnId) (l l' : List (Cfg × WEv)) :
    heard L w c (l ++ l') = heard L w c l ++ heard L (wrun L w l) c l' := by
  induction l generalizing w with
  | nil => rfl
  | cons x l ih =>
    obtain ⟨cfg, ev⟩ := x
    cases ev with
    | byte c' y e => rw [List.cons_append, heard, heard, ih, List.append_assoc]; rfl
    | ev ev => rw [List.cons_append, heard, heard, ih]; rfl

/-- Every history of bytes is a history of the HLR. -/
theorem wstep_sys (L : Lib) (cfg : Cfg) (w : W) (ev : WEv) : (wstep L cfg w ev).sys = w.sys ∨ ∃ ev', (wstep L cfg w ev).sys = step cfg w.sys ev' := by
  cases ev with
  | byte c x e =>
    unfold wstep byteIn
    dsimp only
    split
    · split
      · exact .inl rfl
      · exact .inr ⟨.close c, rfl⟩
      · rename_i p d hp
        have := (frameIn_sys L cfg (setBuf w c []) c p d e).2
        split at this
        · exact .inr ⟨_, this⟩
        · exact .inl this
    · exact .inl rfl
  | ev ev =>
    unfold wstep
    dsimp only
    split
    · exact .inl rfl
    · exact .inr ⟨ev, rfl⟩

theorem run_snoc' (s : Sys) (l : List (Cfg × Ev)) (x : Cfg × Ev) : run s (l ++ [x]) = step x.1 (run s l) x.2 := by
  induction l generalizing s with
  | nil => rfl
  | cons y l ih => exact ih _

theorem reach_step {s : Sys} (h : Reach s) (cfg : Cfg) (ev : Ev) : Reach (step cfg s ev) := by
  obtain ⟨d, evs, rfl⟩ := h
  exact ⟨d, evs ++ [(cfg, ev)], (run_snoc' (init d) evs (cfg, ev)).symm⟩

theorem reach_wstep (L : Lib) (cfg : Cfg) {w : W} (h : Reach w.sys) (ev : WEv) : Reach (wstep L cfg w ev).sys := by
  rcases wstep_sys L cfg w ev with e | ⟨ev', e⟩
  · rw [e]; exact h
  · rw [e]; exact reach_step h cfg ev'

/-- What has arrived on a connection `c`, and what has been made of it. -/
structure At (L : Lib) (c : ConnId) (bs : Bytes) (w : W) : Prop where
  reach : Reach w.sys
  handled : handled c w.sys.log = ((readAll L.cap [] bs).1.filterMap gsupOf).map L.dec
  buf : (w.sys.conn? c).isSome → (readAll L.cap [] bs).2 = some (w.buf c)
  fresh : w.sys.nextConn ≤ c → bs = [] ∧ w.buf c = [] ∧ (w.sys.conn? c).isSome = false
  broken : (readAll L.cap [] bs).2 = none → ∃ h l p, bs = (readAll L.cap [] bs).1.flatMap wire ++ [h, l, p] ∧ (hlen h l = 0 ∨ L.cap < hlen h l)

theorem At.same {L : Lib} {c : ConnId} {bs : Bytes} {w w' : W} (h : At L c bs w) (cfg : Cfg) (ev : Ev) (hne : ∀ c' m e, ev = .rx c' m e → c' ≠ c)
    (hs : w'.sys = step cfg w.sys ev) (hb : w'.buf c = w.buf c) : At L c bs w' := by
  obtain ⟨hc, hn⟩ := conn_step cfg (reach_nodup h.reach) ev
  refine ⟨by rw [hs]; exact reach_step h.reach cfg ev, ?_, ?_, ?_, h.broken⟩
  · rw [hs, ← h.handled]
    cases ev with
    | rx c' m e =>
      unfold step
      split
      · rfl
      · dsimp only
        cases hs' : w.sys.conn? c' with
        | none => unfold rx; rw [hs']
        | some k =>
          rw [rx_handled c cfg e c' m (by rw [hs']; rfl), if_neg (hne _ _ _ rfl)]
    | _ => exact step_rfr c cfg (by simp)
  · intro ho
    rw [hs] at ho
    rw [hb]
    rcases hc c ho with h1 | ⟨h1, -⟩
    · exact h.buf h1
    · obtain ⟨h2, h3, -⟩ := h.fresh (Nat.le_of_eq h1.symm)
      rw [h2, h3]; rfl
  · intro hle
    rw [hs] at hle ⊢
    obtain ⟨h2, h3, h4⟩ := h.fresh (Nat.le_trans hn hle)
    refine ⟨h2, by rw [hb]; exact h3, ?_⟩
    cases ho : (step cfg w.sys ev).conn? c with
    | none => rfl
    | some k =>
      rcases hc c (by rw [ho]; rfl) with h5 | ⟨h5, h6⟩
      · rw [h4] at h5; simp at h5
      · rw [h6, h5] at hle; exact absurd hle (by simp)

theorem At.still {L : Lib} {c : ConnId} {bs : Bytes} {w w' : W} (h : At L c bs w) (hs : w'.sys = w.sys) (hb : w'.buf c = w.buf c) : At L c bs w' := by
  refine ⟨by rw [hs]; exact h.reach, by rw [hs]; exact h.handled, ?_, ?_, h.broken⟩
  · rw [hs, hb]; exact h.buf
  · rw [hs, hb]; exact h.fresh

theorem setBuf_ne {w : W} {c c' : ConnId} (h : c ≠ c') (b' : Bytes) : (setBuf w c' b').buf c = w.buf c := if_neg h
theorem setBuf_eq (w : W) (c : ConnId) (b' : Bytes) : (setBuf w c b').buf c = b' := if_pos rfl

theorem At.step {L : Lib} {c : ConnId} {bs : Bytes} {w : W} (h : At L c bs w) (cfg : Cfg) (ev : WEv) :
    At L c (bs ++ heard L w c [(cfg, ev)]) (wstep L cfg w ev) := by
  cases ev with
  | ev ev =>
    rw [heard, heard, List.append_nil]
    unfold wstep
    dsimp only
    by_cases ho : ofBytes ev = true
    · rw [if_pos ho]; exact h
    · rw [if_neg ho]
      refine h.same cfg ev ?_ rfl rfl
      rintro c' m e rfl
      simp [ofBytes] at ho
  | byte c' x e =>
    rw [heard, heard, List.append_nil]
    unfold wstep
    dsimp only
    by_cases hh : w.hears c' = true
    · rw [if_pos hh]
      by_cases hcc : c' = c
      · subst hcc
        rw [if_pos ⟨rfl, hh⟩]
        have hu : w.sys.ub = false ∧ (w.sys.conn? c').isSome = true := by
          unfold W.hears at hh; simpa using hh
        have hr := readAll_snoc L.cap [] bs x (h.buf hu.2)
        have hlt : ¬ w.sys.nextConn ≤ c' := fun hle => by
          have := (h.fresh hle).2.2; rw [hu.2] at this; simp at this
        unfold byteIn
        cases hp : push L.cap (w.buf c') x with
        | more b =>
          rw [hp] at hr
          exact ⟨h.reach, by rw [hr]; exact h.handled, fun _ => by rw [hr]; exact (congrArg some (setBuf_eq w c' b)).symm, fun hle => absurd hle hlt,
            fun hbr => by rw [hr] at hbr; simp at hbr⟩
        | bad =>
          rw [hp] at hr
          have hs : (kick cfg w c').sys = Sys.step cfg w.sys (.close c') := rfl
          obtain ⟨hc, hn⟩ := conn_step cfg (reach_nodup h.reach) (.close c')
          have hno : ((kick cfg w c').sys.conn? c').isSome = false := by
            rw [hs]
            unfold Sys.step
            rw [if_neg (by rw [hu.1]; simp)]
            obtain ⟨k, hk⟩ := Option.isSome_iff_exists.1 hu.2
            dsimp only
            rw [hk]
            cases hq : ((Sys.close w.sys c').conn? c').isSome with
            | false => rfl
            | true =>
              rw [conn_mem] at hq
              obtain ⟨k', hk', he⟩ := List.mem_map.1 hq
              have := (List.mem_filter.1 hk').2
              rw [he] at this; simp at this
          refine ⟨by rw [hs]; exact reach_step h.reach _ _, ?_, ?_, fun hle => absurd (Nat.le_trans hn hle) hlt, fun _ => ?_⟩
          · rw [hr]
            dsimp only
            rw [← h.handled, hs]
            exact step_rfr c' cfg (by simp)
          · intro ho; rw [hno] at ho; simp at ho
          · have hsp := (readAll_spec L.cap [] partN_nil bs).2
            rw [h.buf hu.2] at hsp
            dsimp only at hsp
            obtain ⟨hsp, hpn⟩ := hsp
            rw [hr]
            dsimp only
            rcases push_partN hpn x with ⟨h1, -⟩ | ⟨-, h', l, p, h1, h2⟩ | ⟨p, d, h1, -⟩
            · rw [hp] at h1; simp at h1
            · refine ⟨h', l, p, ?_, h2⟩
              rw [List.nil_append] at hsp
              conv => lhs; rw [hsp]
              rw [List.append_assoc, h1]
            · rw [hp] at h1; simp at h1
        | frame p d =>
          rw [hp] at hr
          dsimp only at hr ⊢
          obtain ⟨f1, f2⟩ := frameIn_sys L cfg (setBuf w c' []) c' p d e
          have f2 : (frameIn L cfg (setBuf w c' []) c' p d e).sys = match frameEv L (setBuf w c' []) c' p d e with
            | some ev => Sys.step cfg w.sys ev
            | none => w.sys := f2
          have hbuf : (frameIn L cfg (setBuf w c' []) c' p d e).buf c' = [] := by rw [f1]; exact setBuf_eq w c' []
          have hlt' : ¬ (frameIn L cfg (setBuf w c' []) c' p d e).sys.nextConn ≤ c' := by
            intro hle
            apply hlt
            rw [f2] at hle
            split at hle
            · exact Nat.le_trans (conn_step cfg (reach_nodup h.reach) _).2 hle
            · exact hle
          have hg := readCb_gsup p d
          refine ⟨?_, ?_, fun _ => by rw [hr, hbuf], fun hle => absurd hle hlt', fun hbr => by rw [hr] at hbr; simp at hbr⟩
          · rw [f2]
            split
            · exact reach_step h.reach _ _
            · exact h.reach
          · rw [hr]
            dsimp only
            rw [List.filterMap_append, List.map_append, ← h.handled, f2]
            unfold frameEv
            cases hrc : (readCb p d).1 with
            | gsup m =>
              rw [hrc] at hg
              dsimp only at hg ⊢
              unfold Sys.step
              rw [if_neg (by rw [hu.1]; simp)]
              dsimp only
              rw [rx_handled c' cfg e c' _ hu.2, if_pos rfl]
              simp [hg]
            | ccm d' =>
              rw [hrc] at hg
              dsimp only at hg ⊢
              have h0 : List.map L.dec (List.filterMap gsupOf [(p, d)]) = [] := by simp [hg]
              rw [h0, List.append_nil]
              cases L.ccm d' with
              | bad => exact step_rfr c' cfg (by simp)
              | other => rfl
              | resp t => exact step_rfr c' cfg (by simp)
            | oap =>
              rw [hrc] at hg
              dsimp only at hg ⊢
              simp [hg]
            | invalid =>
              rw [hrc] at hg
              dsimp only at hg ⊢
              simp [hg]
      · rw [if_neg (fun h => hcc h.1), List.append_nil]
        have hcc' : c ≠ c' := fun h => hcc h.symm
        unfold byteIn
        split
        · exact h.still rfl (setBuf_ne hcc' _)
        · exact h.same cfg (.close c') (by simp) rfl rfl
        · rename_i p d hp
          obtain ⟨f1, f2⟩ := frameIn_sys L cfg (setBuf w c' []) c' p d e
          have hb : (frameIn L cfg (setBuf w c' []) c' p d e).buf c = w.buf c := by rw [f1]; exact setBuf_ne hcc' _
          split at f2
          · rename_i ev hev
            refine h.same cfg ev ?_ f2 hb
            rintro c'' m e' rfl
            unfold frameEv at hev
            split at hev
            · simp only [Option.some.injEq, Ev.rx.injEq] at hev; rw [← hev.1]; exact hcc
            · split at hev <;> simp at hev
            · simp at hev
            · simp at hev
          · exact h.still f2 hb
    · rw [if_neg hh]
      by_cases hcc : c' = c ∧ w.hears c = true
      · obtain ⟨rfl, h2⟩ := hcc; exact absurd h2 hh
      · rw [if_neg hcc, List.append_nil]; exact h

theorem at_run (L : Lib) (d : Db.Db) (c : ConnId) (l : List (Cfg × WEv)) : At L c (heard L (winit d) c l) (wrun L (winit d) l) := by
  have gen : ∀ (l : List (Cfg × WEv)) (w : W) (bs : Bytes), At L c bs w → At L c (bs ++ heard L w c l) (wrun L w l) := by
    intro l
    induction l with
    | nil => intro w bs h; simpa [heard, wrun] using h
    | cons x l ih =>
      intro w bs h
      have := ih _ _ (h.step x.1 x.2)
      rw [List.append_assoc] at this
      have e : heard L w c (x :: l) = heard L w c [x] ++ heard L (wstep L x.1 w x.2) c l := heard_append L w c [x] l
      rw [e]; exact this
  have := gen l (winit d) [] ⟨⟨d, [], rfl⟩, rfl, fun h => by simp [winit, Sys.conn?, init] at h, fun _ => ⟨rfl, rfl, rfl⟩, fun h => by simp [readAll] at h⟩
  simpa using this

end Verif.Wire
