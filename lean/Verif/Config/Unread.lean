import Verif.Config.Reload2
/-! # A file that cannot be read -/
namespace Verif.Config
open Verif Verif.Sys Verif.Mslookup Verif.Mslookup.Mdns Verif.Config.Spec

/-- A line that begins with a keyword, indented, or an empty line. -/
def Deep (l : Line) : Prop := (∃ (i : Nat) (k : Kw) (ws : List Bytes), l = (i + 1, k.text :: ws)) ∨ l = (0, [])

theorem tokens_indent (i : Nat) (k : Kw) (ws : List Bytes) : (tokens (Line.text (i, k.text :: ws))).1 = i := by
  obtain ⟨c, t, hk⟩ : ∃ c t, k.text = c :: t := by
    cases h : k.text with
    | nil => exact absurd h k.good.1
    | cons c t => exact ⟨c, t, rfl⟩
  have hc : (c == 32) = false := by
    have := k.good.2 c (by rw [hk]; exact List.mem_cons_self)
    rw [beq_eq_false_iff_ne]; rintro rfl; exact absurd this (by decide)
  obtain ⟨r, hr⟩ : ∃ r, ([32] : Bytes).intercalate (k.text :: ws) = c :: r := by
    rw [hk]
    cases ws <;> exact ⟨_, rfl⟩
  unfold tokens Line.text
  dsimp only
  rw [hr]
  have : (List.replicate i (32 : UInt8) ++ c :: r).dropWhile (· == 32) = c :: r := by
    induction i with
    | zero => simp [hc]
    | succ i ih => simpa [List.replicate_succ] using ih
  rw [this]
  simp

theorem deep_keep {e : Env} {ls : List Line} (hd : ∀ l ∈ ls, Deep l) {n : Node} {ps : Parents} :
    ∀ {r r' : Reader}, r.At 0 n ps → readLines e r ((ls.map Line.text).map tokens) = some r' → r'.At 0 n ps := by
  induction ls with
  | nil => intro r r' h hr; cases hr; exact h
  | cons l ls ih =>
    intro r r' h hr
    rw [List.map_cons, List.map_cons, readLines] at hr
    obtain ⟨r1, h1, h2⟩ := Option.bind_eq_some_iff.1 hr
    refine ih (fun x hx => hd x (List.mem_cons_of_mem _ hx)) ?_ h2
    rcases hd l List.mem_cons_self with ⟨i, k, ws, rfl⟩ | rfl
    · exact readLine_keep h (by rw [tokens_indent]; omega) h1
    · cases h1; exact h

theorem deep_keep1 {e : Env} {ls : List Line} (hd : ∀ l ∈ ls, Deep l) {ps : Parents} :
    ∀ {r r' : Reader}, r.At 1 .mslookup ps → readLines e r ((ls.map Line.text).map tokens) = some r' → r'.At 1 .mslookup ps := by
  induction ls with
  | nil => intro r r' h hr; cases hr; exact h
  | cons l ls ih =>
    intro r r' h hr
    rw [List.map_cons, List.map_cons, readLines] at hr
    obtain ⟨r1, h1, h2⟩ := Option.bind_eq_some_iff.1 hr
    refine ih (fun x hx => hd x (List.mem_cons_of_mem _ hx)) ?_ h2
    rcases hd l List.mem_cons_self with ⟨i, k, ws, rfl⟩ | rfl
    · cases i with
      | zero =>
        have ht : tokens (Line.text (0 + 1, k.text :: ws)) = (1, (tokens (Line.text (0 + 1, k.text :: ws))).2) :=
          Prod.ext (tokens_indent (0 + 1) k ws) rfl
        rw [ht] at h1
        refine readLine_same h ?_ h1
        intro c n' res s _ _ hk
        cases n' with
        | mslookup => rfl
        | server m => cases m <;> cases hk
        | _ => cases hk
      | succ i => exact readLine_keep h (by rw [tokens_indent]; omega) h1
    · cases h1; exact h

theorem cmds_deep (cs : List (List Bytes × Cmd)) (h : ∀ x ∈ cs, ∃ (k : Kw) (ws : List Bytes), x.1 = k.text :: ws) :
    ∀ l ∈ cs.map (fun x => ((1, x.1) : Line)), Deep l := by
  intro l hl
  obtain ⟨x, hx, rfl⟩ := List.mem_map.1 hl
  obtain ⟨k, ws, e⟩ := h x hx
  exact Or.inl ⟨0, k, ws, by rw [e]⟩

theorem hlrCmds_kw (s : St) : ∀ x ∈ hlrCmds s, ∃ (k : Kw) (ws : List Bytes), x.1 = k.text :: ws := by
  intro x hx
  unfold hlrCmds at hx
  simp only [List.mem_append, List.mem_cons, List.not_mem_nil, or_false] at hx
  rcases hx with (((rfl | rfl) | hx) | hx) | rfl
  · exact ⟨_, _, rfl⟩
  · exact ⟨_, _, rfl⟩
  · split at hx
    · cases List.mem_singleton.1 hx; exact ⟨_, _, rfl⟩
    · cases hx
  · split at hx
    · cases List.mem_singleton.1 hx; exact ⟨_, _, rfl⟩
    · cases hx
  · unfold codCmd writeCod
    cases s.cod <;> exact ⟨_, _, rfl⟩

theorem euseCmds_kw (s : St) : ∀ x ∈ euseCmds s, ∃ (k : Kw) (ws : List Bytes), x.1 = k.text :: ws := by
  intro x hx
  unfold euseCmds at hx
  rcases List.mem_append.1 hx with hx | hx
  · rcases List.mem_append.1 hx with hx | hx
    · rcases List.mem_append.1 hx with hx | hx
      · obtain ⟨y, hy, rfl⟩ := List.mem_map.1 hx
        exact ⟨_, _, rfl⟩
      · obtain ⟨r, hr, rfl⟩ := List.mem_map.1 hx
        dsimp only
        unfold routeWords
        cases r.tgt <;> exact ⟨_, _, rfl⟩
    · unfold defaultCmds at hx
      cases hd : s.euseDefault with
      | none => rw [hd] at hx; cases hx
      | some id => rw [hd] at hx; cases List.mem_singleton.1 hx; exact ⟨_, _, rfl⟩
  · unfold guardCmds at hx
    split at hx
    · cases List.mem_singleton.1 hx; exact ⟨_, _, rfl⟩
    · cases hx

theorem smscCmds_kw (s : St) : ∀ x ∈ smscCmds s, ∃ (k : Kw) (ws : List Bytes), x.1 = k.text :: ws := by
  intro x hx
  unfold smscCmds at hx
  rcases List.mem_append.1 hx with hx | hx
  · rcases List.mem_append.1 hx with hx | hx
    · obtain ⟨y, hy, rfl⟩ := List.mem_map.1 hx; exact ⟨_, _, rfl⟩
    · obtain ⟨r, hr, rfl⟩ := List.mem_map.1 hx; exact ⟨_, _, rfl⟩
  · unfold smscDefaultCmds at hx
    cases hd : s.smscDefault with
    | none => rw [hd] at hx; cases hx
    | some id => rw [hd] at hx; cases List.mem_singleton.1 hx; exact ⟨_, _, rfl⟩

theorem gsup_deep (s : St) : ∀ l ∈ writeGsup s, Deep l := by
  intro l hl
  unfold writeGsup at hl
  simp only [List.mem_append, List.mem_cons, List.not_mem_nil, or_false] at hl
  rcases hl with (rfl | hl) | rfl
  · exact Or.inl ⟨0, _, _, rfl⟩
  · cases hb : s.bind with
    | none => rw [hb] at hl; cases hl
    | some a => rw [hb] at hl; cases List.mem_singleton.1 hl; exact Or.inl ⟨1, _, _, rfl⟩
  · exact Or.inl ⟨1, _, _, rfl⟩

theorem svc_deep (e : Env) (c : Mslookup.Cmd) : Deep (writeSvc e c) := by
  unfold writeSvc
  split
  · exact Or.inl ⟨1, _, _, rfl⟩
  · split
    · exact Or.inl ⟨1, _, _, rfl⟩
    · exact Or.inl ⟨2, _, _, rfl⟩
  · exact Or.inr rfl

/-- The section `mslookup`, if it is written, begins with the node and one of its two subnodes. -/
theorem msl_deep {e : Env} {m : Msl} (h : writeMsl e m ≠ []) : ∃ (k : Kw) (rest : List Line), (k = .server ∨ k = .client) ∧
    writeMsl e m = (0, [Kw.text .mslookup]) :: (1, [k.text]) :: rest ∧ ∀ l ∈ rest, Deep l := by
  have one : ∀ (P : Prop) [Decidable P] (l x : Line), Deep l → x ∈ (if P then [l] else []) → Deep x := by
    intro P _ l x hl hx
    split at hx
    · cases List.mem_singleton.1 hx; exact hl
    · cases hx
  have two : ∀ (P : Prop) [Decidable P] (l x : Line), Deep l → x ∈ (if P then [] else [l]) → Deep x := by
    intro P _ l x hl hx
    split at hx
    · cases hx
    · cases List.mem_singleton.1 hx; exact hl
  have cli : ∀ x ∈ (if m.gateway.nonzero then [((2, [Kw.text .gatewayProxy, e.ipText (m.gateway.v6, m.gateway.ip), dec m.gateway.port]) : Line)] else [])
        ++ (if m.cli.mdns && m.cli.addr.nonzero then
            [(2, [Kw.text .mdns, Kw.text .bind, e.ipText (m.cli.addr.v6, m.cli.addr.ip), dec m.cli.addr.port])] else [])
        ++ (if m.cli.suffix ≠ MdnsConfig.init.cli.suffix then [(2, [Kw.text .mdns, Kw.text .domainSuffix, m.cli.suffix])] else [])
        ++ (if m.timeout ≠ 2000 then [(2, [Kw.text .timeout, dec m.timeout])] else []), Deep x := by
    intro x hx
    rcases List.mem_append.1 hx with hx | hx
    · rcases List.mem_append.1 hx with hx | hx
      · rcases List.mem_append.1 hx with hx | hx
        · exact one _ _ x (Or.inl ⟨1, _, _, rfl⟩) hx
        · exact one _ _ x (Or.inl ⟨1, _, _, rfl⟩) hx
      · exact one _ _ x (Or.inl ⟨1, _, _, rfl⟩) hx
    · exact one _ _ x (Or.inl ⟨1, _, _, rfl⟩) hx
  unfold writeMsl at h ⊢
  by_cases hz : (!m.srv.enable && m.services.isEmpty && !m.cli.enable) = true
  · rw [if_pos hz] at h; exact absurd rfl h
  · rw [if_neg hz]
    by_cases hs : (m.srv.enable || !m.services.isEmpty) = true
    · rw [if_pos hs]
      have app : ∀ (a b : Line) (A B C D E : List Line), [a] ++ ([b] ++ A ++ B ++ C ++ D) ++ E = a :: b :: (A ++ B ++ C ++ D ++ E) := by
        intros; simp
      refine ⟨.server, _, Or.inl rfl, app .., ?_⟩
      · intro l hl
        rcases List.mem_append.1 hl with hl | hl
        · rcases List.mem_append.1 hl with hl | hl
          · rcases List.mem_append.1 hl with hl | hl
            · rcases List.mem_append.1 hl with hl | hl
              · exact one _ _ l (Or.inl ⟨1, _, _, rfl⟩) hl
              · exact one _ _ l (Or.inl ⟨1, _, _, rfl⟩) hl
            · obtain ⟨c, -, rfl⟩ := List.mem_map.1 hl
              exact svc_deep e c
          · exact two _ _ l (Or.inl ⟨0, _, _, rfl⟩) hl
        · split at hl
          · rcases List.mem_cons.1 hl with rfl | hl
            · exact Or.inl ⟨0, _, _, rfl⟩
            · exact cli l hl
          · cases hl
    · have hc : m.cli.enable = true := by
        revert hz hs
        cases m.srv.enable <;> cases m.services.isEmpty <;> cases m.cli.enable <;> decide
      rw [if_neg hs, if_pos hc]
      refine ⟨.client, _, Or.inr rfl, ?_, cli⟩
      rfl

/-- A file with the section `mslookup` cannot be read: the line `ps` follows it. -/
theorem unreadable {e : Env} {s : St} (hm : writeMsl e s.msl ≠ []) {f : List Bytes} (hf : fileOf e s = some f) :
    readFile e f = none := by
  unfold fileOf at hf
  obtain ⟨ls, hls, rfl⟩ := Option.map_eq_some_iff.1 hf
  unfold write at hls
  obtain ⟨u, hu, hls⟩ := Option.bind_eq_some_iff.1 hls
  obtain ⟨m, hms, hls⟩ := Option.bind_eq_some_iff.1 hls
  cases hls
  obtain ⟨k, rest, hk, hw, hrest⟩ := msl_deep hm
  have hhead : ∀ l ∈ (hlrCmds s).map (fun x => ((1, x.1) : Line)) ++ writeGsup s ++ u ++ m, Deep l := by
    intro l hl
    rcases List.mem_append.1 hl with hl | hl
    · rcases List.mem_append.1 hl with hl | hl
      · rcases List.mem_append.1 hl with hl | hl
        · exact cmds_deep _ (hlrCmds_kw s) l hl
        · exact gsup_deep s l hl
      · rw [(writeEuse_eq hu).1] at hl
        exact cmds_deep _ (euseCmds_kw s) l hl
    · rw [(writeSmsc_eq hms).1] at hl
      exact cmds_deep _ (smscCmds_kw s) l hl
  have hsplit : writeHlr s ++ writeGsup s ++ u ++ m ++ writeMsl e s.msl ++ writePs ++ writePdps s =
      [(0, [Kw.text .hlr])] ++ (((hlrCmds s).map (fun x => ((1, x.1) : Line)) ++ writeGsup s ++ u ++ m) ++
        ([(0, [Kw.text .mslookup])] ++ ([(1, [k.text])] ++ (rest ++ ([(1, [Kw.text .ps])] ++ writePdps s))))) := by
    rw [hw, writeHlr_eq]
    simp [writePs]
  unfold readFile
  rw [hsplit]
  simp only [List.map_append, readLines_append]
  have t0 : ([(0, [Kw.text .hlr])].map Line.text).map tokens = [(0, [Kw.text .hlr])] := tokens_lines (by
    intro l hl; cases List.mem_singleton.1 hl; exact ⟨0, .hlr, [], rfl, nofun⟩)
  have t1 : ([(0, [Kw.text .mslookup])].map Line.text).map tokens = [(0, [Kw.text .mslookup])] := tokens_lines (by
    intro l hl; cases List.mem_singleton.1 hl; exact ⟨0, .mslookup, [], rfl, nofun⟩)
  have t2 : ([(1, [k.text])].map Line.text).map tokens = [(1, [k.text])] := tokens_lines (by
    intro l hl; cases List.mem_singleton.1 hl; exact ⟨1, k, [], rfl, nofun⟩)
  have t3 : ([(1, [Kw.text .ps])].map Line.text).map tokens = [(1, [Kw.text .ps])] := tokens_lines (by
    intro l hl; cases List.mem_singleton.1 hl; exact ⟨1, .ps, [], rfl, nofun⟩)
  rw [t0, t1, t2, t3]
  have h0 : readLines e {} [(0, [Kw.text .hlr])] = some { node := .hlr, ind := none, parents := [(.config, 0)], st := {} } := by
    rw [readLines, (readLine_at (e := e) (r := {}) (n := .config) (c := .hlr) (ps := []) rfl (by simp)
      (by simp only [parse, Kw.of_text]) nofun)]
    rfl
  rw [h0, Option.bind_some]
  rw [Option.map_eq_none_iff]
  cases ha : readLines e { node := .hlr, ind := none, parents := [(.config, 0)], st := {} }
      ((((hlrCmds s).map (fun x => ((1, x.1) : Line)) ++ writeGsup s ++ u ++ m).map Line.text).map tokens) with
  | none =>
    simp only [List.map_append, readLines_append] at ha
    rw [ha]; rfl
  | some r1 =>
    have a1 : r1.At 0 .config [] := by
      refine deep_keep hhead (r := { node := .hlr, ind := none, parents := [(.config, 0)], st := {} }) ?_ ha
      exact Or.inr ⟨nofun, rfl, rfl, rfl⟩
    simp only [List.map_append, readLines_append] at ha
    rw [ha, Option.bind_some]
    have h1 : readLines e r1 [(0, [Kw.text .mslookup])] =
        some { node := .mslookup, ind := none, parents := [(.config, 0)], st := r1.st } := by
      rw [readLines, (readLine_at (e := e) (r := r1) (n := .config) (c := .mslookup) (ps := []) a1.align (by simp)
        (by simp only [parse, Kw.of_text]) nofun)]
      rfl
    rw [h1, Option.bind_some]
    obtain ⟨r2, h2, a2⟩ : ∃ r2, readLines e { node := .mslookup, ind := none, parents := [(.config, 0)], st := r1.st }
        [(1, [k.text])] = some r2 ∧ r2.At 1 .mslookup [(.config, 0)] := by
      rcases hk with rfl | rfl
      · rw [readLines, (readLine_at (e := e) (n := .mslookup) (c := .msServer) (ps := [(.config, 0)]) rfl (by simp)
          (by simp only [parse, parseMsl, Kw.of_text, if_true]) nofun)]
        exact ⟨_, rfl, At.push (Or.inl ⟨rfl, rfl, rfl⟩)⟩
      · rw [readLines, (readLine_at (e := e) (n := .mslookup) (c := .msClient) (ps := [(.config, 0)]) rfl (by simp)
          (by simp only [parse, parseMsl, Kw.of_text, if_true]) nofun)]
        exact ⟨_, rfl, At.push (Or.inl ⟨rfl, rfl, rfl⟩)⟩
    rw [h2, Option.bind_some]
    cases hb : readLines e r2 ((rest.map Line.text).map tokens) with
    | none => rfl
    | some r3 =>
      have a3 := deep_keep1 hrest a2 hb
      have h3 : readLine e r3 (1, [Kw.text .ps]) = none := by
        unfold readLine
        dsimp only
        rw [if_neg (by simp), show align _ _ _ _ = _ from a3.align]
        dsimp only
        have : parse e .mslookup [Kw.text .ps] = none := by
          simp only [parse, parseMsl, Kw.of_text]
        rw [this]
      rw [Option.bind_some, readLines, h3]
      rfl

end Verif.Config
