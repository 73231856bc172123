import Verif.Tool.FormatSpec
import Verif.Tool.Text
import Verif.Mslookup.MdnsLemmas
/-!
# Lemmas about the lines of the lookup program
-/
namespace Verif.Tool
open Verif Verif.Mslookup Verif.Sys

/-! ## Numbers -/

theorem head_append {α : Type} (s t : List α) (h : s ≠ []) : (s ++ t).head? = s.head? := by
  cases s with
  | nil => exact absurd rfl h
  | cons x s => rfl

theorem decGo_head (f n : Nat) (h : n < 10 ^ f) (hf : 0 < f) : (Mdns.decGo f n).head? = some 48 → n = 0 := by
  induction f generalizing n with
  | zero => omega
  | succ f ih =>
    unfold Mdns.decGo
    by_cases hn : n < 10
    · rw [if_pos hn]
      intro e
      have e : (48 + n).toUInt8 = 48 := by simpa using e
      have := congrArg UInt8.toNat e
      rw [Mdns.toNat_toUInt8] at this
      have : (48 + n) % 256 = 48 := this
      omega
    · rw [if_neg hn]
      have hpos : 0 < f := by
        cases f with
        | zero => simp at h; omega
        | succ f => omega
      rw [head_append _ _ ((Mdns.decGo_spec f (n / 10)).2.2 hpos)]
      intro e
      have := ih (n / 10) (by rw [Nat.pow_succ] at h; omega) hpos e
      omega

theorem dec_decimal {n : Nat} (h : n < 2 ^ 32) : Spec.Decimal (Mdns.dec n) n := by
  obtain ⟨h1, h2, h3⟩ := Mdns.decGo_spec 10 n
  have hv : Mdns.digitsVal 0 (Mdns.dec n) = some n := Mdns.digitsVal_dec (by omega)
  refine ⟨h3 (by decide), h2, fun e => ?_, ?_⟩
  · have : n = 0 := decGo_head 10 n (by omega) (by decide) e
    subst this; decide +kernel
  · obtain ⟨-, e⟩ := digitsVal_some.1 hv
    exact e.symm

/-! ## Columns -/

theorem pieces_no {p : UInt8 → Bool} {s : Bytes} (h : ∀ c ∈ s, p c = false) : Spec.pieces p s = [s] := by
  induction s with
  | nil => rfl
  | cons c s ih =>
    rw [Spec.pieces, h c List.mem_cons_self, if_neg (by simp), ih (fun x hx => h x (List.mem_cons_of_mem _ hx))]

theorem pieces_cut {p : UInt8 → Bool} {s : Bytes} (h : ∀ c ∈ s, p c = false) (x : UInt8) (hx : p x = true) (t : Bytes) :
    Spec.pieces p (s ++ x :: t) = s :: Spec.pieces p t := by
  induction s with
  | nil => rw [List.nil_append, Spec.pieces, hx, if_pos rfl]
  | cons c s ih =>
    rw [List.cons_append, Spec.pieces, h c List.mem_cons_self, if_neg (by simp), ih (fun x hx => h x (List.mem_cons_of_mem _ hx))]

theorem columns_no {s : Bytes} (h : (9 : UInt8) ∉ s) : Spec.columns s = [s] :=
  pieces_no (fun c hc => by
    have : c ≠ 9 := fun e => h (e ▸ hc)
    simpa using this)

theorem columns_cut {s : Bytes} (h : (9 : UInt8) ∉ s) (t : Bytes) : Spec.columns (s ++ 9 :: t) = s :: Spec.columns t :=
  pieces_cut (fun c hc => by
    have : c ≠ 9 := fun e => h (e ▸ hc)
    simpa using this) 9 (by decide) t

theorem dec_no_tab (n : Nat) : (9 : UInt8) ∉ Mdns.dec n := by
  obtain ⟨-, h2, -⟩ := Mdns.decGo_spec 10 n
  intro h
  exact absurd (h2 9 h).1 (by decide)

theorem plain_no_tab {s : Bytes} (h : Spec.Plain s) : (9 : UInt8) ∉ s := fun hm => absurd (h 9 hm).1 (by decide)

theorem dec_length (n : Nat) : (Mdns.dec n).length ≤ 10 := (Mdns.decGo_spec 10 n).1

theorem kind_eq (c : Rc) : rcName c = Spec.kind c := by cases c <;> decide +kernel

theorem kind_spec (c : Rc) : (9 : UInt8) ∉ Spec.kind c ∧ (Spec.kind c).length ≤ 9 ∧ Spec.Plain (Spec.kind c) := by
  unfold Spec.Plain
  cases c <;> decide +kernel

/-- The columns of an address. -/
def addrColumns (cfg : Cfg) (a : Addr) : List Bytes := if a.nonzero then [cfg.ip a, Mdns.dec a.port] else [[], []]

theorem columns_nil : Spec.columns [] = [[]] := rfl

theorem csvAddr_columns {cfg : Cfg} (hip : Spec.IpText cfg) (a : Addr) :
    ∃ s, csvAddr cfg a = 9 :: s ∧ Spec.columns s = addrColumns cfg a ∧ ∀ t, Spec.columns (s ++ 9 :: t) = addrColumns cfg a ++ Spec.columns t := by
  have hi := plain_no_tab (hip a).2
  have hd := dec_no_tab a.port
  unfold csvAddr addrColumns
  cases a.nonzero with
  | true =>
    refine ⟨_, rfl, ?_, fun t => ?_⟩
    · rw [columns_cut hi, columns_no hd]; rfl
    · rw [List.append_assoc, List.cons_append, columns_cut hi, columns_cut hd]; rfl
  | false =>
    refine ⟨[9], rfl, rfl, fun t => ?_⟩
    show Spec.columns ([] ++ 9 :: ([] ++ 9 :: t)) = _
    rw [columns_cut (by simp), columns_cut (by simp)]; rfl

/-- The column that says whether this is the last result. -/
def lastColumn (l : Bool) : Bytes := if l then b "last" else b "not-last"

theorem lastColumn_spec (l : Bool) : (9 : UInt8) ∉ lastColumn l ∧ (lastColumn l).length ≤ 8 := by
  cases l <;> decide +kernel

theorem csvText_columns {cfg : Cfg} (hip : Spec.IpText cfg) {text : Bytes} (ht : (9 : UInt8) ∉ text) (r : Result) :
    Spec.columns (csvText cfg text (some r)) = [text, Spec.kind r.rc, lastColumn r.last, Mdns.dec r.age]
      ++ if r.rc = .result then addrColumns cfg r.v4 ++ addrColumns cfg r.v6 else [[], [], [], [], []] := by
  unfold csvText
  dsimp only
  rw [columns_cut ht, kind_eq, columns_cut (kind_spec r.rc).1]
  show _ :: _ :: Spec.columns (lastColumn r.last ++ _) = _
  rw [columns_cut (lastColumn_spec r.last).1]
  by_cases hr : r.rc = .result
  · rw [if_pos hr, if_pos hr]
    obtain ⟨s4, e4, -, f4⟩ := csvAddr_columns hip r.v4
    obtain ⟨s6, e6, f6, -⟩ := csvAddr_columns hip r.v6
    rw [e4, e6, List.cons_append, columns_cut (dec_no_tab _), f4, f6]
    rfl
  · rw [if_neg hr, if_neg hr]
    have e : b "\t\t\t\t\t" = [9, 9, 9, 9, 9] := by decide +kernel
    rw [e, columns_cut (dec_no_tab _)]
    rfl

theorem csvError_columns {cfg : Cfg} {text : Bytes} (ht : (9 : UInt8) ∉ text) :
    Spec.columns (csvText cfg text none) = [text, b "ERROR", [], [], [], [], [], []] := by
  have e : b "\tERROR\t\t\t\t\t\t" = 9 :: (b "ERROR" ++ [9, 9, 9, 9, 9, 9]) := by decide +kernel
  unfold csvText
  dsimp only
  rw [e, columns_cut ht, columns_cut (by decide +kernel)]
  rfl

/-! ## Lengths -/

theorem csvText_length {cfg : Cfg} (hip : Spec.IpText cfg) (text : Bytes) (r : Result) : (csvText cfg text (some r)).length ≤ text.length + 200 := by
  have h1 := (kind_spec r.rc).2.1
  have h2 := (lastColumn_spec r.last).2
  have h3 := dec_length r.age
  have ha : ∀ a, (csvAddr cfg a).length ≤ 60 := by
    intro a
    have := (hip a).1
    have := dec_length a.port
    unfold csvAddr
    split
    · simp only [List.length_cons, List.length_append]; omega
    · decide
  have h4 := ha r.v4
  have h5 := ha r.v6
  have e : (b "\t\t\t\t\t").length = 5 := by decide +kernel
  unfold csvText
  dsimp only
  rw [kind_eq]
  show (text ++ 9 :: (Spec.kind r.rc ++ 9 :: (lastColumn r.last ++ 9 :: (Mdns.dec r.age ++ _)))).length ≤ _
  simp only [List.length_cons, List.length_append]
  split
  · rw [List.length_append]; omega
  · rw [e]; omega

/-! ## JSON -/

theorem Members.append {l : List (Bytes × Spec.Json)} {s : Bytes} (h : Spec.Members l s) {k : Bytes} {j : Spec.Json} {t : Bytes} (hk : Spec.Plain k)
    (hj : Spec.Text j t) : Spec.Members (l ++ [(k, j)]) (s ++ (44 :: 32 :: 34 :: (k ++ 34 :: 58 :: 32 :: t))) := by
  have hb : Spec.Blank [32] := by intro c hc; rw [List.mem_singleton] at hc; exact .inl hc
  have one : Spec.Members [(k, j)] (34 :: (k ++ 34 :: 58 :: ([32] ++ t))) := .one k j [32] t hk hb hj
  refine Spec.Members.rec (motive_1 := fun _ _ _ => True) (motive_2 := fun _ _ _ => True)
    (motive_3 := fun l s _ => Spec.Members (l ++ [(k, j)]) (s ++ (44 :: 32 :: 34 :: (k ++ 34 :: 58 :: 32 :: t))))
    ?_ ?_ ?_ ?_ ?_ ?_ ?_ ?_ ?_ ?_ h
  · intros; trivial
  · intros; trivial
  · trivial
  · trivial
  · intros; trivial
  · intros; trivial
  · intros; trivial
  · intros; trivial
  · intro k' j' w s hk' hw hj' _
    exact Spec.Members.more k' j' [(k, j)] w s [32] _ hk' hw hj' hb one
  · intro k' j' l w s w' t' hk' hw hj' hw' hm _ ih
    have := Spec.Members.more k' j' (l ++ [(k, j)]) w s w' _ hk' hw hj' hw' ih
    simp only [List.cons_append, List.append_assoc] at this ⊢
    exact this

theorem addr_text {cfg : Cfg} (hip : Spec.IpText cfg) (a : Addr) :
    Spec.Text (.arr [.str (cfg.ip a), .str (Mdns.dec a.port)]) (91 :: ((34 :: (cfg.ip a ++ [34]) ++ 44 :: ([32] ++ 34 :: (Mdns.dec a.port ++ [34]))) ++ [93])) := by
  refine .arr _ _ (.more _ _ _ [32] _ (.str _ (hip a).2) (by intro c hc; rw [List.mem_singleton] at hc; exact .inl hc) (.one _ _ (.str _ ?_)))
  intro c hc
  obtain ⟨-, h2, -⟩ := Mdns.decGo_spec 10 a.port
  obtain ⟨h3, h4⟩ := h2 c hc
  rw [UInt8.le_iff_toNat_le] at h3 h4
  have h3 : 48 ≤ c.toNat := h3
  have h4 : c.toNat ≤ 57 := h4
  refine ⟨?_, ?_, ?_, ?_⟩
  · rw [UInt8.le_iff_toNat_le]; show 32 ≤ c.toNat; omega
  · rw [UInt8.le_iff_toNat_le]; show c.toNat ≤ 126; omega
  · rintro rfl; exact absurd h3 (by decide)
  · rintro rfl; exact absurd h4 (by decide)

theorem addr_members {cfg : Cfg} (hip : Spec.IpText cfg) {l : List (Bytes × Spec.Json)} {s : Bytes} (h : Spec.Members l s) {name : Bytes}
    (hn : Spec.Plain name) (a : Addr) : Spec.Members (l ++ Spec.addrJson cfg name a) (s ++ jsonAddr cfg name a) := by
  unfold Spec.addrJson jsonAddr
  split
  · have := Members.append h hn (addr_text hip a)
    have e1 : b ", \"" = [44, 32, 34] := by decide +kernel
    have e2 : b "\": [\"" = [34, 58, 32, 91, 34] := by decide +kernel
    have e3 : b "\", \"" = [34, 44, 32, 34] := by decide +kernel
    have e4 : b "\"]" = [34, 93] := by decide +kernel
    rw [e1, e2, e3, e4]
    simp only [List.cons_append, List.append_assoc, List.nil_append] at this ⊢
    exact this
  · rw [List.append_nil, List.append_nil]; exact h

theorem json_text {cfg : Cfg} (hip : Spec.IpText cfg) {text : Bytes} (ht : Spec.Plain text) (r : Option Result) (hr : ∀ x, r = some x → x.age < 2 ^ 32) :
    Spec.Text (Spec.answer cfg text r) (jsonText cfg text r) := by
  have p1 : Spec.Plain (b "query") := by unfold Spec.Plain; decide +kernel
  have p2 : Spec.Plain (b "result") := by unfold Spec.Plain; decide +kernel
  have p3 : Spec.Plain (b "last") := by unfold Spec.Plain; decide +kernel
  have p4 : Spec.Plain (b "age") := by unfold Spec.Plain; decide +kernel
  have p5 : Spec.Plain (b "v4") := by unfold Spec.Plain; decide +kernel
  have p6 : Spec.Plain (b "v6") := by unfold Spec.Plain; decide +kernel
  have p7 : Spec.Plain (b "ERROR") := by unfold Spec.Plain; decide +kernel
  have hb : Spec.Blank [32] := by intro c hc; rw [List.mem_singleton] at hc; exact .inl hc
  have e1 : b "{\"query\": \"" = 123 :: 34 :: (b "query" ++ [34, 58, 32, 34]) := by decide +kernel
  have e2 : b ", \"result\": \"" = 44 :: 32 :: 34 :: (b "result" ++ [34, 58, 32, 34]) := by decide +kernel
  have e3 : b ", \"result\": \"ERROR\"" = 44 :: 32 :: 34 :: (b "result" ++ 34 :: 58 :: 32 :: 34 :: (b "ERROR" ++ [34])) := by decide +kernel
  have e4 : b ", \"last\": " = 44 :: 32 :: 34 :: (b "last" ++ [34, 58, 32]) := by decide +kernel
  have e5 : b ", \"age\": " = 44 :: 32 :: 34 :: (b "age" ++ [34, 58, 32]) := by decide +kernel
  have e6 : b "\"" = [34] := by decide +kernel
  have e7 : b "}" = [125] := by decide +kernel
  have m1 : Spec.Members [(b "query", .str text)] (34 :: (b "query" ++ 34 :: 58 :: ([32] ++ 34 :: (text ++ [34])))) := .one _ _ [32] _ p1 hb (.str _ ht)
  cases r with
  | none =>
    have := Spec.Text.obj _ _ (Members.append m1 p2 (.str _ p7))
    unfold jsonText Spec.answer
    dsimp only
    rw [e1, e3, e6, e7]
    simp only [List.cons_append, List.append_assoc, List.nil_append] at this ⊢
    exact this
  | some r =>
    have m2 := Members.append m1 p2 (.str _ (kind_spec r.rc).2.2)
    have hl : Spec.Text (.bool r.last) (if r.last then b "true" else b "false") := by
      cases r.last with
      | true => exact .true
      | false => exact .false
    have m3 := Members.append m2 p3 hl
    have m4 := Members.append m3 p4 (.num _ _ (dec_decimal (hr r rfl)))
    have m5 : Spec.Members ([(b "query", .str text), (b "result", .str (Spec.kind r.rc)), (b "last", .bool r.last), (b "age", .num r.age)]
        ++ if r.rc = .result then Spec.addrJson cfg (b "v4") r.v4 ++ Spec.addrJson cfg (b "v6") r.v6 else [])
        (34 :: (b "query" ++ 34 :: 58 :: ([32] ++ 34 :: (text ++ [34]))) ++ 44 :: 32 :: 34 :: (b "result" ++ 34 :: 58 :: 32 :: 34 :: (Spec.kind r.rc ++ [34]))
          ++ 44 :: 32 :: 34 :: (b "last" ++ 34 :: 58 :: 32 :: (if r.last then b "true" else b "false"))
          ++ 44 :: 32 :: 34 :: (b "age" ++ 34 :: 58 :: 32 :: Mdns.dec r.age)
          ++ if r.rc = .result then jsonAddr cfg (b "v4") r.v4 ++ jsonAddr cfg (b "v6") r.v6 else []) := by
      by_cases hrc : r.rc = .result
      · rw [if_pos hrc, if_pos hrc]
        have := addr_members hip (addr_members hip m4 p5 r.v4) p6 r.v6
        simp only [List.append_assoc] at this ⊢
        exact this
      · rw [if_neg hrc, if_neg hrc, List.append_nil, List.append_nil]
        exact m4
    have := Spec.Text.obj _ _ m5
    unfold jsonText Spec.answer
    dsimp only
    rw [kind_eq, e1, e2, e4, e5, e6, e7]
    simp only [List.cons_append, List.append_assoc, List.nil_append] at this ⊢
    exact this

theorem jsonText_length {cfg : Cfg} (hip : Spec.IpText cfg) (text : Bytes) (r : Result) : (jsonText cfg text (some r)).length ≤ text.length + 300 := by
  have h1 := (kind_spec r.rc).2.1
  have h3 := dec_length r.age
  have ha : ∀ a name, (jsonAddr cfg name a).length ≤ name.length + 75 := by
    intro a name
    have := (hip a).1
    have := dec_length a.port
    have e1 : (b ", \"").length = 3 := by decide +kernel
    have e2 : (b "\": [\"").length = 5 := by decide +kernel
    have e3 : (b "\", \"").length = 4 := by decide +kernel
    have e4 : (b "\"]").length = 2 := by decide +kernel
    unfold jsonAddr
    split
    · simp only [List.length_append, e1, e2, e3, e4]; omega
    · simp
  have h4 := ha r.v4 (b "v4")
  have h5 := ha r.v6 (b "v6")
  have k4 : (b "v4").length = 2 := by decide +kernel
  have k6 : (b "v6").length = 2 := by decide +kernel
  have e1 : (b "{\"query\": \"").length = 11 := by decide +kernel
  have e2 : (b ", \"result\": \"").length = 13 := by decide +kernel
  have e4 : (b ", \"last\": ").length = 10 := by decide +kernel
  have e5 : (b ", \"age\": ").length = 9 := by decide +kernel
  have e6 : (b "\"").length = 1 := by decide +kernel
  have e7 : (b "}").length = 1 := by decide +kernel
  have hl : (if r.last then b "true" else b "false").length ≤ 5 := by cases r.last <;> decide +kernel
  unfold jsonText
  dsimp only
  rw [kind_eq]
  generalize (if r.last = true then b "true" else b "false") = x at hl ⊢
  simp only [List.length_append, e1, e2, e4, e5, e6, e7]
  split
  · rw [List.length_append]; omega
  · simp only [List.length_nil]; omega

end Verif.Tool
