import Verif.Wire.Props
/-!
# C81: what a peer can make the HLR keep
-/
namespace Verif.Wire.Props
open Verif Verif.Sys Verif.Wire

/-! ## The identity -/

def tags : List UInt8 := (List.range 256).map UInt8.ofNat

theorem mem_tags (i : UInt8) : i ∈ tags :=
  List.mem_map.2 ⟨i.toNat, List.mem_range.2 i.toNat_lt, by simp⟩

theorem tags_nodup : tags.Nodup := by
  unfold tags
  rw [List.nodup_iff_pairwise_ne, List.pairwise_map]
  refine List.Pairwise.imp_of_mem ?_ List.nodup_range
  intro a a' ha ha' hne h
  have := congrArg UInt8.toNat h
  simp at this
  rw [List.mem_range] at ha ha'
  omega

theorem tlvpCopy_fold (inp : Tlv) (o : Ident) : tlvpCopy inp o = tags.foldl (copyTag inp) o := rfl

attribute [local irreducible] tlvpCopy present

theorem copyTag_tlv (inp : Tlv) (o : Ident) (i j : UInt8) : (copyTag inp o i).tlv j = if j = i then inp i else o.tlv j := by
  unfold copyTag
  by_cases h : j = i
  · subst h
    rw [if_pos rfl]
    cases inp j with
    | none => dsimp only; cases ho : o.tlv j with
      | none => exact ho
      | some v => exact if_pos rfl
    | some v => exact if_pos rfl
  · rw [if_neg h]
    cases inp i with
    | none => dsimp only; cases o.tlv i with
      | none => rfl
      | some v => exact if_neg h
    | some v => exact if_neg h

theorem copy_tlv (inp : Tlv) (l : List UInt8) (o : Ident) (j : UInt8) :
    (l.foldl (copyTag inp) o).tlv j = if j ∈ l then inp j else o.tlv j := by
  induction l generalizing o with
  | nil => simp
  | cons i l ih =>
    rw [List.foldl_cons, ih, copyTag_tlv]
    by_cases h1 : j ∈ l
    · rw [if_pos h1, if_pos (List.mem_cons_of_mem _ h1)]
    · rw [if_neg h1]
      by_cases h2 : j = i
      · subst h2; rw [if_pos rfl, if_pos (List.mem_cons_self ..)]
      · rw [if_neg h2, if_neg (by simp [h1, h2])]

/-- C81: what the HLR keeps of the identity a peer gives is exactly what the peer gave last: each element, and no element of an earlier
identity. -/
theorem c81_identity (inp : Tlv) (o : Ident) (tag : UInt8) : ccmGet (tlvpCopy inp o) tag = inp tag := by
  unfold ccmGet
  rw [tlvpCopy_fold, copy_tlv, if_pos (mem_tags tag)]

/-- How many of the tags in `l` satisfy `p`. -/
def cnt (l : List UInt8) (p : UInt8 → Bool) : Nat := (l.filter p).length

theorem cnt_cons (i : UInt8) (l : List UInt8) (p : UInt8 → Bool) : cnt (i :: l) p = (if p i then 1 else 0) + cnt l p := by
  unfold cnt
  rw [List.filter_cons]
  split <;> simp [Nat.add_comm]

theorem cnt_congr {l : List UInt8} {p q : UInt8 → Bool} (h : ∀ i ∈ l, p i = q i) : cnt l p = cnt l q := by
  unfold cnt; rw [List.filter_congr h]

theorem copy_live (inp : Tlv) (l : List UInt8) (hl : l.Nodup) (o : Ident) (h : cnt l (fun i => (o.tlv i).isSome) ≤ o.live) :
    (l.foldl (copyTag inp) o).live + cnt l (fun i => (o.tlv i).isSome && (inp i).isNone) = o.live + cnt l (fun i => (inp i).isSome) := by
  induction l generalizing o with
  | nil => rfl
  | cons i l ih =>
    rw [List.nodup_cons] at hl
    rw [cnt_cons] at h
    have hc : ∀ q : UInt8 → Option Bytes → Bool, cnt l (fun j => q j ((copyTag inp o i).tlv j)) = cnt l (fun j => q j (o.tlv j)) := fun q =>
      cnt_congr fun j hj => by rw [copyTag_tlv, if_neg (fun e : j = i => hl.1 (e ▸ hj))]
    have h1 := hc (fun _ t => t.isSome)
    have h2 := hc (fun j t => t.isSome && (inp j).isNone)
    have hlive : (copyTag inp o i).live + (if (o.tlv i).isSome && (inp i).isNone then 1 else 0) = o.live + (if (inp i).isSome then 1 else 0)
        ∧ (cnt l (fun i => (o.tlv i).isSome) ≤ (copyTag inp o i).live) := by
      unfold copyTag
      cases hi : inp i with
      | none => dsimp only; cases ho : o.tlv i with
        | none => rw [ho] at h; simp at h ⊢; exact h
        | some v => rw [ho] at h; simp at h ⊢; omega
      | some v =>
        cases ho : o.tlv i with
        | none => rw [ho] at h; simp at h ⊢; omega
        | some v => rw [ho] at h; simp at h ⊢; omega
    have := ih hl.2 (copyTag inp o i) (by rw [h1]; exact hlive.2)
    rw [h2] at this
    rw [List.foldl_cons, cnt_cons, cnt_cons]
    omega

theorem present_cnt (t : Tlv) : present t = cnt tags (fun i => (t i).isSome) := by
  unfold present cnt tags
  rw [List.filter_map, List.length_map]
  rfl

/-- C81: no copy that is in use is freed; but a copy that is replaced is not freed either: with every further identity the number of copies
grows by the number of elements that were there before and are there again. -/
theorem c81_copies (inp : Tlv) (o : Ident) (h : present o.tlv ≤ o.live) :
    present (tlvpCopy inp o).tlv ≤ (tlvpCopy inp o).live ∧
    (tlvpCopy inp o).live + present o.tlv = o.live + present inp + ((List.range 256).filter fun i =>
      (o.tlv (UInt8.ofNat i)).isSome && (inp (UInt8.ofNat i)).isSome).length := by
  rw [present_cnt] at h
  have h1 := copy_live inp tags tags_nodup o h
  have h2 : (tlvpCopy inp o).live = (tags.foldl (copyTag inp) o).live := by rw [tlvpCopy_fold]
  have h3 : (tlvpCopy inp o).tlv = inp := funext fun i => c81_identity inp o i
  have h4 : ∀ l : List UInt8, cnt l (fun i => (o.tlv i).isSome)
      = cnt l (fun i => (o.tlv i).isSome && (inp i).isNone) + cnt l (fun i => (o.tlv i).isSome && (inp i).isSome) := by
    intro l
    induction l with
    | nil => rfl
    | cons i l ih =>
      rw [cnt_cons, cnt_cons, cnt_cons, ih]
      cases o.tlv i <;> cases inp i <;> simp <;> omega
  have h5 : ((List.range 256).filter fun i => (o.tlv (UInt8.ofNat i)).isSome && (inp (UInt8.ofNat i)).isSome).length
      = cnt tags (fun i => (o.tlv i).isSome && (inp i).isSome) := by
    unfold cnt tags
    rw [List.filter_map, List.length_map]
    rfl
  have h6 := h4 tags
  rw [h3, h2, h5, present_cnt, present_cnt]
  omega

/-- C81: the copies made for a connection are exactly those in use, as long as the peer gives its identity once. -/
theorem c81_copies_once_partial (inp : Tlv) : (tlvpCopy inp {}).live = present inp := by
  have := (c81_copies inp {} (by simp [present])).2
  simp [present] at this ⊢
  omega

example : (tlvpCopy (fun i => if i = 0 then some (b "MSC-1") else if i = 1 then some [1] else none) {}).live = 2 := by decide +kernel

/-! ## Histories -/

/-- An identity response with a name of three bytes. -/
def exIdent : Bytes := clientSend (.ccm (5 :: b "MSC"))

/-- An OAP message. -/
def exOap : Bytes := clientSend (.oap [1])

def bytesOn (c : ConnId) (bs : Bytes) : List (Cfg × WEv) := bs.map fun x => (exCfg, .byte c x {})

theorem setBuf_setBuf (w : W) (c : ConnId) (x y : Bytes) : setBuf (setBuf w c x) c y = setBuf w c y := by
  unfold setBuf
  dsimp only
  congr 1
  funext c'
  split <;> rfl

theorem setBuf_self (w : W) (c : ConnId) : setBuf w c (w.buf c) = w := by
  unfold setBuf
  have : (fun c' => if c' = c then w.buf c else w.buf c') = w.buf := by
    funext c'
    split
    · rename_i h; rw [h]
    · rfl
  rw [this]

/-- A piece of a frame waits. -/
theorem feed_piece (L : Lib) (w : W) (c : ConnId) (hh : w.hears c = true) (bs more : Bytes) (hp : PartN L.cap (w.buf c ++ bs)) :
    wrun L w (bytesOn c (bs ++ more)) = wrun L (setBuf w c (w.buf c ++ bs)) (bytesOn c more) := by
  induction bs generalizing w with
  | nil => rw [List.nil_append, List.append_nil, setBuf_self]
  | cons x bs ih =>
    have e : w.buf c ++ x :: bs = (w.buf c ++ [x]) ++ bs := by simp
    have hpush : push L.cap (w.buf c) x = .more (w.buf c ++ [x]) := by
      have h1 : PartN L.cap (w.buf c ++ [x]) := by
        rw [e] at hp
        exact partN_left hp
      exact push_more h1
    show wrun L (wstep L exCfg w (.byte c x {})) (bytesOn c (bs ++ more)) = _
    have hs : wstep L exCfg w (.byte c x {}) = setBuf w c (w.buf c ++ [x]) := by
      unfold wstep
      dsimp only
      rw [if_pos hh]
      unfold byteIn
      rw [hpush]
    rw [hs, ih (setBuf w c (w.buf c ++ [x])) hh (by rw [setBuf_eq, ← e]; exact hp), setBuf_eq, setBuf_setBuf, e]

/-- A frame arrives. -/
theorem feed_frame (L : Lib) (w : W) (c : ConnId) (hh : w.hears c = true) (hb : w.buf c = []) (f : UInt8 × Bytes) (hf : Fits L.cap f)
    (hl : f.2.length < 65536) : wrun L w (bytesOn c (wire f)) = frameIn L exCfg (setBuf w c []) c f.1 f.2 {} := by
  obtain ⟨buf, x, h1, h2, h3⟩ := wire_last hf hl
  rw [h1, feed_piece L w c hh buf [x] (by rw [hb]; exact h2), hb, List.nil_append]
  show wrun L (wstep L exCfg (setBuf w c buf) (.byte c x {})) [] = _
  show wstep L exCfg (setBuf w c buf) (.byte c x {}) = _
  unfold wstep
  dsimp only
  rw [if_pos (show (setBuf w c buf).hears c = true from hh)]
  unfold byteIn
  rw [setBuf_eq, h3]
  dsimp only
  rw [setBuf_setBuf]

/-- The state of a peer that can go on: connected, and between two frames. -/
def Ready (w : W) (c : ConnId) : Prop := w.hears c = true ∧ w.buf c = []

theorem ready_start : Ready (wrun exLib (winit {}) [(exCfg, .ev .connect)]) 1 := ⟨by decide +kernel, rfl⟩

theorem ident_again {w : W} (h : Ready w 1) : ∃ l, Ready (wrun exLib w l) 1 ∧ (wrun exLib w l).lost = w.lost ∧
    (wrun exLib w l).id 1 = tlvpCopy (fun i => if i = 0 then some (b "MSC") else none) (w.id 1) := by
  have hw : exIdent = wire (0xfe, 5 :: b "MSC") := by decide +kernel
  have hf := feed_frame exLib w 1 h.1 h.2 (0xfe, 5 :: b "MSC") (by constructor <;> decide +kernel) (by decide +kernel)
  refine ⟨bytesOn 1 exIdent, ?_⟩
  rw [hw, hf]
  obtain ⟨h1, -⟩ := h
  unfold W.hears at h1
  simp only [Bool.and_eq_true, Bool.not_eq_true'] at h1
  obtain ⟨hu, hc⟩ := h1
  have hin : frameIn exLib exCfg (setBuf w 1 []) 1 0xfe (5 :: b "MSC") {}
      = ccmCb exCfg (setBuf w 1 []) 1 (fun i => if i = 0 then some (b "MSC") else none) := rfl
  rw [hin]
  refine ⟨⟨?_, ?_⟩, rfl, ?_⟩
  rotate_left 2
  · unfold ccmCb setId setBuf
    dsimp only
    rw [if_pos rfl]
  · unfold W.hears
    have hsys : (ccmCb exCfg (setBuf w 1 []) 1 (fun i => if i = 0 then some (b "MSC") else none)).sys
        = Sys.step exCfg w.sys (.ccm 1 (ccmGet (tlvpCopy (fun i => if i = 0 then some (b "MSC") else none) (w.id 1)) IDTAG_SERNR)) := rfl
    rw [hsys, c81_identity]
    obtain ⟨k, hk⟩ := Option.isSome_iff_exists.1 hc
    unfold Sys.step
    rw [if_neg (by rw [hu]; simp)]
    dsimp only
    rw [hk]
    dsimp only
    show (!w.sys.ub && ((setConn w.sys _).conn? 1).isSome) = true
    rw [hu]
    have : ∀ k', ((setConn w.sys k').conn? 1).isSome = true := fun k' => by
      rw [conn_mem, setConn_ids, ← conn_mem]; exact hc
    exact this _
  · show (if (1 : ConnId) = 1 then ([] : Bytes) else w.buf 1) = []
    rw [if_pos rfl]

theorem oap_again {w : W} (h : Ready w 1) : ∃ l, Ready (wrun exLib w l) 1 ∧ (wrun exLib w l).lost = w.lost + 1 := by
  have hw : exOap = wire (0xee, [6, 1]) := by decide +kernel
  have hf := feed_frame exLib w 1 h.1 h.2 (0xee, [6, 1]) (by constructor <;> decide +kernel) (by decide +kernel)
  refine ⟨bytesOn 1 exOap, ?_⟩
  rw [hw, hf]
  exact ⟨⟨h.1, (congrFun (frameIn_sys exLib exCfg (setBuf w 1 []) 1 0xee [6, 1] {}).1 1).trans (setBuf_eq w 1 [])⟩, rfl⟩

/-- C81 fails: a peer that gives its name again and again makes the HLR allocate as many copies of it, of which one is in use; the others
are freed when the connection ends. -/
theorem c81_identity_violated (n : Nat) : ∃ l, let w := wrun exLib (winit {}) l
    (w.sys.conn? 1).isSome ∧ present (w.id 1).tlv = 1 ∧ (w.id 1).live = n + 1 := by
  have hT : present (fun i => if i = 0 then some (b "MSC") else none) = 1 := by unfold present; decide +kernel
  have key : ∃ l, Ready (wrun exLib (winit {}) l) 1 ∧ ((wrun exLib (winit {}) l).id 1).tlv = (fun i => if i = 0 then some (b "MSC") else none)
      ∧ ((wrun exLib (winit {}) l).id 1).live = n + 1 := by
    induction n with
    | zero =>
      obtain ⟨l, h1, -, h2⟩ := ident_again ready_start
      refine ⟨[(exCfg, .ev .connect)] ++ l, ?_⟩
      rw [wrun_append]
      refine ⟨h1, ?_, ?_⟩
      · rw [h2]; exact funext fun i => c81_identity _ _ i
      · rw [h2]
        have : (wrun exLib (winit {}) [(exCfg, .ev .connect)]).id 1 = {} := rfl
        rw [this, c81_copies_once_partial, hT]
    | succ n ih =>
      obtain ⟨l0, h0, ht, hl⟩ := ih
      obtain ⟨l, h1, -, h2⟩ := ident_again h0
      refine ⟨l0 ++ l, ?_⟩
      rw [wrun_append]
      refine ⟨h1, ?_, ?_⟩
      · rw [h2]; exact funext fun i => c81_identity _ _ i
      · rw [h2]
        have := (c81_copies (fun i => if i = 0 then some (b "MSC") else none) ((wrun exLib (winit {}) l0).id 1) (by rw [ht, hT, hl]; omega)).2
        rw [ht, hT, hl] at this
        have hb : ((List.range 256).filter fun i => ((if UInt8.ofNat i = 0 then some (b "MSC") else none : Option Bytes)).isSome &&
          ((if UInt8.ofNat i = 0 then some (b "MSC") else none : Option Bytes)).isSome).length = 1 := by decide +kernel
        rw [hb] at this
        omega
  obtain ⟨l, h1, h2, h3⟩ := key
  refine ⟨l, ?_, ?_, h3⟩
  · have := h1.1
    unfold W.hears at this
    simp only [Bool.and_eq_true] at this
    exact this.2
  · rw [h2, hT]

/-- C81 fails: of every OAP message a peer sends the HLR keeps the buffer for ever. -/
theorem c81_buffers_violated (n : Nat) : ∃ l, ((wrun exLib (winit {}) l).sys.conn? 1).isSome ∧ (wrun exLib (winit {}) l).lost = n := by
  have key : ∃ l, Ready (wrun exLib (winit {}) l) 1 ∧ (wrun exLib (winit {}) l).lost = n := by
    induction n with
    | zero => exact ⟨_, ready_start, rfl⟩
    | succ n ih =>
      obtain ⟨l0, h0, hl⟩ := ih
      obtain ⟨l, h1, h2⟩ := oap_again h0
      refine ⟨l0 ++ l, ?_⟩
      rw [wrun_append]
      exact ⟨h1, by rw [h2, hl]⟩
  obtain ⟨l, h1, h2⟩ := key
  refine ⟨l, ?_, h2⟩
  have := h1.1
  unfold W.hears at this
  simp only [Bool.and_eq_true] at this
  exact this.2

/-- C81: what becomes of the buffer of a frame: it is freed by the reader or given to the handler of GSUP messages, unless it is an OAP
message. -/
theorem c81_frame (p : UInt8) (d : Bytes) :
    ((readCb p d).2 = .given ↔ (gsupOf (p, d)).isSome) ∧ ((readCb p d).2 = .lost ↔ isOap (p, d) = true) := by
  unfold readCb gsupOf isOap
  dsimp only
  by_cases h : p = 0xee
  · subst h
    rw [if_neg (by decide), if_neg (by decide), if_pos rfl]
    rcases d with _ | ⟨e, m⟩
    · simp
    · by_cases h5 : e = 0x05
      · subst h5; simp
      · by_cases h6 : e = 0x06
        · subst h6; exact ⟨⟨fun h => absurd (show Buf.lost = .given from h) (by decide), fun h => by simp at h⟩, ⟨fun _ => rfl, fun _ => rfl⟩⟩
        · dsimp only
          rw [if_neg h5, if_neg h6]
          constructor
          · constructor
            · intro h; simp at h
            · intro h; split at h
              · rename_i h'; exact absurd (List.cons.inj h').1 h5
              · simp at h
          · simp [h6]
  · rw [if_neg h, if_pos h]
    split <;> simp [h]

/-- The OAP messages among the frames that have arrived. -/
theorem lost_run (L : Lib) (d : Db.Db) (l : List (Cfg × WEv)) :
    (wrun L (winit d) l).lost = 0 ↔ ∀ c, ∀ f ∈ (readAll L.cap [] (heard L (winit d) c l)).1, isOap f = false := by
  have gen : ∀ (l : List (Cfg × WEv)) (w : W) (bs : ConnId → Bytes), (∀ c, At L c (bs c) w) →
      (w.lost = 0 ↔ ∀ c, ∀ f ∈ (readAll L.cap [] (bs c)).1, isOap f = false) →
      ((wrun L w l).lost = 0 ↔ ∀ c, ∀ f ∈ (readAll L.cap [] (bs c ++ heard L w c l)).1, isOap f = false) := by
    intro l
    induction l with
    | nil => intro w bs _ h; simpa [heard, wrun] using h
    | cons x l ih =>
      intro w bs ha h
      have e : ∀ c, heard L w c (x :: l) = heard L w c [x] ++ heard L (wstep L x.1 w x.2) c l := fun c => heard_append L w c [x] l
      have h1 := ih (wstep L x.1 w x.2) (fun c => bs c ++ heard L w c [x]) (fun c => (ha c).step x.1 x.2) ?_
      · simp only [List.append_assoc, ← e] at h1; exact h1
      · obtain ⟨cfg, ev⟩ := x
        cases ev with
        | ev ev =>
          have : (wstep L cfg w (.ev ev)).lost = w.lost := by
            unfold wstep; dsimp only; split <;> rfl
          simp only [this, heard, List.append_nil]
          exact h
        | byte c' y env =>
          simp only [heard, List.append_nil]
          unfold wstep
          dsimp only
          by_cases hh : w.hears c' = true
          · rw [if_pos hh]
            have hu : (w.sys.conn? c').isSome = true := by
              unfold W.hears at hh; simp only [Bool.and_eq_true] at hh; exact hh.2
            have hr := readAll_snoc L.cap [] (bs c') y ((ha c').buf hu)
            have others : ∀ P : Prop, ((∀ f ∈ (readAll L.cap [] (bs c' ++ [y])).1, isOap f = false)
                ↔ (∀ f ∈ (readAll L.cap [] (bs c')).1, isOap f = false) ∧ P) →
                ((∀ c, ∀ f ∈ (readAll L.cap [] (bs c ++ if c' = c ∧ w.hears c = true then [y] else [])).1, isOap f = false)
                  ↔ w.lost = 0 ∧ P) := by
              intro P hP
              rw [h]
              constructor
              · intro hall
                have h1 := hall c'
                rw [if_pos ⟨rfl, hh⟩, hP] at h1
                refine ⟨fun c => ?_, h1.2⟩
                by_cases hc : c' = c
                · subst hc; exact h1.1
                · have := hall c
                  rw [if_neg (fun h => hc h.1), List.append_nil] at this
                  exact this
              · rintro ⟨hall, hp⟩ c
                by_cases hc : c' = c
                · subst hc; rw [if_pos ⟨rfl, hh⟩, hP]; exact ⟨hall c', hp⟩
                · rw [if_neg (fun h => hc h.1), List.append_nil]; exact hall c
            unfold byteIn
            cases hp : push L.cap (w.buf c') y with
            | more b' =>
              rw [hp] at hr
              rw [others True (by rw [hr]; simp)]
              exact (and_iff_left trivial).symm
            | bad =>
              rw [hp] at hr
              rw [others True (by rw [hr]; simp)]
              exact (and_iff_left trivial).symm
            | frame p d =>
              rw [hp] at hr
              rw [others (isOap (p, d) = false) (by rw [hr]; simp [or_imp, forall_and])]
              dsimp only
              have hlost : (frameIn L cfg (setBuf w c' []) c' p d env).lost = if isOap (p, d) then w.lost + 1 else w.lost := by
                have hrc := (c81_frame p d).2
                unfold frameIn
                dsimp only
                have h0 : (if (readCb p d).2 = Buf.lost then ({ setBuf w c' [] with lost := (setBuf w c' []).lost + 1 } : W) else setBuf w c' []).lost
                    = if isOap (p, d) then w.lost + 1 else w.lost := by
                  by_cases ho : isOap (p, d) = true
                  · rw [if_pos (hrc.2 ho), if_pos ho]; rfl
                  · rw [if_neg (fun h => ho (hrc.1 h)), if_neg ho]; rfl
                rw [← h0]
                generalize (if (readCb p d).2 = Buf.lost then ({ setBuf w c' [] with lost := (setBuf w c' []).lost + 1 } : W) else setBuf w c' []) = w'
                cases (readCb p d).1 with
                | gsup m => rfl
                | ccm d' => dsimp only; cases L.ccm d' <;> rfl
                | oap => rfl
                | invalid => rfl
              rw [hlost]
              cases isOap (p, d) <;> simp
          · rw [if_neg hh, h]
            have : ∀ c, (if c' = c ∧ w.hears c = true then [y] else ([] : Bytes)) = [] := fun c =>
              if_neg (by rintro ⟨rfl, h⟩; exact hh h)
            simp only [this, List.append_nil]
  have := gen l (winit d) (fun _ => []) (fun c => by simpa [heard, wrun] using at_run L d c []) (by simp [readAll, winit])
  simpa using this

/-- C81: as long as no OAP message arrives, on no connection, no buffer of a received frame is lost; and only then. -/
theorem c81_buffers_partial (L : Lib) (hcap : L.cap < 65536) (d : Db.Db) (l : List (Cfg × WEv)) :
    (wrun L (winit d) l).lost = 0 ↔ ∀ c fs, ((∃ tail, Carries L.cap (heard L (winit d) c l) fs tail) ∨ Broken L.cap (heard L (winit d) c l) fs) →
      ∀ f ∈ fs, isOap f = false := by
  rw [lost_run]
  have key : ∀ c fs, ((∃ tail, Carries L.cap (heard L (winit d) c l) fs tail) ∨ Broken L.cap (heard L (winit d) c l) fs) →
      (readAll L.cap [] (heard L (winit d) c l)).1 = fs := by
    rintro c fs (⟨tail, h1, h2, h3⟩ | ⟨h', l', p, h1, h2, h3⟩)
    · have hp : PartN L.cap ([] ++ tail) := Part.partN hcap h3
      rw [h1, readAll_wires hcap fs h2]
      have := readAll_piece [] tail hp []
      rw [List.append_nil] at this
      rw [this]
      simp [readAll]
    · rw [h1, readAll_wires hcap fs h2]
      have e1 : push L.cap [h', l'] p = .bad := by
        show (if h'.toNat * 256 + l'.toNat = 0 ∨ L.cap < h'.toNat * 256 + l'.toNat then Got.bad else _) = _
        exact if_pos h3
      have : readAll L.cap [] [h', l', p] = ([], none) := by
        show readAll L.cap [h', l'] [p] = _
        rw [readAll, e1]
      rw [this]; simp
  constructor
  · intro h c fs hfs f hf
    exact h c f (by rw [key c fs hfs]; exact hf)
  · intro h c
    have hs := readAll_spec L.cap [] partN_nil (heard L (winit d) c l)
    refine h c _ ?_
    cases hr : (readAll L.cap [] (heard L (winit d) c l)).2 with
    | some tail =>
      rw [hr] at hs
      exact .inl ⟨tail, by simpa using hs.2.1, hs.1, hs.2.2.part⟩
    | none =>
      obtain ⟨h', l', p, h1, h2⟩ := (at_run L d c l).broken hr
      exact .inr ⟨h', l', p, h1, hs.1, h2⟩

/-- C81 fails: when an identity is logged, a value without a NUL at its end is read beyond its end. -/
theorem c81_dump_violated : dumpRead (b "MSC-1") = none ∧ dumpRead (b "MSC-1" ++ [0]) = some (b "MSC-1") := by decide +kernel

/-- C81: a value with a NUL is read up to that. -/
theorem c81_dump_partial (v : Bytes) (h : (0 : UInt8) ∈ v) : ∃ r rest, dumpRead v = some r ∧ v = r ++ 0 :: rest ∧ (0 : UInt8) ∉ r := by
  unfold dumpRead
  rw [if_pos h]
  refine ⟨_, (v.dropWhile (· ≠ 0)).drop 1, rfl, ?_, ?_⟩
  · induction v with
    | nil => simp at h
    | cons x v ih =>
      by_cases hx : x = 0
      · subst hx; simp
      · rw [List.takeWhile_cons_of_pos (by simpa using hx), List.dropWhile_cons_of_pos (by simpa using hx)]
        rw [List.cons_append, ← ih (by rcases List.mem_cons.1 h with h | h; exact absurd h.symm hx; exact h)]
  · clear h
    induction v with
    | nil => simp
    | cons x v ih =>
      by_cases hx : x = 0
      · subst hx; simp
      · rw [List.takeWhile_cons_of_pos (by simpa using hx), List.mem_cons, not_or]
        exact ⟨fun h => hx h.symm, ih⟩


end Verif.Wire.Props
