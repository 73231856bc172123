import Verif.Wire.Spec
/-!
# Lemmas for C80 and C81
-/
namespace Verif.Wire
open Verif Verif.Sys

theorem prepend_wire (p : UInt8) (d : Bytes) : prepend p d = wire (p, d) := by
  show UInt8.ofNat (d.length / 256) :: UInt8.ofNat d.length :: p :: d = _ :: UInt8.ofNat (d.length % 256) :: _
  have : UInt8.ofNat d.length = UInt8.ofNat (d.length % 256) := by
    apply UInt8.toNat.inj; simp
  rw [this]; rfl

/-! ## The reader -/

/-- Read a stream: the frames in it and what is left, or a broken header. -/
def readAll (cap : Nat) : Bytes → Bytes → List (UInt8 × Bytes) × Option Bytes
  | buf, [] => ([], some buf)
  | buf, x :: bs => match push cap buf x with
    | .more b => readAll cap b bs
    | .bad => ([], none)
    | .frame p d => ((p, d) :: (readAll cap [] bs).1, (readAll cap [] bs).2)

/-- The length a header announces. -/
def hlen (h l : UInt8) : Nat := h.toNat * 256 + l.toNat

theorem hlen_wire {n : Nat} (h : n < 65536) : hlen (UInt8.ofNat (n / 256)) (UInt8.ofNat (n % 256)) = n := by
  unfold hlen; simp; omega

theorem hlen_lt (h l : UInt8) : hlen h l < 65536 := by
  unfold hlen
  have := h.toNat_lt; have := l.toNat_lt; omega

theorem ofNat_hlen (h l : UInt8) : UInt8.ofNat (hlen h l / 256) = h ∧ UInt8.ofNat (hlen h l % 256) = l := by
  have h1 := h.toNat_lt; have h2 := l.toNat_lt
  unfold hlen
  constructor
  · apply UInt8.toNat.inj; simp; omega
  · apply UInt8.toNat.inj; simp

/-- A buffer: the beginning of a frame. -/
def Part (cap : Nat) (buf : Bytes) : Prop := buf.length < 3 ∨ ∃ f x rest, Fits cap f ∧ buf ++ x :: rest = wire f

theorem wire_inj {f g : UInt8 × Bytes} {s t : Bytes} (hf : f.2.length < 65536) (hg : g.2.length < 65536) (h : wire f ++ s = wire g ++ t) :
    f = g ∧ s = t := by
  obtain ⟨p, d⟩ := f
  obtain ⟨q, e⟩ := g
  unfold wire at h
  simp only [List.cons_append, List.nil_append, List.cons.injEq] at h
  obtain ⟨h1, h2, h3, h4⟩ := h
  have hl : d.length = e.length := by
    have := hlen_wire hf; have h' := hlen_wire hg
    simp only at this h'
    rw [← this, ← h', h1, h2]
  have := List.append_inj h4 hl
  rw [h3, this.1]; exact ⟨rfl, this.2⟩

/-- Pushing a byte of a frame that is not complete with it. -/
theorem push_cases (cap : Nat) (buf : Bytes) (x : UInt8) :
    (push cap buf x = .more (buf ++ [x]) ∧ ((buf ++ [x]).length < 3 ∨
        ∃ h l p d, buf ++ [x] = h :: l :: p :: d ∧ hlen h l ≠ 0 ∧ hlen h l ≤ cap ∧ d.length ≠ hlen h l))
    ∨ (push cap buf x = .bad ∧ ∃ h l p d, buf ++ [x] = h :: l :: p :: d ∧ (hlen h l = 0 ∨ cap < hlen h l))
    ∨ (∃ h l p d, push cap buf x = .frame p d ∧ buf ++ [x] = h :: l :: p :: d ∧ hlen h l ≠ 0 ∧ hlen h l ≤ cap ∧ d.length = hlen h l) := by
  unfold push
  split
  · rename_i h l p d e
    by_cases h1 : hlen h l = 0 ∨ cap < hlen h l
    · exact .inr (.inl ⟨if_pos h1, h, l, p, d, e, h1⟩)
    · have h2 : hlen h l ≠ 0 ∧ hlen h l ≤ cap := by omega
      by_cases h3 : d.length = hlen h l
      · refine .inr (.inr ⟨h, l, p, d, ?_, e, h2.1, h2.2, h3⟩)
        exact (if_neg h1).trans (if_pos h3)
      · refine .inl ⟨?_, .inr ⟨h, l, p, d, e, h2.1, h2.2, h3⟩⟩
        rw [e]
        exact (if_neg h1).trans (if_neg h3)
  · rename_i hn
    refine .inl ⟨rfl, .inl ?_⟩
    rcases hc : buf ++ [x] with _ | ⟨a, _ | ⟨b', _ | ⟨c, d⟩⟩⟩
    · simp
    · simp
    · simp
    · exact absurd hc (hn a b' c d)

/-- A buffer, byte by byte. -/
def PartN (cap : Nat) (buf : Bytes) : Prop :=
  buf.length < 3 ∨ ∃ h l p d, buf = h :: l :: p :: d ∧ hlen h l ≠ 0 ∧ hlen h l ≤ cap ∧ d.length < hlen h l

theorem push_partN {cap : Nat} {buf : Bytes} (hb : PartN cap buf) (x : UInt8) :
    (push cap buf x = .more (buf ++ [x]) ∧ PartN cap (buf ++ [x]))
    ∨ (push cap buf x = .bad ∧ ∃ h l p, buf ++ [x] = [h, l, p] ∧ (hlen h l = 0 ∨ cap < hlen h l))
    ∨ (∃ p d, push cap buf x = .frame p d ∧ buf ++ [x] = wire (p, d) ∧ Fits cap (p, d) ∧ d.length < 65536) := by
  rcases push_cases cap buf x with ⟨e, h⟩ | ⟨e, h, l, p, d, e1, h1⟩ | ⟨h, l, p, d, e, e1, h1, h2, h3⟩
  · refine .inl ⟨e, ?_⟩
    rcases h with h | ⟨h, l, p, d, e1, h1, h2, h3⟩
    · exact .inl h
    · refine .inr ⟨h, l, p, d, e1, h1, h2, ?_⟩
      rcases hb with hb | ⟨h', l', p', d', e', h1', h2', h3'⟩
      · have := congrArg List.length e1
        simp at this
        omega
      · rw [e'] at e1
        simp only [List.cons_append, List.cons.injEq] at e1
        obtain ⟨rfl, rfl, rfl, e1⟩ := e1
        have := congrArg List.length e1
        simp at this
        omega
  · refine .inr (.inl ⟨e, h, l, p, ?_, h1⟩)
    rcases hb with hb | ⟨h', l', p', d', e', h1', h2', h3'⟩
    · have := congrArg List.length e1
      simp at this
      have : d = [] := List.eq_nil_of_length_eq_zero (by omega)
      rw [e1, this]
    · rw [e'] at e1
      simp only [List.cons_append, List.cons.injEq] at e1
      obtain ⟨rfl, rfl, rfl, e1⟩ := e1
      omega
  · refine .inr (.inr ⟨p, d, e, ?_, ⟨?_, ?_⟩, ?_⟩)
    · rw [e1]
      unfold wire
      rw [h3, (ofNat_hlen h l).1, (ofNat_hlen h l).2]; rfl
    · show 0 < d.length; omega
    · show d.length ≤ cap; omega
    · rw [h3]; exact hlen_lt h l

theorem partN_nil {cap : Nat} : PartN cap [] := .inl (by simp)

theorem PartN.part {cap : Nat} {buf : Bytes} (h : PartN cap buf) : Part cap buf := by
  obtain h | ⟨h, l, p, d, rfl, h1, h2, h3⟩ := h
  · exact .inl h
  · refine .inr ⟨(p, d ++ List.replicate (hlen h l - d.length) 0), 0, List.replicate (hlen h l - d.length - 1) 0, ?_, ?_⟩
    · unfold Fits; simp; omega
    · unfold wire
      have hl : (d ++ List.replicate (hlen h l - d.length) (0 : UInt8)).length = hlen h l := by simp; omega
      have : List.replicate (hlen h l - d.length) (0 : UInt8) = 0 :: List.replicate (hlen h l - d.length - 1) 0 := by
        rw [← List.replicate_succ]; congr 1; omega
      rw [show ((p, d ++ List.replicate (hlen h l - d.length) (0 : UInt8)) : UInt8 × Bytes).2 = d ++ List.replicate (hlen h l - d.length) 0 from rfl,
        hl, (ofNat_hlen h l).1, (ofNat_hlen h l).2, this]; simp

theorem partN_left {cap : Nat} {a rest : Bytes} (h : PartN cap (a ++ rest)) : PartN cap a := by
  rcases h with h | ⟨h', l, p, d, e1, h1, h2, h3⟩
  · left; simp at h ⊢; omega
  · by_cases hl : a.length < 3
    · exact .inl hl
    · rcases a with _ | ⟨x, _ | ⟨y, _ | ⟨z, d'⟩⟩⟩
      · simp at hl
      · simp at hl
      · simp at hl
      · simp only [List.cons_append, List.cons.injEq] at e1
        obtain ⟨rfl, rfl, rfl, rfl⟩ := e1
        refine .inr ⟨_, _, _, _, rfl, h1, h2, ?_⟩
        simp at h3; omega

theorem push_more {cap : Nat} {buf : Bytes} {x : UInt8} (hp : PartN cap (buf ++ [x])) : push cap buf x = .more (buf ++ [x]) := by
  rcases push_cases cap buf x with ⟨e, -⟩ | ⟨-, h', l, p, d, e1, h1⟩ | ⟨h', l, p, d, -, e1, h1, h2, h3⟩
  · exact e
  · rcases hp with hp | ⟨_, _, _, _, e2, g1, g2, g3⟩
    · rw [e1] at hp; simp only [List.length_cons] at hp; omega
    · rw [e1] at e2
      simp only [List.cons.injEq] at e2
      obtain ⟨rfl, rfl, rfl, rfl⟩ := e2
      omega
  · rcases hp with hp | ⟨_, _, _, _, e2, g1, g2, g3⟩
    · rw [e1] at hp; simp only [List.length_cons] at hp; omega
    · rw [e1] at e2
      simp only [List.cons.injEq] at e2
      obtain ⟨rfl, rfl, rfl, rfl⟩ := e2
      omega

/-- A piece of a frame leaves the reader waiting. -/
theorem readAll_piece {cap : Nat} (buf : Bytes) (bs : Bytes) (h : PartN cap (buf ++ bs)) (more : Bytes) :
    readAll cap buf (bs ++ more) = readAll cap (buf ++ bs) more := by
  induction bs generalizing buf with
  | nil => simp
  | cons x bs ih =>
    have e : buf ++ x :: bs = (buf ++ [x]) ++ bs := by simp
    rw [List.cons_append, readAll, push_more (partN_left (e ▸ h))]
    dsimp only
    rw [ih (buf ++ [x]) (by rw [← e]; exact h), e]

/-- A frame is complete with its last byte. -/
theorem wire_last {cap : Nat} {f : UInt8 × Bytes} (hf : Fits cap f) (hl : f.2.length < 65536) :
    ∃ buf x, wire f = buf ++ [x] ∧ PartN cap buf ∧ push cap buf x = .frame f.1 f.2 := by
  obtain ⟨p, d⟩ := f
  obtain ⟨h0, h1⟩ := hf
  dsimp only at h0 h1 hl ⊢
  have hd : d = d.dropLast ++ [d.getLast (by intro h; rw [h] at h0; simp at h0)] := (List.dropLast_concat_getLast _).symm
  generalize d.getLast _ = z at hd
  have hw := hlen_wire hl
  have hlen : d.length = d.dropLast.length + 1 := by
    have := congrArg List.length hd; simpa using this
  refine ⟨UInt8.ofNat (d.length / 256) :: UInt8.ofNat (d.length % 256) :: p :: d.dropLast, z, ?_,
    .inr ⟨_, _, p, d.dropLast, rfl, by omega, by omega, by omega⟩, ?_⟩
  · rw [List.cons_append, List.cons_append, List.cons_append, ← hd]; rfl
  · rcases push_cases cap (UInt8.ofNat (d.length / 256) :: UInt8.ofNat (d.length % 256) :: p :: d.dropLast) z with
      ⟨e, h⟩ | ⟨-, h', l, p', d', e1, h1⟩ | ⟨h', l, p', d', e, e1, -⟩
    · rcases h with h | ⟨h', l, p', d', e1, g1, g2, g3⟩
      · simp only [List.cons_append, List.length_cons] at h; omega
      · rw [List.cons_append, List.cons_append, List.cons_append, ← hd] at e1
        simp only [List.cons.injEq] at e1
        obtain ⟨rfl, rfl, rfl, rfl⟩ := e1
        omega
    · rw [List.cons_append, List.cons_append, List.cons_append, ← hd] at e1
      simp only [List.cons.injEq] at e1
      obtain ⟨rfl, rfl, rfl, rfl⟩ := e1
      omega
    · rw [List.cons_append, List.cons_append, List.cons_append, ← hd] at e1
      simp only [List.cons.injEq] at e1
      obtain ⟨rfl, rfl, rfl, rfl⟩ := e1
      exact e

/-- A frame is read as it was written. -/
theorem readAll_wire {cap : Nat} {f : UInt8 × Bytes} (hf : Fits cap f) (hl : f.2.length < 65536) (bs : Bytes) :
    readAll cap [] (wire f ++ bs) = (f :: (readAll cap [] bs).1, (readAll cap [] bs).2) := by
  obtain ⟨buf, x, h1, h2, h3⟩ := wire_last hf hl
  rw [h1, List.append_assoc, readAll_piece [] buf h2]
  show readAll cap buf (x :: bs) = _
  rw [readAll, h3]

theorem readAll_wires {cap : Nat} (hc : cap < 65536) (fs : List (UInt8 × Bytes)) (hf : ∀ f ∈ fs, Fits cap f) (bs : Bytes) :
    readAll cap [] (fs.flatMap wire ++ bs) = (fs ++ (readAll cap [] bs).1, (readAll cap [] bs).2) := by
  induction fs with
  | nil => simp
  | cons f fs ih =>
    have h1 := hf f (List.mem_cons_self ..)
    rw [List.flatMap_cons, List.append_assoc, readAll_wire h1 (by have := h1.2; omega), ih (fun g hg => hf g (List.mem_cons_of_mem _ hg))]
    rfl

theorem Part.partN {cap : Nat} (hc : cap < 65536) {buf : Bytes} (h : Part cap buf) : PartN cap buf := by
  rcases h with h | ⟨⟨p, d⟩, x, rest, ⟨h0, h1⟩, e⟩
  · exact .inl h
  · by_cases hl : buf.length < 3
    · exact .inl hl
    · rcases buf with _ | ⟨a, _ | ⟨b', _ | ⟨c, d'⟩⟩⟩
      · simp at hl
      · simp at hl
      · simp at hl
      · unfold wire at e
        simp only [List.cons_append, List.nil_append, List.cons.injEq] at e
        obtain ⟨rfl, rfl, rfl, e⟩ := e
        dsimp only at h0 h1
        have hw := hlen_wire (n := d.length) (by omega)
        have := congrArg List.length e
        simp at this
        exact .inr ⟨_, _, _, _, rfl, by omega, by omega, by omega⟩

/-- What the reader makes of any stream. -/
theorem readAll_spec (cap : Nat) (buf : Bytes) (hb : PartN cap buf) (bs : Bytes) :
    (∀ f ∈ (readAll cap buf bs).1, Fits cap f) ∧
    match (readAll cap buf bs).2 with
    | some tail => buf ++ bs = (readAll cap buf bs).1.flatMap wire ++ tail ∧ PartN cap tail
    | none => ∃ h l p rest, buf ++ bs = (readAll cap buf bs).1.flatMap wire ++ h :: l :: p :: rest ∧ (hlen h l = 0 ∨ cap < hlen h l) := by
  induction bs generalizing buf with
  | nil => exact ⟨by simp [readAll], by simp [readAll, hb]⟩
  | cons x bs ih =>
    rw [readAll]
    have e : buf ++ x :: bs = (buf ++ [x]) ++ bs := by simp
    rcases push_partN hb x with ⟨hp, h⟩ | ⟨hp, h', l, p, e1, h1⟩ | ⟨p, d, hp, e1, h1, h2⟩
    · rw [hp]; dsimp only
      rw [e]
      exact ih _ h
    · rw [hp]; dsimp only
      refine ⟨by simp, h', l, p, bs, ?_, h1⟩
      rw [e, e1]; rfl
    · rw [hp]; dsimp only
      obtain ⟨i1, i2⟩ := ih [] partN_nil
      refine ⟨?_, ?_⟩
      · intro f hf
        rcases List.mem_cons.1 hf with rfl | hf
        · exact h1
        · exact i1 f hf
      · rw [e, e1]
        split at i2
        · rename_i tail he
          rw [List.flatMap_cons, List.append_assoc, ← i2.1]
          exact ⟨rfl, i2.2⟩
        · rename_i he
          obtain ⟨a, b', c, rest, i3, i4⟩ := i2
          exact ⟨a, b', c, rest, by rw [List.flatMap_cons, List.append_assoc, ← i3]; rfl, i4⟩

/-! ## The log of the HLR -/

/-- The messages that were handled are the same. -/
def RFr (c : ConnId) (s t : Sys) : Prop := handled c t.log = handled c s.log

theorem RFr.trans {c : ConnId} {s t u : Sys} (h : RFr c s t) (h' : RFr c t u) : RFr c s u := Eq.trans h' h

theorem rfr_prims (c : ConnId) (cfg : Cfg) : Prims cfg (fun _ => True) (RFr c) where
  refl _ := rfl
  trans := RFr.trans
  db _ _ _ := rfl
  ub _ := rfl
  crash _ := rfl
  tx _ _ _ _ := rfl
  concl _ _ _ _ := rfl
  resp s q m _ _ := by
    unfold sendReqResponse
    split
    · rfl
    · split <;> rfl
  dg _ _ _ := rfl
  pend _ _ _ := rfl
  remote _ _ _ _ _ := rfl
  remoteTx _ _ _ _ := rfl
  remoteRx _ _ _ := rfl

theorem rfr_respond (c : ConnId) (cfg : Cfg) (s : Sys) (q : Req) (m : Gsup.Msg) (e f : Bool) : RFr c s (respond cfg s q m e f).2 := by
  unfold respond
  dsimp only
  have h1 : RFr c s (if (Gsup.makeResponse m q.gsup e f).1 ≠ 0 then s else sendReqResponse cfg s q (Gsup.makeResponse m q.gsup e f).2) := by
    split
    · rfl
    · unfold sendReqResponse
      split
      · rfl
      · split <;> rfl
  split
  · exact h1.trans rfl
  · exact h1

theorem rfr_readCb (c : ConnId) (cfg : Cfg) (e : Env) {s : Sys} {k : Conn} {q : Req} : RFr c s (Sys.readCb cfg e k q s) := by
  have pr := rfr_prims c cfg
  refine pr.readCb e k trivial ?_ ?_ ?_ (fun _ _ => trivial)
  · intro ht
    exact pr.updLoc e trivial k rfl (fun t lu _ => rfl)
  · intro ht
    exact pr.procSs (fun t l _ => rfl) e trivial ht (fun _ _ _ _ => trivial)
  · refine pr.luRx trivial (fun _ _ => trivial) (fun t lu => rfl) ?_
    intro t lu _ _ _ _
    exact rfr_respond ..

/-- A message that arrives is handled once. -/
theorem rx_handled (c : ConnId) (cfg : Cfg) (e : Env) (c' : ConnId) (mo : Option Gsup.Msg) {s : Sys} (hs : (s.conn? c').isSome) :
    handled c (rx cfg e c' mo s).log = if c' = c then handled c s.log ++ [mo] else handled c s.log := by
  have pr := rfr_prims c cfg
  unfold rx
  split
  · rename_i h; rw [h] at hs; simp at hs
  · rename_i k hk
    dsimp only
    have h0 : ∀ rs, handled c ({ s with nextReq := s.nextReq + 1, routes := rs, log := .rx s.nextReq c' mo :: s.log } : Sys).log
        = if c' = c then handled c s.log ++ [mo] else handled c s.log := fun rs => rfl
    split
    · exact h0 s.routes
    · rename_i m
      have fin : ∀ rs t, RFr c { s with nextReq := s.nextReq + 1, routes := rs, log := .rx s.nextReq c' (some m) :: s.log } t →
          handled c t.log = if c' = c then handled c s.log ++ [some m] else handled c s.log := fun rs t h => Eq.trans h (h0 rs)
      split
      · exact fin s.routes _ (rfr_respond ..)
      · split
        · exact fin s.routes _ (pr.respondErr _ trivial _)
        · unfold connRx
          split
          · exact fin s.routes _ (rfr_readCb ..)
          · dsimp only
            split
            · exact fin _ _ (rfr_respond ..)
            · exact fin _ _ (rfr_readCb ..)

/-- Nothing else is handled. -/
theorem step_rfr (c : ConnId) (cfg : Cfg) {s : Sys} {ev : Ev} (h : ∀ c m e, ev ≠ .rx c m e) : RFr c s (step cfg s ev) := by
  have pr := rfr_prims c cfg
  unfold step
  split
  · rfl
  · dsimp only
    split
    · rfl
    · split
      · rfl
      · unfold Sys.ccmCb
        split <;> rfl
    · split <;> rfl
    · exact absurd rfl (h _ _ _)
    · exact pr.luTimeout _ (fun _ _ => trivial) (fun t lu => rfl)
    · exact pr.ssTimeout (fun t l _ => rfl) _ _ (fun _ _ _ _ => trivial)
    · exact pr.withDb (api_op trivial) (pr.refl s) (fun _ _ _ h => h)
    · refine pr.withDb (api_getByImsi _) (pr.refl s) ?_
      intro a d _ h
      split
      · exact pr.trans h (pr.notify _ _ _)
      · exact h
    · refine pr.withDb (api_getByImsi _) (pr.refl s) ?_
      intro a d _ h
      split
      · exact pr.trans h (pr.nam _ _ _ _ _)
      · exact h
    · exact (pr.remoteUp _ s (fun _ _ => trivial)).1
    · exact (pr.remoteDown _ s (fun _ _ => trivial)).1
    · exact (pr.remoteLost _ s (fun _ _ => trivial)).1
    · exact (pr.rxRemote _ _ _ s trivial (fun _ _ => trivial)).1
    · exact (pr.lookupResult _ _ _ s (fun _ _ => trivial)).1
    · exact (pr.setProxy s _ (fun _ _ => trivial)).1
    · exact pr.crash s

end Verif.Wire
