import Verif.Wire.Inv
import Verif.Client.Props
import Verif.Auc.Props
/-!
# C80: what is sent is what is handled, byte by byte
-/
namespace Verif.Wire.Props
open Verif Verif.Sys Verif.Wire

/-- C80: whatever bytes arrive on its connections, in whatever pieces, and whatever else happens, the HLR is in a state that a history of
whole messages leads to: what is proved of such states holds. -/
theorem c80_reach (L : Lib) (d : Db.Db) (l : List (Cfg × WEv)) : Reach (wrun L (winit d) l).sys := (at_run L d 0 l).reach

/-- C80: what the HLR handles on a connection are the GSUP messages in the whole frames that arrived on it, each once and in order, whatever
else is in between, and whatever arrives on other connections.  That goes on until a header announces no data or more than there is
room for: then the connection is closed. -/
theorem c80_handled (L : Lib) (d : Db.Db) (l : List (Cfg × WEv)) (c : ConnId) :
    ∃ fs, handled c (wrun L (winit d) l).sys.log = (fs.filterMap gsupOf).map L.dec ∧
      ((∃ tail, Carries L.cap (heard L (winit d) c l) fs tail)
        ∨ (Broken L.cap (heard L (winit d) c l) fs ∧ (wrun L (winit d) l).sys.conn? c = none)) := by
  have h := at_run L d c l
  have hs := readAll_spec L.cap [] partN_nil (heard L (winit d) c l)
  refine ⟨_, h.handled, ?_⟩
  cases hr : (readAll L.cap [] (heard L (winit d) c l)).2 with
  | some tail =>
    rw [hr] at hs
    exact .inl ⟨tail, by simpa using hs.2.1, hs.1, hs.2.2.part⟩
  | none =>
    obtain ⟨h', l', p, h1, h2⟩ := h.broken hr
    refine .inr ⟨⟨h', l', p, h1, hs.1, h2⟩, ?_⟩
    cases hc : (wrun L (winit d) l).sys.conn? c with
    | none => rfl
    | some k =>
      have := h.buf (by rw [hc]; rfl)
      rw [hr] at this
      exact absurd this (by simp)

/-- C80: the frames in a stream of bytes are determined by it. -/
theorem c80_unique {cap : Nat} (hc : cap < 65536) {bs tail tail' : Bytes} {fs fs' : List (UInt8 × Bytes)} (h : Carries cap bs fs tail)
    (h' : Carries cap bs fs' tail') : fs = fs' ∧ tail = tail' := by
  have key : ∀ {fs tail}, Carries cap bs fs tail → readAll cap [] bs = (fs, some tail) := by
    rintro fs tail ⟨h1, h2, h3⟩
    have hp : PartN cap ([] ++ tail) := Part.partN hc h3
    rw [h1, readAll_wires hc fs h2]
    have := readAll_piece [] tail hp []
    rw [List.append_nil] at this
    rw [this]
    simp [readAll]
  have := (key h).symm.trans (key h')
  simpa using this

theorem clientSend_wire (f : Client.Frame) : ∃ g, clientSend f = wire g ∧ gsupOf g = msgOf f ∧
    (g.2.length = match f with | .ping => 1 | .ccm d => d.length | .oap d => d.length + 1 | .gsup d => d.length + 1) := by
  cases f with
  | ping => exact ⟨_, prepend_wire _ _, rfl, rfl⟩
  | ccm d => exact ⟨_, prepend_wire _ _, rfl, rfl⟩
  | oap d => exact ⟨_, prepend_wire _ _, rfl, rfl⟩
  | gsup d => exact ⟨_, prepend_wire _ _, rfl, rfl⟩

/-- There is room for a frame at the reader. -/
def Room (cap : Nat) : Client.Frame → Prop
  | .ping => 1 ≤ cap
  | .ccm d => 0 < d.length ∧ d.length ≤ cap
  | .oap d => d.length + 1 ≤ cap
  | .gsup d => d.length + 1 ≤ cap

theorem clientSend_fits {cap : Nat} {f : Client.Frame} (h : Room cap f) : ∃ g, clientSend f = wire g ∧ gsupOf g = msgOf f ∧ Fits cap g := by
  obtain ⟨g, h1, h2, h3⟩ := clientSend_wire f
  refine ⟨g, h1, h2, ?_⟩
  cases f with
  | ping => exact ⟨by rw [h3]; decide, by rw [h3]; exact h⟩
  | ccm d => exact ⟨by rw [h3]; exact h.1, by rw [h3]; exact h.2⟩
  | oap d => exact ⟨by rw [h3]; exact Nat.succ_pos _, by rw [h3]; exact h⟩
  | gsup d => exact ⟨by rw [h3]; exact Nat.succ_pos _, by rw [h3]; exact h⟩

/-- A beginning of a stream of frames: some whole frames and a beginning of the next. -/
theorem prefix_split {α : Type _} (w : α → Bytes) (fs : List α) (hne : ∀ f ∈ fs, w f ≠ []) (bs : Bytes) (h : bs <+: fs.flatMap w) :
    ∃ done rest tail, fs = done ++ rest ∧ bs = done.flatMap w ++ tail ∧
      (rest = [] ∧ tail = [] ∨ ∃ f more x t, rest = f :: more ∧ tail ++ x :: t = w f) := by
  induction fs generalizing bs with
  | nil => exact ⟨[], [], [], rfl, by simpa using h, .inl ⟨rfl, rfl⟩⟩
  | cons f fs ih =>
    by_cases hl : bs.length < (w f).length
    · rw [List.flatMap_cons] at h
      have hp : bs <+: w f := List.prefix_of_prefix_length_le h (List.prefix_append _ _) (Nat.le_of_lt hl)
      obtain ⟨t, ht⟩ := hp
      cases t with
      | nil => rw [List.append_nil] at ht; rw [ht] at hl; omega
      | cons x t => exact ⟨[], f :: fs, bs, rfl, rfl, .inr ⟨f, fs, x, t, rfl, ht⟩⟩
    · rw [List.flatMap_cons] at h
      have hp : w f <+: bs := List.prefix_of_prefix_length_le (List.prefix_append _ _) h (by omega)
      obtain ⟨bs', rfl⟩ := hp
      obtain ⟨done, rest, tail, h1, h2, h3⟩ := ih (fun g hg => hne g (List.mem_cons_of_mem _ hg)) bs' ((List.prefix_append_right_inj _).1 h)
      exact ⟨f :: done, rest, tail, by rw [h1]; rfl, by rw [h2]; simp, h3⟩

/-- C80: from client to HLR.  A client writes the frames `fs` on a connection, and the HLR has heard a part of the bytes: then it has handled
exactly the messages in those frames that have arrived as a whole, in order, and the rest of what it has heard is a beginning of the next. -/
theorem c80_from_client (L : Lib) (hcap : L.cap < 65536) (d : Db.Db) (l : List (Cfg × WEv)) (c : ConnId) (fs : List Client.Frame)
    (hr : ∀ f ∈ fs, Room L.cap f) (h : heard L (winit d) c l <+: fs.flatMap clientSend) :
    ∃ done rest tail, fs = done ++ rest ∧ heard L (winit d) c l = done.flatMap clientSend ++ tail ∧
      (rest = [] ∧ tail = [] ∨ ∃ f more x t, rest = f :: more ∧ tail ++ x :: t = clientSend f) ∧
      handled c (wrun L (winit d) l).sys.log = (done.filterMap msgOf).map L.dec := by
  have hne : ∀ f ∈ fs, clientSend f ≠ [] := fun f _ => by
    obtain ⟨g, h1, -⟩ := clientSend_wire f
    rw [h1]; simp [wire]
  obtain ⟨done, rest, tail, h1, h2, h3⟩ := prefix_split clientSend fs hne _ h
  refine ⟨done, rest, tail, h1, h2, h3, ?_⟩
  have hw : ∀ fs' : List Client.Frame, (∀ f ∈ fs', Room L.cap f) → ∃ gs : List (UInt8 × Bytes), fs'.flatMap clientSend = gs.flatMap wire ∧ gs.filterMap gsupOf = fs'.filterMap msgOf
      ∧ ∀ g ∈ gs, Fits L.cap g := by
    intro fs'
    induction fs' with
    | nil => exact fun _ => ⟨[], rfl, rfl, by simp⟩
    | cons f fs' ih =>
      intro hf
      obtain ⟨g, e1, e2, e3⟩ := clientSend_fits (hf f (List.mem_cons_self ..))
      obtain ⟨gs, i1, i2, i3⟩ := ih (fun f' h' => hf f' (List.mem_cons_of_mem _ h'))
      refine ⟨g :: gs, by rw [List.flatMap_cons, List.flatMap_cons, e1, i1], ?_, ?_⟩
      · rw [List.filterMap_cons, List.filterMap_cons, e2, i2]
      · intro g' hg'
        rcases List.mem_cons.1 hg' with rfl | hg'
        · exact e3
        · exact i3 g' hg'
  obtain ⟨gs, g1, g2, g3⟩ := hw done (fun f hf => hr f (by rw [h1]; exact List.mem_append_left _ hf))
  have hp : PartN L.cap ([] ++ tail) := by
    apply Part.partN hcap
    rcases h3 with ⟨-, rfl⟩ | ⟨f, more, x, t, h4, h5⟩
    · exact .inl (by simp)
    · obtain ⟨g, e1, -, e3⟩ := clientSend_fits (hr f (by rw [h1, h4]; simp))
      exact .inr ⟨g, x, t, e3, by rw [← e1]; exact h5⟩
  have hh := (at_run L d c l).handled
  rw [hh, h2, g1, readAll_wires hcap gs g3]
  have := readAll_piece [] tail hp []
  rw [List.append_nil] at this
  rw [this, ← g2]
  simp [readAll]

/-- The frames written by a client that are messages. -/
theorem framesOn_msgs (n : Nat) (log : List (Nat × Client.Obs)) : (framesOn n log).filterMap msgOf = Client.wroteOn n log := by
  induction log with
  | nil => rfl
  | cons x log ih =>
    rw [Client.wroteOn_cons, ← ih]
    obtain ⟨t, o⟩ := x
    cases o with
    | wrote k f =>
      show (if k = n then framesOn n log ++ [f] else framesOn n log).filterMap msgOf = _
      by_cases h : k = n
      · subst h
        rw [if_pos rfl, List.filterMap_append]
        cases f <;> simp [Client.wroteOn, msgOf]
      · rw [if_neg h]
        cases f <;> simp [Client.wroteOn, h]
    | _ => simp [Client.wroteOn, framesOn]

/-- C80: from the user of a client to the HLR.  A client is in any state it can come into, and the HLR has heard a part of what the client
wrote on its `n`-th connection: what the HLR has handled is a beginning of the messages the client accepted on that connection. -/
theorem c80_end_to_end (L : Lib) (hcap : L.cap < 65536) (d : Db.Db) (l : List (Cfg × WEv)) (c : ConnId) {cb : Bool} {s : Client.St}
    (hs : Client.Reach cb s) (n : Nat) (hr : ∀ f ∈ framesOn n s.log, Room L.cap f)
    (h : heard L (winit d) c l <+: (framesOn n s.log).flatMap clientSend) :
    handled c (wrun L (winit d) l).sys.log <+: (Client.acceptedOn n s.log).map L.dec := by
  obtain ⟨done, rest, tail, h1, -, -, h4⟩ := c80_from_client L hcap d l c _ hr h
  rw [h4]
  have h5 := Client.Props.c59_stream hs n
  rw [← framesOn_msgs, h1, List.filterMap_append] at h5
  obtain ⟨t, ht⟩ := h5
  rw [← ht]
  simp

theorem client_foldl (cap : Nat) (ccm : UInt8 → Bytes → Client.Ccm) (oap : Bytes → Option Bytes) (s : Client.St) (buf bs : Bytes) {tail : Bytes}
    (h : (readAll cap buf bs).2 = some tail) :
    bs.foldl (clientByte cap ccm oap) (s, buf)
      = ((readAll cap buf bs).1.foldl (fun s f => Client.read f.1 f.2 (ccm f.1 f.2) (oap f.2) s) s, tail) := by
  induction bs generalizing s buf with
  | nil => rw [readAll] at h; obtain rfl := Option.some.inj h; rfl
  | cons x bs ih =>
    rw [readAll] at h
    rw [List.foldl_cons, readAll]
    unfold clientByte
    cases hp : push cap buf x with
    | more b' => rw [hp] at h; exact ih s b' h
    | bad => rw [hp] at h; simp at h
    | frame p d => rw [hp] at h; exact ih _ [] h

/-- C80: from HLR to client.  The HLR sends the messages `ms` on a connection, and the client has got a part of the bytes: it has handed its
user exactly those messages that have arrived as a whole, in order, and nothing else. -/
theorem c80_to_client (cap : Nat) (hcap : cap < 65536) (ccm : UInt8 → Bytes → Client.Ccm) (oap : Bytes → Option Bytes) (s : Client.St)
    (ms : List Bytes) (hr : ∀ m ∈ ms, m.length + 1 ≤ cap) (bs : Bytes) (h : bs <+: ms.flatMap serverSend) :
    ∃ done rest tail, ms = done ++ rest ∧ bs = done.flatMap serverSend ++ tail ∧
      (rest = [] ∧ tail = [] ∨ ∃ m more x t, rest = m :: more ∧ tail ++ x :: t = serverSend m) ∧
      givenTo (bs.foldl (clientByte cap ccm oap) (s, [])).1.log = givenTo s.log ++ done := by
  have hw : ∀ m, serverSend m = wire (0xee, 0x05 :: m) := fun m => prepend_wire _ _
  obtain ⟨done, rest, tail, h1, h2, h3⟩ := prefix_split serverSend ms (fun m _ => by rw [hw]; simp [wire]) bs h
  refine ⟨done, rest, tail, h1, h2, h3, ?_⟩
  have hf : ∀ m ∈ ms, Fits cap ((0xee, 0x05 :: m) : UInt8 × Bytes) := fun m hm => ⟨by simp, by simpa using hr m hm⟩
  have hp : PartN cap ([] ++ tail) := by
    apply Part.partN hcap
    rcases h3 with ⟨-, rfl⟩ | ⟨m, more, x, t, h4, h5⟩
    · exact .inl (by simp)
    · exact .inr ⟨_, x, t, hf m (by rw [h1, h4]; simp), by rw [← hw]; exact h5⟩
  have ha : readAll cap [] bs = (done.map (fun m => ((0xee : UInt8), (0x05 : UInt8) :: m)), some tail) := by
    have e : done.flatMap serverSend = (done.map (fun m => ((0xee : UInt8), (0x05 : UInt8) :: m))).flatMap wire := by
      rw [List.flatMap_map]
      exact congrArg (fun f => done.flatMap f) (funext hw)
    rw [h2, e, readAll_wires hcap]
    · have := readAll_piece [] tail hp []
      rw [List.append_nil] at this
      rw [this]
      simp [readAll]
    · intro f hf'
      obtain ⟨m, hm, rfl⟩ := List.mem_map.1 hf'
      exact hf m (by rw [h1]; exact List.mem_append_left _ hm)
  rw [client_foldl cap ccm oap s [] bs (by rw [ha])]
  rw [ha]
  dsimp only
  clear h1 h2 ha
  induction done generalizing s with
  | nil => simp
  | cons m done ih =>
    rw [List.map_cons, List.foldl_cons, ih]
    show (givenTo s.log ++ [m]) ++ done = _
    simp

/-- C80: from the HLR to the user of a client.  After any history of the HLR, a client has got a part of what the HLR sent on a connection, each
message in the form `enc` gives it: it has handed its user a beginning of the messages the HLR sent there, all of them if it has got all. -/
theorem c80_hlr_to_user (L : Lib) (hcap : L.cap < 65536) (d : Db.Db) (l : List (Cfg × WEv)) (c : ConnId) (enc : Gsup.Msg → Bytes)
    (ccm : UInt8 → Bytes → Client.Ccm) (oap : Bytes → Option Bytes) (s : Client.St)
    (hr : ∀ m ∈ sentOn c (wrun L (winit d) l).sys.log, (enc m).length + 1 ≤ L.cap) (bs : Bytes)
    (h : bs <+: ((sentOn c (wrun L (winit d) l).sys.log).map enc).flatMap serverSend) :
    ∃ done, done <+: (sentOn c (wrun L (winit d) l).sys.log).map enc ∧
      givenTo (bs.foldl (clientByte L.cap ccm oap) (s, [])).1.log = givenTo s.log ++ done ∧
      (bs = ((sentOn c (wrun L (winit d) l).sys.log).map enc).flatMap serverSend → done = (sentOn c (wrun L (winit d) l).sys.log).map enc) := by
  generalize sentOn c (wrun L (winit d) l).sys.log = ms at hr h ⊢
  obtain ⟨done, rest, tail, h1, h2, h3, h4⟩ := c80_to_client L.cap hcap ccm oap s (ms.map enc)
    (fun m hm => by obtain ⟨m', hm', rfl⟩ := List.mem_map.1 hm; exact hr m' hm') bs h
  refine ⟨done, ⟨rest, h1.symm⟩, h4, fun hbs => ?_⟩
  rcases h3 with ⟨rfl, -⟩ | ⟨m, more, x, t, rfl, h6⟩
  · rw [h1, List.append_nil]
  · exfalso
    rw [hbs, h1] at h2
    have := congrArg List.length h2
    have h7 := congrArg List.length h6
    simp only [List.flatMap_append, List.flatMap_cons, List.length_append, List.length_cons] at this h7
    omega

/-! ## Non-vacuity -/

/-- Libraries for examples: room for 1200 bytes; the first byte of a message is its type; an identity response (5) is the name. -/
def exLib : Lib where
  cap := 1200
  dec := fun m => match m with
    | [] => none
    | t :: _ => some { typ := t.toNat, imsi := b "262420000000001" }
  ccm := fun d => match d with
    | 5 :: n => .resp fun i => if i = 0 then some n else none
    | [] => .bad
    | _ => .other

def exCfg : Cfg where
  crypto := Auc.Props.exCrypto

/-- A client writes its name, a PING, two messages and a part of a third. -/
def exFrames : List Client.Frame := [.ccm (5 :: b "MSC-1"), .ping, .gsup [4, 1, 2], .oap [1], .gsup [12], .gsup [8, 3, 4]]

def exHist : List (Cfg × WEv) :=
  (exCfg, .ev .connect) :: ((exFrames.flatMap clientSend).take 36).map fun x => (exCfg, .byte 1 x {})

example : (exFrames.flatMap clientSend).length = 37 := by decide +kernel


example : handled 1 (wrun exLib (winit {}) exHist).sys.log
      = [some { typ := 4, imsi := b "262420000000001" }, some { typ := 12, imsi := b "262420000000001" }] ∧
    ((wrun exLib (winit {}) exHist).sys.conn? 1).isSome ∧ (wrun exLib (winit {}) exHist).sys.routes = [(b "MSC-1", 1)] ∧
    heard exLib (winit {}) 1 exHist = (exFrames.flatMap clientSend).take 36 := by decide +kernel

example : (∀ f ∈ exFrames, Room exLib.cap f) ∧ heard exLib (winit {}) 1 exHist <+: exFrames.flatMap clientSend := by
  refine ⟨?_, by decide +kernel⟩
  intro f hf
  simp only [exFrames, List.mem_cons, List.not_mem_nil, or_false] at hf
  rcases hf with rfl | rfl | rfl | rfl | rfl | rfl <;> unfold Room exLib <;> decide +kernel

-- a header without data ends the connection, and nothing after it is heard
example : heard exLib (winit {}) 1 ((exCfg, .ev .connect) :: [0, 2, 0xee, 5, 4, 0, 0, 0xee, 0, 2].map fun x => (exCfg, .byte 1 x {}))
      = [0, 2, 0xee, 5, 4, 0, 0, 0xee] ∧
    Broken 1200 [0, 2, 0xee, 5, 4, 0, 0, 0xee] [(0xee, [5, 4])] :=
  ⟨by decide +kernel, 0, 0, 0xee, by decide, by simp [Fits], .inl rfl⟩

-- the last of three messages has not arrived as a whole
example : givenTo (((([[4, 1], [], [8, 3, 4]] : List Bytes).flatMap serverSend).take 14).foldl
      (clientByte 1200 (fun _ _ => .handled none) (fun _ => none)) ({ link := .up, isConnected := true }, [])).1.log = [[4, 1], []] := by
  decide +kernel

-- a client that is up, and what the HLR has of it
example : ∃ s, Client.Reach true s ∧ framesOn 1 s.log = [.ping, .gsup [4, 1]] ∧ Client.acceptedOn 1 s.log = [[4, 1], [12]] := by
  refine ⟨Client.run true { now := 0, link := .connecting, tries := 1, log := [(0, .attempt 1 0)] }
    [.established none .ok, .send [4, 1], .send [12], .writable, .writable], ⟨0, 0, _, _, rfl, rfl⟩, by decide +kernel, by decide +kernel⟩

end Verif.Wire.Props
