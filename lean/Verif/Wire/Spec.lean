import Verif.Wire.Model
/-!
# Specification for C80 and C81

What is on the wire is told apart without the reader of the model: a stream of bytes is a sequence of whole frames and the beginning of
another.
-/
namespace Verif.Wire
open Verif Verif.Sys

/-- A frame on the wire: its length in two bytes, the stream it belongs to, its data. -/
def wire (f : UInt8 × Bytes) : Bytes := [UInt8.ofNat (f.2.length / 256), UInt8.ofNat (f.2.length % 256), f.1] ++ f.2

/-- A frame that a reader with room for `cap` bytes of data takes. -/
def Fits (cap : Nat) (f : UInt8 × Bytes) : Prop := 0 < f.2.length ∧ f.2.length ≤ cap

/-- `bs` are the frames `fs` and then `tail`: not all of a header, or the beginning of a further frame, but not all of it. -/
def Carries (cap : Nat) (bs : Bytes) (fs : List (UInt8 × Bytes)) (tail : Bytes) : Prop :=
  bs = fs.flatMap wire ++ tail ∧ (∀ f ∈ fs, Fits cap f) ∧ (tail.length < 3 ∨ ∃ f x rest, Fits cap f ∧ tail ++ x :: rest = wire f)

/-- `bs` are the frames `fs` and then a header that announces no data or more than there is room for. -/
def Broken (cap : Nat) (bs : Bytes) (fs : List (UInt8 × Bytes)) : Prop :=
  ∃ h l p : UInt8, bs = fs.flatMap wire ++ [h, l, p] ∧ (∀ f ∈ fs, Fits cap f)
    ∧ (h.toNat * 256 + l.toNat = 0 ∨ cap < h.toNat * 256 + l.toNat)

/-- The GSUP message in a frame: it is on the stream 0xee and its first byte is 0x05. -/
def gsupOf (f : UInt8 × Bytes) : Option Bytes :=
  if f.1 = 0xee then match f.2 with
    | 0x05 :: m => some m
    | _ => none
  else none

/-- An OAP message: it is on the stream 0xee and its first byte is 0x06. -/
def isOap (f : UInt8 × Bytes) : Bool := f.1 == 0xee && f.2.head? == some 0x06

/-- The bytes that arrived on connection `c` while it was open. -/
def heard (L : Lib) (w : W) (c : ConnId) : List (Cfg × WEv) → Bytes
  | [] => []
  | (cfg, .byte c' x e) :: l => (if c' = c ∧ w.hears c then [x] else []) ++ heard L (wstep L cfg w (.byte c' x e)) c l
  | (cfg, .ev ev) :: l => heard L (wstep L cfg w (.ev ev)) c l

/-- The messages the HLR handled on connection `c`, in the order in which it did (`none`: it could not be decoded). -/
def handled (c : ConnId) : List Out → List (Option Gsup.Msg)
  | [] => []
  | .rx _ c' m :: l => if c' = c then handled c l ++ [m] else handled c l
  | _ :: l => handled c l

/-- The messages the HLR sent on connection `c`, in order. -/
def sentOn (c : ConnId) : List Out → List Gsup.Msg
  | [] => []
  | .tx c' m _ :: l => if c' = c then sentOn c l ++ [m] else sentOn c l
  | _ :: l => sentOn c l

/-- What a client was given by the HLR, in order. -/
def givenTo : List (Nat × Client.Obs) → List Bytes
  | [] => []
  | (_, .given m) :: l => givenTo l ++ [m]
  | _ :: l => givenTo l

/-- The frames a client wrote on its connection number `n`, in order. -/
def framesOn (n : Nat) : List (Nat × Client.Obs) → List Client.Frame
  | [] => []
  | (_, .wrote k f) :: l => if k = n then framesOn n l ++ [f] else framesOn n l
  | _ :: l => framesOn n l

/-- The GSUP message a client sends in a frame. -/
def msgOf : Client.Frame → Option Bytes
  | .gsup m => some m
  | _ => none

/-- How many elements an identity has. -/
def present (t : Tlv) : Nat := ((List.range 256).filter fun i => (t (UInt8.ofNat i)).isSome).length

end Verif.Wire
