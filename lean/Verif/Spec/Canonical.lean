import Verif.Spec.Reserved
import Verif.Spec.Extend

/-! # Which bits of a received frame count -/

namespace Binate.Spec

/-- Frame types whose flag word is part of the decoded frame: SETUP, the four requests, PAYLOAD. -/
def keepsFlags (ty : Nat) : Bool :=
  ty == 1 || ty == 4 || ty == 5 || ty == 6 || ty == 7 || ty == 10

/-- The bits of the byte at offset `i` that the receiver ignores: the reserved bits and, in frames
that carry no flags, the flags (of KEEPALIVE all but RESPOND, bit 6 of byte 5). -/
def ignoredMask (ty tok i : Nat) : U8 :=
  if i = 4 then (if keepsFlags ty then 0x02#8 else 0x03#8)
  else if i = 5 then (if keepsFlags ty then 0x0F#8 else if ty = 3 then 0xBF#8 else 0xFF#8)
  else reservedMask ty tok i

/-- `b` and `b'` differ at most in ignored bits. -/
def AgreeExceptIgnored (b b' : Bytes) : Prop :=
  Agree (ignoredMask (typeOf b) (u16At b 10)) b b'

/-- Reading frames one after the other until the buffer is empty gives `fs`. -/
inductive ReadsAs : Bytes → List Frame → Prop
  | nil : ReadsAs [] []
  | cons {b rest : Bytes} {f : Frame} {fs : List Frame} :
      (Frame.decode : Dec Bytes Frame) b = .ok f rest → ReadsAs rest fs → ReadsAs b (f :: fs)

/-- All frames but the last end with a fixed field. -/
def FixedButLast : List Frame → Prop
  | [] => True
  | [_] => True
  | f :: g :: fs => FixedEnd f ∧ FixedButLast (g :: fs)

end Binate.Spec
