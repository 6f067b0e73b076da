import Verif.Spec.Socket
import Verif.Spec.Need

/-! # What a peer makes of the buffers it receives

The peer sorts the received buffers by the type and the stream id in their headers, and converts
the buffers of one stream to a payload. -/

namespace Binate.Spec

/-- The REQUEST_FNF buffers of one stream, in the order received. -/
def streamBuffers (sid : Nat) (bs : List Bytes) : List Bytes :=
  bs.filter fun b => typeOf b == 5 && streamIdOf b == sid

/-- Pushing buffers onto an empty `BufList` and converting it. -/
def reassembled (dbg : Bool) (bs : List Bytes) : Outcome (Except DecodeError Payload) :=
  match pushAll dbg bs BufList.new with
  | .ok l => l.tryInto
  | .panic m => .panic m
  | .diverge => .diverge

/-- All metadata of the payload's fragments fits into the 24-bit length field. -/
def FitsFragments (fragment : Option Nat) (p : Payload) : Prop :=
  (p.metadata.getD []).length < 2 ^ 24 ∨ ∃ size, fragment = some size ∧ size < 2 ^ 24

end Binate.Spec
