import Verif.Spec.WellFormed
import Verif.Spec.Need

/-! # Frames of a peer that follows the diagrams

Specification for C131. `layout 32` (Spec/Wire.lean) is what a peer writes that puts the flags where
the diagrams of binate/src/frame/codec/*.rs draw them. -/

namespace Binate.Spec

/-- The flags of a frame as a number: 16 IGNORE, 8 METADATA, 4 FOLLOWS/RESUME/RESPOND,
2 COMPLETE/LEASE, 1 NEXT. -/
def flagNumber : Frame → Nat
  | .setup f => flagsOf 1 f.flags
  | .lease f => flagsValue 1 false f.metadata.isSome false false false
  | .keepalive f => flagsValue 1 false false f.respond false false
  | .requestResponse f => flagsOf 1 f.flags
  | .requestFnf f => flagsOf 1 f.flags
  | .requestStream f => flagsOf 1 f.flags
  | .requestChannel f => flagsOf 1 f.flags
  | .requestN _ => 0
  | .cancel _ => 0
  | .payload f => flagsOf 1 f.flags
  | .error _ => 0
  | .metadataPush _ => flagsValue 1 false true false false false
  | .resume _ => 0
  | .resumeOk _ => 0

/-- The flag number that a reader who follows the diagrams finds in the header of `b`. -/
def diagramFlags (b : Bytes) : Nat := u16At b 4 / 32 % 32

/-- Each flag taken for the next higher one, IGNORE lost. -/
def raised (fl : Flags) : Flags := ⟨BitVec.ofNat 16 (16 * (2 * flagsOf 1 fl % 32))⟩

/-- The frame with its flags moved up by one. -/
def asRead : Frame → Frame
  | .setup f => .setup { f with flags := raised f.flags }
  | .keepalive f => .keepalive { f with respond := false }
  | .requestResponse f => .requestResponse { f with flags := raised f.flags }
  | .requestFnf f => .requestFnf { f with flags := raised f.flags }
  | .requestStream f => .requestStream { f with flags := raised f.flags }
  | .requestChannel f => .requestChannel { f with flags := raised f.flags }
  | .payload f => .payload { f with flags := raised f.flags }
  | f => f

/-- A SETUP frame that asks for both resumption and leases or for neither. -/
def TokenLegible : Frame → Prop
  | .setup f => f.flags.bits.getLsbD 5 = f.flags.bits.getLsbD 6
  | _ => True

/-- No flag is set that the receiver keeps. -/
def Unflagged : Frame → Prop
  | .lease _ => True
  | .metadataPush _ => True
  | f => flagNumber f = 0

end Binate.Spec
