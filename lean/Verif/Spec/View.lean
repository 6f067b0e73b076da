import Verif.Spec.Access

/-! # What all accessors together show of a frame -/

namespace Binate.Spec

/-- What the accessors that only SETUP has return: the two times in milliseconds, the two MIME types,
`is_lease` and `is_resume`. -/
structure SetupView where
  interval : Nat
  timeout : Nat
  metadataMime : Option String
  dataMime : Option String
  lease : Bool
  resume : Bool

/-- The variant of a frame and the results of all its accessors. -/
structure View where
  type : Nat
  fields : Field → Option Value
  follows : Option Bool
  complete : Option Bool
  next : Option Bool
  respond : Option Bool
  setup : Option SetupView

/-- The accessors of SETUP. -/
def setupView : Frame → Option SetupView
  | .setup f => some ⟨f.getKeepaliveInterval.asMillis, f.getKeepaliveTimeout.asMillis,
      f.metadataMimetypeStr, f.dataMimetypeStr, f.isLease, f.isResume⟩
  | _ => none

/-- Everything that can be found out about a frame with its accessors. -/
def view (f : Frame) : View :=
  ⟨typeNumber f, seen f, isFollows? f, isComplete? f, isNext? f, isRespond? f, setupView f⟩

/-- The flag bits that have an accessor: NEXT is bit 4, COMPLETE or LEASE bit 5, FOLLOWS or RESUME
bit 6. -/
def shownBits : Frame → List Nat
  | .setup _ => [5, 6]
  | .requestResponse _ => [6]
  | .requestFnf _ => [6]
  | .requestStream _ => [6]
  | .requestChannel _ => [5, 6]
  | .payload _ => [4, 5, 6]
  | _ => []

/-- The metadata of a frame with a payload is present. -/
def hasMetadata (f : Frame) : Bool := (payloadOf f).any fun p => p.metadata.isSome

/-- Of the flags without an accessor, METADATA is set exactly if there is metadata, and no other
one is. -/
def Plain (f : Frame) : Prop := ∀ fl, flagsField f = some fl → ∀ k, k ∉ shownBits f →
  fl.bits.toNat.testBit k = (decide (k = 7) && hasMetadata f)

/-- The MIME types of a SETUP frame. -/
def mimes : Frame → List Bytes
  | .setup f => [f.metadataMimetype, f.dataMimetype]
  | _ => []

/-- They are ASCII. -/
def AsciiMimes (f : Frame) : Prop := ∀ b ∈ mimes f, ∀ x ∈ b, x.toNat < 128

/-- The frame without its flags and MIME types. -/
def bare : Frame → Frame
  | .setup f => .setup { f with flags := ⟨0⟩, metadataMimetype := [], dataMimetype := [] }
  | .requestResponse f => .requestResponse { f with flags := ⟨0⟩ }
  | .requestFnf f => .requestFnf { f with flags := ⟨0⟩ }
  | .requestStream f => .requestStream { f with flags := ⟨0⟩ }
  | .requestChannel f => .requestChannel { f with flags := ⟨0⟩ }
  | .payload f => .payload { f with flags := ⟨0⟩ }
  | f => f

/-- The two MIME types show the same text: they are equal, or neither is ASCII. -/
def MimeAlike (a b : Bytes) : Prop :=
  a = b ∨ (¬ (∀ x ∈ a, x.toNat < 128) ∧ ¬ ∀ x ∈ b, x.toNat < 128)

/-- Flag bit `k` of a frame that stores flags. -/
def flagBit (f : Frame) (k : Nat) : Option Bool := (flagsField f).map fun fl => fl.bits.toNat.testBit k

/-- The frames differ at most in flag bits that have no accessor and in MIME types that are not
ASCII. -/
structure DifferHidden (f g : Frame) : Prop where
  bare : bare f = bare g
  flags : ∀ k ∈ shownBits f, flagBit f k = flagBit g k
  mimes : ∀ (i : Nat) (a b : Bytes), (mimes f)[i]? = some a → (mimes g)[i]? = some b → MimeAlike a b

end Binate.Spec
