import Verif.Spec.WellFormed

/-! # Specifications for U24, Version, FrameType and Flags -/

namespace Binate.Spec

/-- Lexicographic order on versions, on natural numbers. -/
def VersionLt (a b : Version) : Prop :=
  a.major.toNat < b.major.toNat ∨ (a.major.toNat = b.major.toNat ∧ a.minor.toNat < b.minor.toNat)

/-- The frame type numbers of the RSocket protocol. -/
def protocolNumber : FrameType → Nat
  | .SETUP => 1
  | .LEASE => 2
  | .KEEPALIVE => 3
  | .REQUEST_RESPONSE => 4
  | .REQUEST_FNF => 5
  | .REQUEST_STREAM => 6
  | .REQUEST_CHANNEL => 7
  | .REQUEST_N => 8
  | .CANCEL => 9
  | .PAYLOAD => 10
  | .ERROR => 11
  | .METADATA_PUSH => 12
  | .RESUME => 13
  | .RESUME_OK => 14
  | .EXT => 63

/-- The `Flags` values that safe code can build: everything the bitflags API offers. -/
inductive SafeFlags : Flags → Prop
  | empty : SafeFlags Flags.empty
  | all : SafeFlags Flags.all
  | ignore : SafeFlags Flags.IGNORE
  | metadata : SafeFlags Flags.METADATA
  | follows : SafeFlags Flags.FOLLOWS
  | resume : SafeFlags Flags.RESUME
  | respond : SafeFlags Flags.RESPOND
  | complete : SafeFlags Flags.COMPLETE
  | lease : SafeFlags Flags.LEASE
  | next : SafeFlags Flags.NEXT
  | fromBits {w f} : Flags.fromBits w = some f → SafeFlags f
  | truncate (w) : SafeFlags (Flags.fromBitsTruncate w)
  | union {a b} : SafeFlags a → SafeFlags b → SafeFlags (a.union b)
  | inter {a b} : SafeFlags a → SafeFlags b → SafeFlags (a.inter b)
  | symmDiff {a b} : SafeFlags a → SafeFlags b → SafeFlags (a.symmDiff b)
  | diff {a b} : SafeFlags a → SafeFlags b → SafeFlags (a.diff b)
  | compl {a} : SafeFlags a → SafeFlags a.compl

end Binate.Spec
