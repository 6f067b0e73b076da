import Verif.Spec.Wire

/-! # Which frames are legal

Independent of the model's functions; the theorems in `Props/Constructors` show that the public
constructors and `decode` only produce frames that satisfy these predicates. -/

namespace Binate.Spec

/-- A flag word has only the five declared bits 4..8. This is an invariant of the Rust type
`Flags`: safe code cannot build anything else. -/
def FlagsOk (fl : Flags) : Prop := fl.bits.toNat % 16 = 0 ∧ fl.bits.toNat < 512

instance (fl : Flags) : Decidable (FlagsOk fl) := by unfold FlagsOk; infer_instance

/-- The payload of a frame that has one. -/
def payloadOf : Frame → Option Payload
  | .setup f => some f.payload
  | .requestResponse f => some f.payload
  | .requestFnf f => some f.payload
  | .requestStream f => some f.payload
  | .requestChannel f => some f.payload
  | .payload f => some f.payload
  | _ => none

/-- The flag word of a frame that stores one. -/
def flagsField : Frame → Option Flags
  | .setup f => some f.flags
  | .requestResponse f => some f.flags
  | .requestFnf f => some f.flags
  | .requestStream f => some f.flags
  | .requestChannel f => some f.flags
  | .payload f => some f.flags
  | _ => none

/-- The stored flag word, if any, is a `Flags` value that safe code can build. -/
def FrameFlagsOk (f : Frame) : Prop := ∀ fl, flagsField f = some fl → FlagsOk fl

/-- Length of the metadata that is announced in a 24-bit length field. -/
def metaLen (f : Frame) : Nat :=
  match payloadOf f with
  | some p => (optBytes p.metadata).length
  | none => 0

/-- All fields of the frame fit their place on the wire and agree with each other. -/
def WellFormed : Frame → Prop
  | .setup f =>
    FlagsOk f.flags ∧ f.keepaliveInterval.toNat < 2 ^ 31 ∧ f.keepaliveTimeout.toNat < 2 ^ 31 ∧
    f.resumeToken.isSome = f.flags.bits.toNat.testBit 6 ∧
    (∀ t, f.resumeToken = some t → t.length < 2 ^ 16) ∧
    f.metadataMimetype.length < 2 ^ 8 ∧ f.dataMimetype.length < 2 ^ 8 ∧
    (optBytes f.payload.metadata).length < 2 ^ 24
  | .lease f => f.ttl.toNat < 2 ^ 31 ∧ f.numberOfRequests.toNat < 2 ^ 31
  | .keepalive f => f.lastReceivedPosition.toNat < 2 ^ 63
  | .requestResponse f =>
    f.streamId.toNat < 2 ^ 31 ∧ FlagsOk f.flags ∧ (optBytes f.payload.metadata).length < 2 ^ 24
  | .requestFnf f =>
    f.streamId.toNat < 2 ^ 31 ∧ FlagsOk f.flags ∧ (optBytes f.payload.metadata).length < 2 ^ 24
  | .requestStream f =>
    f.streamId.toNat < 2 ^ 31 ∧ FlagsOk f.flags ∧ f.initialRequestN.toNat < 2 ^ 31 ∧
    (optBytes f.payload.metadata).length < 2 ^ 24
  | .requestChannel f =>
    f.streamId.toNat < 2 ^ 31 ∧ FlagsOk f.flags ∧ f.initialRequestN.toNat < 2 ^ 31 ∧
    (optBytes f.payload.metadata).length < 2 ^ 24
  | .requestN f => f.streamId.toNat < 2 ^ 31 ∧ f.requestN.toNat < 2 ^ 31
  | .cancel f => f.streamId.toNat < 2 ^ 31
  | .payload f =>
    f.streamId.toNat < 2 ^ 31 ∧ FlagsOk f.flags ∧ (optBytes f.payload.metadata).length < 2 ^ 24
  | .error f =>
    f.streamId.toNat < 2 ^ 31 ∧ (ConnectionCode f.code.toNat → f.streamId.toNat = 0) ∧
    (StreamCode f.code.toNat → f.streamId.toNat ≠ 0)
  | .metadataPush _ => True
  | .resume f =>
    f.resumeToken.length < 2 ^ 16 ∧ f.lastReceivedServerPosition.toNat < 2 ^ 63 ∧
    f.firstAvailableClientPosition.toNat < 2 ^ 63
  | .resumeOk f => f.lastReceivedClientPosition.toNat < 2 ^ 63

/-- A present-but-empty byte field becomes absent. -/
def normOpt : Option Bytes → Option Bytes
  | some [] => none
  | o => o

/-- `normOpt` on both parts. -/
def normPayload (p : Payload) : Payload := ⟨normOpt p.metadata, normOpt p.data⟩

/-- `normOpt` on every optional byte field that is sent without its own presence mark (the
resume token is not one of them: its presence is the RESUME flag). -/
def normalize : Frame → Frame
  | .setup f => .setup { f with payload := normPayload f.payload }
  | .lease f => .lease { f with metadata := normOpt f.metadata }
  | .keepalive f => .keepalive { f with data := normOpt f.data }
  | .requestResponse f => .requestResponse { f with payload := normPayload f.payload }
  | .requestFnf f => .requestFnf { f with payload := normPayload f.payload }
  | .requestStream f => .requestStream { f with payload := normPayload f.payload }
  | .requestChannel f => .requestChannel { f with payload := normPayload f.payload }
  | .requestN f => .requestN f
  | .cancel f => .cancel f
  | .payload f => .payload { f with payload := normPayload f.payload }
  | .error f => .error { f with data := normOpt f.data }
  | .metadataPush f => .metadataPush f
  | .resume f => .resume f
  | .resumeOk f => .resumeOk f

/-- The optional byte fields of a frame that `normalize` may change. -/
def optFields : Frame → List (Option Bytes)
  | .setup f => [f.payload.metadata, f.payload.data]
  | .lease f => [f.metadata]
  | .keepalive f => [f.data]
  | .requestResponse f => [f.payload.metadata, f.payload.data]
  | .requestFnf f => [f.payload.metadata, f.payload.data]
  | .requestStream f => [f.payload.metadata, f.payload.data]
  | .requestChannel f => [f.payload.metadata, f.payload.data]
  | .payload f => [f.payload.metadata, f.payload.data]
  | .error f => [f.data]
  | _ => []

/-- No optional byte field is present but empty. -/
def NoEmpty (f : Frame) : Prop := some [] ∉ optFields f

end Binate.Spec
