import Verif.Spec.Interop

/-! # Frames of a peer that follows the RSocket protocol

Specification for C132, from the RSocket protocol, version 1.0, "Framing Format": the flags are where
the diagrams have them (as in `layout 32`), and the metadata length is there exactly if the METADATA
flag is set, that is exactly if there is metadata. -/

namespace Binate.Spec

/-- A payload: metadata with its length if there is any, and the data. -/
def protocolPayload (p : Payload) : Bytes :=
  (match p.metadata with
    | some m => be 3 m.length ++ m
    | none => []) ++ optBytes p.data

/-- The bytes of a frame. -/
def protocolLayout : Frame → Bytes
  | .setup f =>
    header 0 1 (flagsOf 32 f.flags) ++ be 2 f.version.major.toNat ++ be 2 f.version.minor.toNat
      ++ be 4 f.keepaliveInterval.toNat ++ be 4 f.keepaliveTimeout.toNat
      ++ (match f.resumeToken with
          | some t => be 2 t.length ++ t
          | none => [])
      ++ be 1 f.metadataMimetype.length ++ f.metadataMimetype
      ++ be 1 f.dataMimetype.length ++ f.dataMimetype ++ protocolPayload f.payload
  | .requestResponse f =>
    header f.streamId.toNat 4 (flagsOf 32 f.flags) ++ protocolPayload f.payload
  | .requestFnf f =>
    header f.streamId.toNat 5 (flagsOf 32 f.flags) ++ protocolPayload f.payload
  | .requestStream f =>
    header f.streamId.toNat 6 (flagsOf 32 f.flags) ++ be 4 f.initialRequestN.toNat
      ++ protocolPayload f.payload
  | .requestChannel f =>
    header f.streamId.toNat 7 (flagsOf 32 f.flags) ++ be 4 f.initialRequestN.toNat
      ++ protocolPayload f.payload
  | .payload f =>
    header f.streamId.toNat 10 (flagsOf 32 f.flags) ++ protocolPayload f.payload
  | f => layout 32 f

/-- The METADATA flag says whether there is metadata. -/
def MetadataFlagged (f : Frame) : Prop :=
  ∀ fl p, flagsField f = some fl → payloadOf f = some p → fl.bits.getLsbD 7 = p.metadata.isSome

/-- The frame with another payload. -/
def withPayload (p : Payload) : Frame → Frame
  | .setup f => .setup { f with payload := p }
  | .requestResponse f => .requestResponse { f with payload := p }
  | .requestFnf f => .requestFnf { f with payload := p }
  | .requestStream f => .requestStream { f with payload := p }
  | .requestChannel f => .requestChannel { f with payload := p }
  | .payload f => .payload { f with payload := p }
  | f => f

/-- Data taken for a length, as many bytes of metadata, and data; nothing if they are too short for
that. -/
def splitData (d : Bytes) : Option Payload :=
  if d.length < 3 ∨ d.length < 3 + u24At d 0 then none
  else some ⟨normOpt (some ((d.drop 3).take (u24At d 0))), normOpt (some (d.drop (3 + u24At d 0)))⟩

/-- How a peer that follows the protocol reads a fire-and-forget request: the stream id, whether
further fragments follow, and the payload. -/
def readFnf (b : Bytes) : Option (Nat × Bool × Payload) :=
  if b.length < 6 ∨ typeOf b ≠ 5 then none
  else if (diagramFlags b).testBit 3 then
    if b.length < 9 + u24At b 6 then none
    else some (streamIdOf b, (diagramFlags b).testBit 2,
      ⟨some ((b.drop 9).take (u24At b 6)), normOpt (some (b.drop (9 + u24At b 6)))⟩)
  else some (streamIdOf b, (diagramFlags b).testBit 2, ⟨none, normOpt (some (b.drop 6))⟩)

/-- How a peer that follows the protocol reads METADATA_PUSH: whether the METADATA flag, which the
protocol wants to be set, is set, and the metadata, which is all the rest. -/
def readPush (b : Bytes) : Option (Bool × Bytes) :=
  if b.length < 6 ∨ typeOf b ≠ 12 ∨ streamIdOf b ≠ 0 then none
  else some ((diagramFlags b).testBit 3, b.drop 6)

end Binate.Spec
