import Verif.Spec.Sizes

/-! # Frames cut short -/

namespace Binate.Spec

/-- The field that reaches to the end of the buffer; frames that end with a fixed field have
none. -/
def tailOf : Frame → Bytes
  | .setup f => f.payload.data.getD []
  | .lease f => f.metadata.getD []
  | .keepalive f => f.data.getD []
  | .requestResponse f => f.payload.data.getD []
  | .requestFnf f => f.payload.data.getD []
  | .requestStream f => f.payload.data.getD []
  | .requestChannel f => f.payload.data.getD []
  | .requestN _ => []
  | .cancel _ => []
  | .payload f => f.payload.data.getD []
  | .error f => f.data.getD []
  | .metadataPush f => f.metadata
  | .resume _ => []
  | .resumeOk _ => []

/-- A field without length prefix: absent when empty. -/
def present : Bytes → Option Bytes
  | [] => none
  | b => some b

/-- The frame with other bytes in the field that reaches to the end. -/
def withTail (d : Bytes) : Frame → Frame
  | .setup f => .setup { f with payload := { f.payload with data := present d } }
  | .lease f => .lease { f with metadata := present d }
  | .keepalive f => .keepalive { f with data := present d }
  | .requestResponse f => .requestResponse { f with payload := { f.payload with data := present d } }
  | .requestFnf f => .requestFnf { f with payload := { f.payload with data := present d } }
  | .requestStream f => .requestStream { f with payload := { f.payload with data := present d } }
  | .requestChannel f => .requestChannel { f with payload := { f.payload with data := present d } }
  | .requestN f => .requestN f
  | .cancel f => .cancel f
  | .payload f => .payload { f with payload := { f.payload with data := present d } }
  | .error f => .error { f with data := present d }
  | .metadataPush f => .metadataPush { f with metadata := d }
  | .resume f => .resume f
  | .resumeOk f => .resumeOk f

/-- The bytes before that field. -/
def mandatory (f : Frame) : Nat := overhead f + userBytes f - (tailOf f).length

/-- The metadata and data bytes of a REQUEST_FNF frame. -/
def fnfParts : Frame → Bytes × Bytes
  | .requestFnf f => (f.payload.metadata.getD [], f.payload.data.getD [])
  | _ => ([], [])

/-- The frames are all fragments of one REQUEST_FNF: on one stream, FOLLOWS on all but the last. -/
def OneRequest (frames : List Frame) : Prop :=
  ∃ (sid : U32) (ps : List Payload) (last : Payload),
    frames.map (fun f => match f with
      | .requestFnf v => some (v.streamId, v.flags.bits.toNat.testBit 6, v.payload)
      | _ => none) =
    ps.map (fun p => some (sid, true, p)) ++ [some (sid, false, last)]

end Binate.Spec
