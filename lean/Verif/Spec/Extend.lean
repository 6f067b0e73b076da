import Verif.Spec.Wire

/-! # What more bytes mean for an already complete frame -/

namespace Binate.Spec

/-- Append `s` to an optional byte field. -/
def optAppend (o : Option Bytes) (s : Bytes) : Option Bytes :=
  match o, s with
  | none, [] => none
  | none, s => some s
  | some b, s => some (b ++ s)

/-- Frame kinds that end with a fixed field: bytes after them are not read. -/
def FixedEnd : Frame → Prop
  | .requestN _ | .cancel _ | .resume _ | .resumeOk _ => True
  | _ => False

/-- The frame with `s` appended to its trailing byte field, if it has one. -/
def extend (s : Bytes) : Frame → Frame
  | .setup f => .setup { f with payload := { f.payload with data := optAppend f.payload.data s } }
  | .lease f => .lease { f with metadata := optAppend f.metadata s }
  | .keepalive f => .keepalive { f with data := optAppend f.data s }
  | .requestResponse f =>
    .requestResponse { f with payload := { f.payload with data := optAppend f.payload.data s } }
  | .requestFnf f =>
    .requestFnf { f with payload := { f.payload with data := optAppend f.payload.data s } }
  | .requestStream f =>
    .requestStream { f with payload := { f.payload with data := optAppend f.payload.data s } }
  | .requestChannel f =>
    .requestChannel { f with payload := { f.payload with data := optAppend f.payload.data s } }
  | .payload f =>
    .payload { f with payload := { f.payload with data := optAppend f.payload.data s } }
  | .error f => .error { f with data := optAppend f.data s }
  | .metadataPush f => .metadataPush { f with metadata := f.metadata ++ s }
  | f => f

/-- The bytes left unread after reading `f` from a buffer to which `s` was appended. -/
def extendRest (f : Frame) (rest s : Bytes) : Bytes :=
  match f with
  | .requestN _ | .cancel _ | .resume _ | .resumeOk _ => rest ++ s
  | _ => rest

end Binate.Spec
