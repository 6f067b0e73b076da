import Verif.Model.Frame

/-! # How long frames are

Counted from the frame diagrams in binate/src/frame/codec/*.rs: 6 bytes of header, plus the fixed
fields, plus the length prefixes. -/

namespace Binate.Spec

/-- The number of bytes of an optional field. -/
def partSize (o : Option Bytes) : Nat := (o.getD []).length

/-- The number of bytes of a payload. -/
def paySize (p : Payload) : Nat := partSize p.metadata + partSize p.data

/-- The bytes that do not carry user bytes: header, numbers, length prefixes. -/
def overhead : Frame → Nat
  | .setup f => if f.resumeToken.isSome then 25 else 23
  | .lease _ => 14
  | .keepalive _ => 14
  | .requestResponse _ => 9
  | .requestFnf _ => 9
  | .requestStream _ => 13
  | .requestChannel _ => 13
  | .requestN _ => 10
  | .cancel _ => 6
  | .payload _ => 9
  | .error _ => 10
  | .metadataPush _ => 6
  | .resume _ => 28
  | .resumeOk _ => 14

/-- The bytes of all byte fields of a frame. -/
def userBytes : Frame → Nat
  | .setup f => partSize f.resumeToken + f.metadataMimetype.length + f.dataMimetype.length
      + paySize f.payload
  | .lease f => partSize f.metadata
  | .keepalive f => partSize f.data
  | .requestResponse f => paySize f.payload
  | .requestFnf f => paySize f.payload
  | .requestStream f => paySize f.payload
  | .requestChannel f => paySize f.payload
  | .requestN _ => 0
  | .cancel _ => 0
  | .payload f => paySize f.payload
  | .error f => partSize f.data
  | .metadataPush f => f.metadata.length
  | .resume f => f.resumeToken.length
  | .resumeOk _ => 0

end Binate.Spec
