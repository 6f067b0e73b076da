import Verif.Spec.Sizes

/-! # A caller's buffer that records how it is read

The caller of `Frame::decode` supplies the buffer, and so can see which methods are called on it.
`Recorded β` is such a buffer: it passes every call on to a buffer of type `β` and writes down the
calls that consume bytes. -/

namespace Binate.Spec

/-- A call that consumes bytes: `advance n`, or `copy_to_bytes n` together with what it returned. -/
inductive BufCall where
  | advance (n : Nat)
  | copy (n : Nat) (s : Bytes)
deriving DecidableEq, Repr

/-- A buffer and the calls made on it so far, in order. -/
structure Recorded (β : Type) where
  buf : β
  calls : List BufCall
deriving DecidableEq, Repr

instance {β : Type} [BufCore β] : BufCore (Recorded β) where
  remaining r := BufCore.remaining r.buf
  chunk r := BufCore.chunk r.buf
  advance r n := do
    let b ← BufCore.advance r.buf n
    .ok ⟨b, r.calls ++ [.advance n]⟩

instance {β : Type} [Buf β] : Buf (Recorded β) where
  copyToBytes r n := do
    let (s, b) ← Buf.copyToBytes r.buf n
    .ok (s, ⟨b, r.calls ++ [.copy n s]⟩)
  chunksVectored r n := Buf.chunksVectored r.buf n

/-- The byte strings that `copy_to_bytes` returned, in order. -/
def copies : List BufCall → List Bytes
  | [] => []
  | .advance _ :: cs => copies cs
  | .copy _ s :: cs => s :: copies cs

/-- How many bytes `advance` passed over, in total. -/
def advanced : List BufCall → Nat
  | [] => 0
  | .advance n :: cs => n + advanced cs
  | .copy _ _ :: cs => advanced cs

/-- How often `advance` was called. -/
def advances : List BufCall → Nat
  | [] => 0
  | .advance _ :: cs => advances cs + 1
  | .copy _ _ :: cs => advances cs

/-- The byte strings of a payload, metadata first. -/
def payloadFields (p : Payload) : List Bytes := p.metadata.toList ++ p.data.toList

/-- The byte strings that a frame holds, in the order of the wire. -/
def fields : Frame → List Bytes
  | .setup f => f.resumeToken.toList ++ [f.metadataMimetype, f.dataMimetype] ++ payloadFields f.payload
  | .lease f => f.metadata.toList
  | .keepalive f => f.data.toList
  | .requestResponse f => payloadFields f.payload
  | .requestFnf f => payloadFields f.payload
  | .requestStream f => payloadFields f.payload
  | .requestChannel f => payloadFields f.payload
  | .requestN _ => []
  | .cancel _ => []
  | .payload f => payloadFields f.payload
  | .error f => f.data.toList
  | .metadataPush f => [f.metadata]
  | .resume f => [f.resumeToken]
  | .resumeOk _ => []

end Binate.Spec
