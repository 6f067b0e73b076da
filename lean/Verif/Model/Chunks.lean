import Verif.Model.Types
import Verif.Model.F32

/-! # `PayloadChunks` (binate/src/payload.rs:113-117, 191-242) -/

namespace Binate

/-- payload.rs:191-195 `PayloadChunks`. -/
structure PayloadChunks where
  chunkSize : Nat
  metadata : Option Bytes
  data : Option Bytes
deriving DecidableEq, Repr

/-- payload.rs:113-117 `Payload::chunks`. -/
def Payload.chunks (p : Payload) (chunkSize : Nat) : Outcome PayloadChunks := do
  Outcome.assert (chunkSize != 0) "assertion failed: chunk_size != 0"
  let (metadata, data) := p.split
  .ok ⟨chunkSize, metadata, data⟩

namespace PayloadChunks

/-- payload.rs:222-229 (metadata) and 230-237 (data): take the next part off one field. Returns
the part and what is left. -/
def takePart (chunkSize : Nat) : Option Bytes → Option Bytes × Option Bytes
  | none => (none, none)
  | some m =>
    let len := m.length
    if chunkSize < len then (some (m.take chunkSize), some (m.drop chunkSize))
    else (some m, none)

/-- payload.rs:215-239 `Iterator::next`. -/
def next (c : PayloadChunks) : Option Payload × PayloadChunks :=
  if c.metadata.isNone && c.data.isNone then (none, c)
  else
    let (meta', metaLeft) := takePart c.chunkSize c.metadata
    let (data', dataLeft) := takePart c.chunkSize c.data
    (some (Payload.new meta' data'), { c with metadata := metaLeft, data := dataLeft })

/-- payload.rs:205-208 on one length: `(len as f32 / chunk_size as f32).ceil() as usize`. -/
def lenPart (chunkSize len : Nat) : Nat :=
  F32.toUsize (F32.ceil (F32.div (F32.ofUsize len) (F32.ofUsize chunkSize)))

/-- payload.rs:200-209 `ExactSizeIterator::len`. -/
def len (c : PayloadChunks) : Nat :=
  let metadataLen := (c.metadata.map List.length).getD 0
  let dataLen := (c.data.map List.length).getD 0
  max (lenPart c.chunkSize metadataLen) (lenPart c.chunkSize dataLen)

/-- payload.rs:212-240: `Iterator` is implemented without `size_hint`, so it is the default of
the standard library, `(0, None)`. -/
def sizeHint (_ : PayloadChunks) : Nat × Option Nat := (0, none)

/-- Upper bound on the number of `next` calls that can return `Some` (used as loop fuel only,
see `Lemmas`): a present part of length `n` takes at most `n + 1` rounds. For loops over
payload.rs:215-239. -/
def fuel (c : PayloadChunks) : Nat :=
  (c.metadata.map (fun m => m.length + 1)).getD 0 + (c.data.map (fun d => d.length + 1)).getD 0

/-- A `for` loop over the iterator collecting what it yields; `none` means it has not ended
within `n` rounds. As in socket.rs:154. -/
def collect : Nat → PayloadChunks → Option (List Payload)
  | n, c =>
    match c.next with
    | (none, _) => some []
    | (some p, c') =>
      match n with
      | 0 => none
      | n + 1 => (collect n c').map (p :: ·)

end PayloadChunks

end Binate
