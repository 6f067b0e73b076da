import Verif.Model.Frame

/-! # `BufList` (binate/src/connection/buf.rs) -/

namespace Binate

/-- buf.rs:12-14 `BufList<T>`: the deque, front first. -/
structure BufList (T : Type) where
  bufs : List T
deriving DecidableEq, Repr

namespace BufList

variable {T : Type} [Buf T]

/-- buf.rs:17-19 -/
def new : BufList T := ⟨[]⟩

/-- buf.rs:22-25 `push`. -/
def push (dbg : Bool) (l : BufList T) (buf : T) : Outcome (BufList T) := do
  Outcome.debugAssert dbg (0 < BufCore.remaining buf) "assertion failed: buf.has_remaining()"
  .ok ⟨l.bufs ++ [buf]⟩

/-- buf.rs:28-30 `len`: the number of buffers. -/
def len (l : BufList T) : Nat := l.bufs.length

/-- buf.rs:66-68 `remaining`. -/
def remaining (l : BufList T) : Nat := (l.bufs.map BufCore.remaining).sum

/-- buf.rs:71-73 `chunk`: the front buffer's chunk, or the empty slice. -/
def chunk (l : BufList T) : Bytes := (l.bufs.head?.map BufCore.chunk).getD []

/-- buf.rs:76-89: the `while cnt > 0` loop of `advance`; `self.bufs[0]` panics on an empty
deque. -/
def advanceLoop : List T → Nat → Outcome (List T)
  | bufs, 0 => .ok bufs
  | [], _ + 1 => .panic "Out of bounds access"
  | front :: rest, cnt + 1 =>
    let rem := BufCore.remaining front
    if rem > cnt + 1 then do
      let front' ← BufCore.advance front (cnt + 1)
      .ok (front' :: rest)
    else do
      let _ ← BufCore.advance front rem
      advanceLoop rest (cnt + 1 - rem)

/-- buf.rs:76 `advance`. -/
def advance (l : BufList T) (cnt : Nat) : Outcome (BufList T) := do
  let bufs ← advanceLoop l.bufs cnt
  .ok ⟨bufs⟩

/-- buf.rs:64-89 `impl Buf for BufList`, the required methods. -/
instance : BufCore (BufList T) where
  remaining := remaining
  chunk := chunk
  advance := advance

/-- buf.rs:98-104: the loop of `chunks_vectored`; `acc` are the slots filled so far
(`vecs = acc.length`). `&mut dst[vecs..]` panics when `vecs > dst.len()`. -/
def vectoredLoop (n : Nat) : List T → List Bytes → Outcome (List Bytes)
  | [], acc => .ok acc
  | buf :: rest, acc =>
    if acc.length > n then .panic "range start index out of range"
    else do
      let more ← Buf.chunksVectored buf (n - acc.length)
      let acc := acc ++ more
      if acc.length = n then .ok acc else vectoredLoop n rest acc

/-- buf.rs:92-105 `chunks_vectored` on a destination of `n` slots. -/
def chunksVectored (l : BufList T) (n : Nat) : Outcome (List Bytes) :=
  if n = 0 then .ok [] else vectoredLoop n l.bufs []

/-- buf.rs:118-126: the last arm of `copy_to_bytes`. -/
def copySlow (l : BufList T) (len : Nat) : Outcome (Bytes × BufList T) := do
  Outcome.assert (len ≤ l.remaining) "`len` greater than remaining"
  BufCore.putTake len len l []

/-- buf.rs:108-128 `copy_to_bytes`. -/
def copyToBytes (l : BufList T) (len : Nat) : Outcome (Bytes × BufList T) :=
  match l.bufs with
  | front :: rest =>
    if BufCore.remaining front = len then do
      let (bytes, _) ← Buf.copyToBytes front len
      .ok (bytes, ⟨rest⟩)
    else if BufCore.remaining front > len then do
      let (bytes, front') ← Buf.copyToBytes front len
      .ok (bytes, ⟨front' :: rest⟩)
    else copySlow l len
  | [] => copySlow l len

/-- buf.rs:91-128 `impl Buf for BufList`, the provided methods that it overrides. -/
instance : Buf (BufList T) where
  copyToBytes := copyToBytes
  chunksVectored := chunksVectored

/-- buf.rs:41-48: the part of a decoded frame that reassembly keeps. -/
def framePayload : Frame → Option Bytes × Option Bytes
  | .requestResponse v => v.payload.split
  | .requestFnf v => v.payload.split
  | .requestStream v => v.payload.split
  | .requestChannel v => v.payload.split
  | .payload v => v.payload.split
  | _ => (none, none)

/-- buf.rs:40-56: the `try_for_each` loop; the error ends it. -/
def reassembleLoop : List T → Bytes → Bytes → Outcome (Except DecodeError (Bytes × Bytes))
  | [], metadata, data => .ok (.ok (metadata, data))
  | v :: rest, metadata, data =>
    match Frame.decode v with
    | .err e _ => .ok (.error e)
    | .panic m => .panic m
    | .diverge => .diverge
    | .ok f _ =>
      let (m, d) := framePayload f
      reassembleLoop rest (putOpt metadata m) (putOpt data d)

/-- buf.rs:36-61 `TryInto<Payload>::try_into`. -/
def tryInto (l : BufList T) : Outcome (Except DecodeError Payload) := do
  match ← reassembleLoop l.bufs [] [] with
  | .error e => .ok (.error e)
  | .ok (metadata, data) =>
    let metadata := if metadata.isEmpty then none else some metadata
    let data := if data.isEmpty then none else some data
    .ok (.ok (Payload.new metadata data))

end BufList

end Binate
