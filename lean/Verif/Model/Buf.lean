import Verif.Model.Basic

/-!
# `bytes::Buf`

The required methods of the trait are a class; the provided methods that the code uses are
functions on top of it, following the source of bytes 1.0.1 (the version in Cargo.lock).
-/

namespace Binate

/-- The required methods of the trait `bytes::Buf`. `advance` may panic or diverge. The bound `B: Buf`
at visit.rs:14, `T: Buf` at buf.rs:16. -/
class BufCore (β : Type) where
  remaining : β → Nat
  chunk : β → Bytes
  advance : β → Nat → Outcome β

/-- The trait `bytes::Buf`: the required methods and the two provided ones that some
implementations override. `chunksVectored b n` is `chunks_vectored` on a destination of `n`
slots: the slices it stores, in order (the returned count is their number). The bound `B: Buf` at
visit.rs:14, `T: Buf` at buf.rs:16. -/
class Buf (β : Type) extends BufCore β where
  copyToBytes : β → Nat → Outcome (Bytes × β)
  chunksVectored : β → Nat → Outcome (List Bytes)

namespace BufCore

variable {β : Type} [BufCore β]

/-- The `while off < dst.len()` loop of `Buf::copy_to_slice` (bytes 1.0.1, buf_impl.rs): copy
`min(chunk.len(), need)` bytes and advance. `fuel` is always started at `need`; every round
copies at least one byte, except when the chunk is empty, where the Rust loop makes no progress
and never ends. Reached from visit.rs:17-76. -/
def copyLoop : Nat → Nat → β → Bytes → Outcome (Bytes × β)
  | _, 0, b, acc => .ok (acc, b)
  | 0, _ + 1, _, _ => .diverge
  | fuel + 1, need + 1, b, acc =>
    let src := chunk b
    let cnt := min src.length (need + 1)
    if cnt = 0 then .diverge
    else do
      let b' ← advance b cnt
      copyLoop fuel (need + 1 - cnt) b' (acc ++ src.take cnt)

/-- `Buf::copy_to_slice` (bytes 1.0.1) into an array of `n` bytes. Reached from visit.rs:17-76. -/
def copyToSlice (n : Nat) (b : β) : Outcome (Bytes × β) := do
  Outcome.assert (n ≤ remaining b) "assertion failed: self.remaining() >= dst.len()"
  copyLoop n n b []

/-- `buf_get_impl!` (bytes 1.0.1): read `n` bytes, directly from the chunk when it is long
enough, else through `copy_to_slice`. Reached from visit.rs:17-76. -/
def getArray (n : Nat) (b : β) : Outcome (Bytes × β) :=
  if n ≤ (chunk b).length then do
    let b' ← advance b n
    .ok ((chunk b).take n, b')
  else copyToSlice n b

/-- `Buf::get_u8` (bytes 1.0.1): asserts `remaining() >= 1`, reads `chunk()[0]` (which panics on
an empty chunk), advances by one. Used at visit.rs:46. -/
def getU8 (b : β) : Outcome (U8 × β) := do
  Outcome.assert (1 ≤ remaining b) "assertion failed: self.remaining() >= 1"
  match chunk b with
  | [] => .panic "index out of bounds"
  | x :: _ => do
    let b' ← advance b 1
    .ok (x, b')

/-- `u16::from_be_bytes`. The array always has two elements here; `getArray 2` never returns
another length (see `getArray_length` in Lemmas). Reached from visit.rs:24. -/
def beU16 : Bytes → U16
  | [a, b] => a ++ b
  | _ => 0

/-- `u32::from_be_bytes`. Reached from visit.rs:17. -/
def beU32 : Bytes → U32
  | [a, b, c, d] => a ++ b ++ c ++ d
  | _ => 0

/-- `u64::from_be_bytes`. Reached from visit.rs:76. -/
def beU64 : Bytes → U64
  | [a, b, c, d, e, f, g, h] => a ++ b ++ c ++ d ++ e ++ f ++ g ++ h
  | _ => 0

/-- `Buf::get_u16` (bytes 1.0.1), big-endian. Used at visit.rs:24, 38, 39, 52. -/
def getU16 (b : β) : Outcome (U16 × β) := do
  let (s, b') ← getArray 2 b
  .ok (beU16 s, b')

/-- `Buf::get_u32` (bytes 1.0.1), big-endian. Used at visit.rs:17, 64, 70. -/
def getU32 (b : β) : Outcome (U32 × β) := do
  let (s, b') ← getArray 4 b
  .ok (beU32 s, b')

/-- `Buf::get_u64` (bytes 1.0.1), big-endian. Used at visit.rs:76. -/
def getU64 (b : β) : Outcome (U64 × β) := do
  let (s, b') ← getArray 8 b
  .ok (beU64 s, b')

/-- `BytesMut::put(self.take(len))` (bytes 1.0.1, buf_mut.rs and take.rs): while the `Take`
adapter has bytes remaining, append its chunk (the inner chunk cut to the limit) and advance.
`fuel` is always started at the limit; each round lowers the limit by the length of a chunk, and
an empty chunk with bytes remaining makes the Rust loop spin forever. Used at buf.rs:124. -/
def putTake : Nat → Nat → β → Bytes → Outcome (Bytes × β)
  | fuel, limit, b, acc =>
    if min (remaining b) limit = 0 then .ok (acc, b)
    else match fuel with
      | 0 => .diverge
      | fuel + 1 =>
        let s := (chunk b).take limit
        if s.length = 0 then .diverge
        else do
          let b' ← advance b s.length
          putTake fuel (limit - s.length) b' (acc ++ s)

/-- The provided `Buf::copy_to_bytes` (bytes 1.0.1), used by implementations that do not
override it, such as `&[u8]`. Used at visit.rs:82, buf.rs:113, 117. -/
def defaultCopyToBytes (b : β) (len : Nat) : Outcome (Bytes × β) := do
  Outcome.assert (len ≤ remaining b) "`len` greater than remaining"
  putTake len len b []

/-- The provided `Buf::chunks_vectored` (bytes 1.0.1): at most one slot is filled. Used at buf.rs:99. -/
def defaultChunksVectored (b : β) (n : Nat) : Outcome (List Bytes) :=
  if n = 0 then .ok []
  else if 0 < remaining b then .ok [chunk b] else .ok []

end BufCore


/-- `impl Buf for Bytes` (bytes 1.0.1): one contiguous chunk; `chunks_vectored` is the provided
one (`defaultChunksVectored`); `advance` asserts
`cnt <= self.len()`, `copy_to_bytes` takes everything or slices (slicing panics when out of
range). `&[u8]` and `BytesMut` behave the same up to panic messages. Used at visit.rs:82. -/
instance : BufCore Bytes where
  remaining b := b.length
  chunk b := b
  advance b n := do
    Outcome.assert (n ≤ b.length) "cannot advance past `remaining`"
    .ok (b.drop n)

@[inherit_doc instBufCoreBytes]
instance : Buf Bytes where
  chunksVectored := BufCore.defaultChunksVectored
  copyToBytes b n :=
    if n = b.length then .ok (b, [])
    else do
      Outcome.assert (n ≤ b.length) "range end out of bounds"
      .ok (b.take n, b.drop n)

/-- A type that implements the required methods of `Buf` and leaves the provided ones. A type that the
bound `B: Buf` at visit.rs:14 admits. -/
@[instance_reducible] def Buf.provided (β : Type) [BufCore β] : Buf β where
  copyToBytes := BufCore.defaultCopyToBytes
  chunksVectored := BufCore.defaultChunksVectored

/-- The standard `VecDeque<u8>`: its two slices, in order. A type that the bound `B: Buf` at
visit.rs:14 admits. -/
structure Deque where
  front : Bytes
  back : Bytes
deriving DecidableEq, Repr

/-- `impl Buf for VecDeque<u8>` (bytes 1.0.1): the required methods only. `advance` is
`self.drain(..cnt)`. A type that the bound `B: Buf` at visit.rs:14 admits. -/
instance : BufCore Deque where
  remaining d := d.front.length + d.back.length
  chunk d := if d.front.isEmpty then d.back else d.front
  advance d n := do
    Outcome.assert (n ≤ d.front.length + d.back.length) "range end index out of range"
    .ok ⟨d.front.drop n, d.back.drop (n - d.front.length)⟩

@[inherit_doc instBufCoreDeque]
instance : Buf Deque := Buf.provided Deque

end Binate
