import Verif.Model.Encode

/-! # The buffer that `to_bytes` writes to

`to_bytes` (binate/src/frame/encode.rs:20-24) makes a `BytesMut` of capacity `self.len()`. Everything
that is written to it is written in pieces with `put_u8 … put_u64`, `put_slice` and `put`, which all
come down to `extend_from_slice`. Modelled from bytes 1.0.1; the size that the allocator rounds up to
is not modelled, that is, a buffer of capacity n has room for n bytes. -/

namespace Binate

/-- A `BytesMut`: what was written, its capacity and how often it has allocated. Used at
encode.rs:21-23. -/
structure BytesMut where
  bytes : Bytes
  capacity : Nat
  allocated : Nat
deriving DecidableEq, Repr

namespace BytesMut

/-- bytes 1.0.1 `BytesMut::with_capacity`; a `Vec` of capacity 0 does not allocate. Used at
encode.rs:21. -/
def withCapacity (n : Nat) : BytesMut := ⟨[], n, if n = 0 then 0 else 1⟩

/-- bytes 1.0.1 `BytesMut::extend_from_slice`: `reserve` returns at once if there is room, and otherwise
allocates; how much is not modelled beyond that it suffices. Used at encode.rs:22 through
`BufMut::put_*`. -/
def extendFromSlice (b : BytesMut) (piece : Bytes) : BytesMut :=
  if piece.length ≤ b.capacity - b.bytes.length then { b with bytes := b.bytes ++ piece }
  else
    { bytes := b.bytes ++ piece
      capacity := max (2 * b.capacity) (b.bytes.length + piece.length)
      allocated := b.allocated + 1 }

end BytesMut

/-- encode.rs:21-22 for a value whose encoder writes these pieces. -/
def Encode.written {α : Type} [Encode α] (v : α) (pieces : List Bytes) : BytesMut :=
  pieces.foldl BytesMut.extendFromSlice (BytesMut.withCapacity (Encode.len v))

/-- encode.rs:23: `freeze` turns the allocation into a boxed slice, which takes another allocation if
there is room left, unless the buffer is empty (bytes 1.0.1 `BytesMut::freeze`, `From<Vec<u8>> for
Bytes`). -/
def BytesMut.allocations (b : BytesMut) : Nat :=
  b.allocated + if 0 < b.bytes.length ∧ b.bytes.length < b.capacity then 1 else 0

end Binate
