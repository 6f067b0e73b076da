import Verif.Model.Chunks

/-! # What cutting a payload into chunks means

Written as index formulas on the whole payload, not as a loop. -/

namespace Binate.Spec

/-- `a / b` rounded up. -/
def ceilDiv (a b : Nat) : Nat := (a + b - 1) / b

/-- The number of chunks with a share of this part: none if the part is absent, one if it is
present but empty. -/
def partCount (size : Nat) : Option Bytes → Nat
  | none => 0
  | some b => max 1 (ceilDiv b.length size)

/-- The share of a part in chunk number `i`: bytes `i * size` up to `(i + 1) * size`. -/
def partAt (size : Nat) (part : Option Bytes) (i : Nat) : Option Bytes :=
  if i < partCount size part then part.map fun b => (b.drop (i * size)).take size else none

/-- The number of chunks of a payload. -/
def chunkCount (size : Nat) (p : Payload) : Nat :=
  max (partCount size p.metadata) (partCount size p.data)

/-- Chunk number `i`. -/
def chunkAt (size : Nat) (p : Payload) (i : Nat) : Payload :=
  ⟨partAt size p.metadata i, partAt size p.data i⟩

/-- All metadata of a list of payloads, in order. -/
def joinMetadata (ps : List Payload) : Bytes := (ps.map fun p => p.metadata.getD []).flatten

/-- All data of a list of payloads, in order. -/
def joinData (ps : List Payload) : Bytes := (ps.map fun p => p.data.getD []).flatten

/-- The iterator after `n` calls of `next`. -/
def afterNext : Nat → PayloadChunks → PayloadChunks
  | 0, c => c
  | n + 1, c => afterNext n c.next.2

/-- A part that is not present-but-empty. -/
def NotEmpty (part : Option Bytes) : Prop := part ≠ some []

end Binate.Spec
