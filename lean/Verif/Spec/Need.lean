import Verif.Spec.Wire

/-! # How many bytes a frame needs

An independent reading of the frame diagrams: the smallest number of bytes after which the last
mandatory or length-prefixed field of the announced frame type is complete. Bytes that are not
there read as 0; since every field that is read lies inside the needed prefix, this does not
influence whether the prefix is there. -/

namespace Binate.Spec

/-- The byte at offset `i`. -/
def byteAt (b : Bytes) (i : Nat) : Nat := (b.getD i 0#8).toNat

/-- The big-endian 16-bit number at offset `i`. -/
def u16At (b : Bytes) (i : Nat) : Nat := byteAt b i * 256 + byteAt b (i + 1)

/-- The big-endian 24-bit number at offset `i`. -/
def u24At (b : Bytes) (i : Nat) : Nat :=
  byteAt b i * 65536 + byteAt b (i + 1) * 256 + byteAt b (i + 2)

/-- The 31-bit stream id in the header. -/
def streamIdOf (b : Bytes) : Nat :=
  (byteAt b 0 * 16777216 + byteAt b 1 * 65536 + byteAt b 2 * 256 + byteAt b 3) % 2 ^ 31

/-- The 6-bit frame type in the header. -/
def typeOf (b : Bytes) : Nat := byteAt b 4 / 4

/-- The error code of an ERROR frame: the 32-bit number after the header. -/
def codeOf (b : Bytes) : Nat :=
  byteAt b 6 * 16777216 + byteAt b 7 * 65536 + byteAt b 8 * 256 + byteAt b 9

/-- The flag at the position where SETUP frames have RESUME. -/
def resumeFlag (b : Bytes) : Bool := byteAt b 5 / 64 % 2 == 1

/-- Offset after the resume token field of a SETUP body. -/
def tokenEnd (resume : Bool) (r : Bytes) : Nat := 12 + if resume then 2 + u16At r 12 else 0

/-- Offset after a string with a one-byte length at offset `o`. -/
def stringEnd (r : Bytes) (o : Nat) : Nat := o + 1 + byteAt r o

/-- Offset after a 24-bit length and that many bytes at offset `o`. -/
def metaEnd (r : Bytes) (o : Nat) : Nat := o + 3 + u24At r o

/-- Bytes needed after the header, for frame type `ty` and the bytes `r` after the header. -/
def bodyNeed (ty : Nat) (resume : Bool) (r : Bytes) : Nat :=
  match ty with
  | 1 => metaEnd r (stringEnd r (stringEnd r (tokenEnd resume r)))  -- SETUP
  | 2 => 8                                                          -- LEASE
  | 3 => 8                                                          -- KEEPALIVE
  | 4 => metaEnd r 0                                                -- REQUEST_RESPONSE
  | 5 => metaEnd r 0                                                -- REQUEST_FNF
  | 6 => metaEnd r 4                                                -- REQUEST_STREAM
  | 7 => metaEnd r 4                                                -- REQUEST_CHANNEL
  | 8 => 4                                                          -- REQUEST_N
  | 9 => 0                                                          -- CANCEL
  | 10 => metaEnd r 0                                               -- PAYLOAD
  | 11 => 4                                                         -- ERROR
  | 12 => 0                                                         -- METADATA_PUSH
  | 13 => 6 + u16At r 4 + 16                                        -- RESUME
  | 14 => 8                                                         -- RESUME_OK
  | _ => 0

/-- Bytes needed by the frame announced in the header of `b`. -/
def need (b : Bytes) : Nat := 6 + bodyNeed (typeOf b) (resumeFlag b) (b.drop 6)

/-- Frame types that are only legal on stream 0. -/
def ConnectionType (ty : Nat) : Prop :=
  ty = 1 ∨ ty = 2 ∨ ty = 3 ∨ ty = 12 ∨ ty = 13 ∨ ty = 14

/-- Frame types with a decoder. -/
def KnownType (ty : Nat) : Prop := 1 ≤ ty ∧ ty ≤ 14

end Binate.Spec
