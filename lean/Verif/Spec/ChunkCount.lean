import Verif.Spec.Chunks

/-! # Lengths that 24-bit arithmetic divides right -/

namespace Binate.Spec

/-- A part of `n` bytes cut into pieces of `size` bytes, such that the quotient computed with 24
significant bits has the right ceiling. -/
inductive Countable (size n : Nat) : Prop where
  /-- Both numbers are multiples of a power of two that leaves at most 24 bits of the length. -/
  | multiple (e : Nat) (hs : 2 ^ e ∣ size) (hn : 2 ^ e ∣ n) (h : n ≤ 2 ^ (24 + e)) :
    Countable size n
  /-- There is at most one piece. -/
  | single (h : n ≤ size) : Countable size n
  /-- The last piece is neither almost empty nor almost full, compared with the whole part. -/
  | clear (hlo : n < n % size * 2 ^ 22) (hhi : n ≤ (size - n % size) * 2 ^ 22) : Countable size n

/-- A part whose chunks are counted right: it is not present-but-empty, and its length is one that
24-bit arithmetic divides right (a buffer has at most 2^63 - 1 bytes). -/
def PartCountable (size : Nat) (part : Option Bytes) : Prop :=
  NotEmpty part ∧ (part.getD []).length < 2 ^ 63 ∧ Countable size (part.getD []).length

end Binate.Spec
