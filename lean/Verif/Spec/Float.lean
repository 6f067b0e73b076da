import Mathlib.Algebra.Order.Field.Rat
import Mathlib.Algebra.Order.AbsoluteValue.Basic
import Mathlib.Algebra.Ring.Parity
import Mathlib.Data.Rat.Floor
import Verif.Model.Chunks

/-! # IEEE-754 binary32 rounding, by its definition

The finite numbers of the format that are not negative, subnormal ones included, and the rounding mode
roundTiesToEven below the largest of them. -/

namespace Binate.Spec

/-- A significand of 24 bits and an exponent from -149 to 104; the leading bit is set unless the exponent is
the smallest. -/
def Represents (m : ℕ) (e : ℤ) (x : ℚ) : Prop :=
  m < 2 ^ 24 ∧ -149 ≤ e ∧ e ≤ 104 ∧ (2 ^ 23 ≤ m ∨ e = -149) ∧ x = m * (2 : ℚ) ^ e

/-- A finite number of binary32 that is not negative. -/
def IsFloat (x : ℚ) : Prop := ∃ m e, Represents m e x

/-- The last bit of its significand is 0. -/
def EvenFloat (x : ℚ) : Prop := ∃ m e, Represents m e x ∧ Even m

/-- `x` is `q` rounded: no other number of the format is as near to `q`, unless one is exactly as near and
`x` is the even one of the two. -/
def Rounds (q x : ℚ) : Prop :=
  IsFloat x ∧ ∀ y, IsFloat y → y ≠ x → |q - x| < |q - y| ∨ (|q - x| = |q - y| ∧ EvenFloat x)

/-- `(length as f32 / size as f32).ceil() as usize` is `k`, with the cast at the end saturating. -/
def CeilQuotient (length size k : ℕ) : Prop :=
  ∃ a b x, Rounds length a ∧ Rounds size b ∧ Rounds (a / b) x ∧
    ∃ n : ℕ, (n : ℚ) - 1 < x ∧ x ≤ n ∧ k = min n (2 ^ 64 - 1)

end Binate.Spec
