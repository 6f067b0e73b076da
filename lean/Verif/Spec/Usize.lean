import Verif.Spec.Sizes

/-! # Sums on a machine with words of 64 bits -/

namespace Binate.Spec

/-- What a sum of `usize` values comes to if the mathematical sum is `n`. -/
def machine (checked : Bool) (n : Nat) : Outcome Nat :=
  if n < 2 ^ 64 then .ok n
  else if checked then .panic "attempt to add with overflow"
  else .ok (n % 2 ^ 64)

/-- The size that a frame announces: that of its encoding, except that a SETUP frame always counts the
two bytes for the length of the resume token. -/
def announced : Frame → Nat
  | .setup v => 25 + userBytes (.setup v)
  | f => overhead f + userBytes f

end Binate.Spec
