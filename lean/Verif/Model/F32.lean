import Mathlib.Data.Int.Log
import Mathlib.Data.Rat.Floor

/-! # IEEE-754 binary32 arithmetic

`PayloadChunks::len` (binate/src/payload.rs:200-209) computes with `f32`. All values that occur
are zero or lie between 2^-64 and 2^64, far inside the normal range of binary32 (2^-126 to
2^128), so an `f32` is represented by the rational number it denotes and every operation is the
exact result rounded to 24 significant bits, ties to even (IEEE-754 roundTiesToEven, which is
what Rust uses for `as f32` and `/`). Infinities, NaNs and subnormals never occur and are not
modelled. -/

namespace Binate.F32

/-- Round a rational to the nearest integer, ties to even. Reached from payload.rs:205-206. -/
def roundHalfEven (q : ℚ) : ℤ :=
  let f := ⌊q⌋
  let r := q - f
  if r < 1 / 2 then f
  else if 1 / 2 < r then f + 1
  else if f % 2 = 0 then f else f + 1

/-- The distance between neighbouring 24-bit floats around a positive `q`. Reached from
payload.rs:205-206. -/
def ulp (q : ℚ) : ℚ := (2 : ℚ) ^ (Int.log 2 q - 23)

/-- The binary32 number nearest to `q ≥ 0`, ties to even. Reached from payload.rs:205-206. -/
def round (q : ℚ) : ℚ := if q = 0 then 0 else roundHalfEven (q / ulp q) * ulp q

/-- Rust `n as f32` for `n : usize`. Used at payload.rs:205-206. -/
def ofUsize (n : Nat) : ℚ := round n

/-- Rust `a / b` on `f32`. Used at payload.rs:205-206. -/
def div (a b : ℚ) : ℚ := round (a / b)

/-- Rust `f32::ceil`: exact, the ceiling of a binary32 number is a binary32 number. Used at
payload.rs:208. -/
def ceil (a : ℚ) : ℤ := ⌈a⌉

/-- Rust `x as usize` for a non-negative integral `f32`: saturates at `usize::MAX`. Used at
payload.rs:208. -/
def toUsize (z : ℤ) : Nat := min z.toNat (2 ^ 64 - 1)

end Binate.F32
