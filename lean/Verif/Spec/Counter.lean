import Verif.Model.Counter

/-! # Specification of the request counter -/

namespace Binate.Spec

open RequestCounter (Op Ret)

/-- The `i32` that is congruent to `i` modulo 2^32. -/
def wrap32 (i : Int) : Int := (i + 2 ^ 31) % 2 ^ 32 - 2 ^ 31

/-- The number of permits an operation adds. -/
def added : Op → Nat
  | .add n => n.toNat
  | _ => 0

/-- Whether the operation takes a permit. -/
def isDec : Op → Bool
  | .dec => true
  | _ => false

/-- All permits added by the operations. -/
def totalAdded (ops : List Op) : Nat := (ops.map added).sum

/-- The number of `dec` operations. -/
def decs (ops : List Op) : Nat := ops.countP isDec

/-- The exact balance: what was added minus what was taken. -/
def net (ops : List Op) : Int := totalAdded ops - decs ops

/-- What an operation should return when the counter shows `v`. -/
def expected (v : Int) : Op → Ret
  | .dec => .int v
  | .add _ => .unit
  | .load => .int v
  | .isZero => .bool (v == 0)

/-- A `dec` that was told there was a permit. -/
def granted : Op × Ret → Bool
  | (.dec, .int i) => 0 < i
  | _ => false

/-- The permits that ought to be available: a `dec` without permits takes nothing. -/
def available : Nat → List Op → Nat
  | a, [] => a
  | a, .dec :: ops => available (a - 1) ops
  | a, .add n :: ops => available (a + n.toNat) ops
  | a, _ :: ops => available a ops

/-- Every `dec` happens while a permit is available. -/
def NoOverdraw : Nat → List Op → Prop
  | _, [] => True
  | a, .dec :: ops => 0 < a ∧ NoOverdraw (a - 1) ops
  | a, .add n :: ops => NoOverdraw (a + n.toNat) ops
  | a, _ :: ops => NoOverdraw a ops

end Binate.Spec
