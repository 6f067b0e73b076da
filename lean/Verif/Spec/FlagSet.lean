import Verif.Model.FlagOps
import Verif.Spec.Small

/-! # Flags as sets of numbered bits -/

namespace Binate.Spec

/-- A set of bit numbers. -/
abbrev BitSet := Nat → Bool

/-- The declared flags are bits 4 to 8. -/
def declared (k : Nat) : Bool := decide (4 ≤ k) && decide (k ≤ 8)

/-- The bits of a flag word. -/
def flagSet (f : Flags) : BitSet := fun k => f.bits.toNat.testBit k

/-- What the operation does to a set of bits. -/
def setOp (s : BitSet) : Flags.Op → BitSet
  | .insert g | .orAssign g => fun k => s k || flagSet g k
  | .remove g | .subAssign g => fun k => s k && !flagSet g k
  | .toggle g | .xorAssign g => fun k => s k != flagSet g k
  | .set g v => fun k => if flagSet g k then v else s k
  | .extend l => fun k => s k || l.any fun g => flagSet g k
  | .andAssign g => fun k => s k && flagSet g k
  | .complement => fun k => declared k && !s k

/-- How a number is written with these digits, without leading zeros. -/
inductive WrittenWith (digits : String) : Nat → List Char → Prop where
  | digit {d c} : digits.toList[d]? = some c → WrittenWith digits d [c]
  | more {n l d c} : 0 < n → WrittenWith digits n l → digits.toList[d]? = some c →
    WrittenWith digits (digits.length * n + d) (l ++ [c])

/-- The arguments of the operation were made with safe code. -/
def SafeOp : Flags.Op → Prop
  | .insert g | .orAssign g | .remove g | .subAssign g | .toggle g | .xorAssign g | .set g _
  | .andAssign g => SafeFlags g
  | .extend l => ∀ g ∈ l, SafeFlags g
  | .complement => True

end Binate.Spec
