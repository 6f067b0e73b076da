import Verif.Spec.Live

/-! # Requests as a whole -/

namespace Binate.Spec

open RSocketMachine

/-- Request `j` has not ended before and has ended afterwards. -/
def Ends (before after : List Call) (j : Nat) : Prop :=
  ∃ c c', before[j]? = some c ∧ ¬ Ended c ∧ after[j]? = some c' ∧ Ended c'

/-- The ids that a machine draws, whose counter started at `w`: those of 31 bits that are even or odd as `w`
is. There are `2 ^ 30` of them. -/
def OwnId (w x : U32) : Prop := x.toNat < 2 ^ 31 ∧ x.toNat % 2 = w.toNat % 2

end Binate.Spec
