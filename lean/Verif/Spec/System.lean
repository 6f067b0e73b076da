import Verif.Model.System
import Verif.Spec.Socket

/-! # Reading the history of a system -/

namespace Binate.Spec

open RSocketMachine

/-- The frames among the happenings. -/
def framesOf (hs : List Happening) : List Frame :=
  hs.filterMap fun | .frame f => some f | .act _ => none

/-- The log lines among the happenings. -/
def linesOf (hs : List Happening) : List String :=
  hs.filterMap fun | .act (.logError m) => some m | _ => none

/-- The number of `close()` calls on the connection. -/
def closesOf (hs : List Happening) : Nat := hs.countP (· == .act .close)

/-- A task counts 1 as long as it runs. -/
def taskCount (b : Bool) : Nat := if b then 1 else 0

/-- The call has returned or panicked. -/
inductive Ended : Call → Prop where
  | returned (payload : Payload) (sid : U32) (result : Except Error Unit) :
      Ended (.done payload sid result)
  | panicked (payload : Payload) : Ended (.panicked payload)

end Binate.Spec
