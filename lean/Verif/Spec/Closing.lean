import Verif.Spec.System
import Verif.Spec.Order

/-! # Before and after a moment in the life of a system -/

namespace Binate.Spec

open RSocketMachine

/-- An execution of the whole system that goes from one state to another. -/
inductive SystemSteps (dbg : Bool) (tr : Transport) : System → System → Prop where
  | refl (s : System) : SystemSteps dbg tr s s
  | step {s s' s'' : System} : SystemSteps dbg tr s s' → System.Step dbg tr s' s'' →
      SystemSteps dbg tr s s''

/-- What reaches the peer over a connection that keeps its documentation: `send` does "nothing if the
underlying connection is closed" (conn.rs:10-12). -/
def delivered (hs : List Happening) : List Frame := framesOf (hs.takeWhile (· != .act .close))

end Binate.Spec
