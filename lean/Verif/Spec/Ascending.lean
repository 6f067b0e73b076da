import Verif.Spec.Long
import Verif.Spec.Order
import Verif.Spec.StreamId

/-! # The order of the stream ids on the wire -/

namespace Binate.Spec

open RSocketMachine

/-- The stream ids of the request frames, in the order of the wire. -/
def streamIds (wire : List Frame) : List Nat :=
  wire.filterMap fun
    | .requestFnf v => some v.streamId.toNat
    | _ => none

end Binate.Spec
