import Verif.Lemmas.RsocketPush
import Verif.Lemmas.WildPeer

/-! # For C134 over connections that panic -/

namespace Binate

open Spec RSocketMachine

theorem readPush_buffers {tr : WildTransport} {past fs : List Frame} (hw : ∀ f ∈ fs, OnTheWire f) :
    (fs.map (layout 16)).filterMap readPush = (pushedFrom tr past fs).map fun e => (false, e.1) := by
  induction fs generalizing past with
  | nil => rfl
  | cons f fs ih =>
    have ih := fun p => ih (past := p) fun g hg => hw g (List.mem_cons_of_mem _ hg)
    have hf := hw f List.mem_cons_self
    rw [List.map_cons, List.filterMap_cons, readPush_wire hf]
    cases hf with
    | fnf x fo p hx => exact ih _
    | push md => exact congrArg ((false, md) :: ·) (ih _)

end Binate
