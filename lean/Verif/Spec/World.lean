import Verif.Model.World
import Verif.Spec.Socket

/-! # One of several sockets -/

namespace Binate.Spec

open RSocketMachine

/-- What is known of the socket of a handle: the machine that is seen through it, and of the calls and
frames those of its connection, whichever clone they are made through. -/
def socketOf (w : World) (g : Handle) : Conc :=
  { machine := w.memory.read g
    calls := w.calls.filterMap fun c => if c.1.connection = g.connection then some c.2 else none
    draws := w.memory.draws g.streamId
    wire := w.memory.wire g.connection
    asked := w.asked.filterMap fun a => if a.1.connection = g.connection then some a.2 else none }

/-- The machine that a handle was when `new` made it. -/
def asMade (g : Handle) : RSocketMachine :=
  { RSocketMachine.new g.role g.keepaliveTimeout g.keepaliveLastReceived with
    chunkPayload := g.chunkPayload }

end Binate.Spec
