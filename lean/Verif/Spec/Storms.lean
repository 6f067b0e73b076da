import Verif.Model.Storms
import Verif.Spec.World

/-! # One of several sockets, whatever goes wrong -/

namespace Binate.Spec

open RSocketMachine

/-- What is known of the requests on the socket of a handle, whichever clone they are made through. -/
def wildSocketOf (w : WildWorld) (g : Handle) : WildConc :=
  { machine := w.memory.read g
    calls := w.calls.filterMap fun c => if c.1.connection = g.connection then some c.2 else none
    draws := w.memory.draws g.streamId
    wire := w.memory.wire g.connection
    asked := w.asked.filterMap fun a => if a.1.connection = g.connection then some a.2 else none }

/-- What is known of the socket of a handle and its tasks, as of a machine that is alone. The handles are
those of its connection, and the runtime is its own. -/
def stormOf (t : Storms) (g : Handle) : Storm :=
  { sys :=
      { conc := wildSocketOf t.world g
        dog := (t.keeper g.connection).dog
        slept := (t.keeper g.connection).slept
        listening := (t.keeper g.connection).listening
        handles := t.world.handles.countP fun o => o.any fun h => h.connection == g.connection
        strong := (t.keeper g.connection).strong
        released := (t.keeper g.connection).released
        clock := t.clock
        happened := (t.keeper g.connection).happened
        userCloses := (t.keeper g.connection).userCloses
        panics := (t.keeper g.connection).panics
        seen := (t.keeper g.connection).seen }
    down := t.down (t.keeper g.connection).runtime
    dogGone := (t.keeper g.connection).dogGone }

end Binate.Spec
