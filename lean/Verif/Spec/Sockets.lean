import Verif.Model.Sockets
import Verif.Spec.World

/-! # One of several sockets with its tasks -/

namespace Binate.Spec

open RSocketMachine

/-- What is known of the socket of a handle and its tasks, as of a machine that is alone. The handles are
those of its connection. -/
def systemOf (t : Sockets) (g : Handle) : System :=
  { conc := socketOf t.world g
    dog := (t.keeper g.connection).dog
    slept := (t.keeper g.connection).slept
    listening := (t.keeper g.connection).listening
    handles := t.world.handles.countP fun o => o.any fun h => h.connection == g.connection
    strong := (t.keeper g.connection).strong
    released := (t.keeper g.connection).released
    clock := t.clock
    happened := (t.keeper g.connection).happened
    userCloses := (t.keeper g.connection).userCloses
    seen := (t.keeper g.connection).seen }

end Binate.Spec
