import Verif.Model.Hosted
import Verif.Spec.System

/-! # What the shutdown of the runtime leaves as it is -/

namespace Binate.Spec

open RSocketMachine

/-- The same apart from the count of references to the connection and whether it was dropped: the requests,
the frames, the log, what was done to the connection, the tasks, the handles and the time. -/
structure SameButCount (a b : System) : Prop where
  conc : a.conc = b.conc
  dog : a.dog = b.dog
  slept : a.slept = b.slept
  listening : a.listening = b.listening
  handles : a.handles = b.handles
  clock : a.clock = b.clock
  happened : a.happened = b.happened
  userCloses : a.userCloses = b.userCloses
  seen : a.seen = b.seen

/-- Some steps in a row. -/
inductive HostedSteps (dbg : Bool) (tr : Transport) : Hosted → Hosted → Prop where
  | refl (h : Hosted) : HostedSteps dbg tr h h
  | step {h h' h'' : Hosted} : Hosted.Step dbg tr h h' → HostedSteps dbg tr h' h'' →
      HostedSteps dbg tr h h''

end Binate.Spec
