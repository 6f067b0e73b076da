import Verif.Model.Storm
import Verif.Spec.WildSystem
import Verif.Spec.Hosted

/-! # Two machines, one of which has panics -/

namespace Binate.Spec

open RSocketMachine

/-- The same apart from panics; a watchdog that is gone from the first was dropped from the second. -/
structure AlikeStorm (tr : WildTransport) (e : Error) (h : Storm) (g : Hosted) : Prop where
  sys : AlikeSystem tr e h.sys g.sys
  dog : h.dogGone = g.dogDropped

/-- Some steps in a row. -/
inductive StormSteps (dbg : Bool) (tr : WildTransport) : Storm → Storm → Prop where
  | refl (h : Storm) : StormSteps dbg tr h h
  | step {h h' h'' : Storm} : Storm.Step dbg tr h h' → StormSteps dbg tr h' h'' →
      StormSteps dbg tr h h''

end Binate.Spec
