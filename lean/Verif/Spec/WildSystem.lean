import Verif.Model.WildSystem
import Verif.Spec.Unwind
import Verif.Spec.System

/-! # Two systems that differ by panics only -/

namespace Binate.Spec

open RSocketMachine

/-- The two systems are the same, apart from what was called and has panicked in the first. -/
structure AlikeSystem (tr : WildTransport) (e : Error) (w : WildSystem) (s : System) : Prop where
  conc : Alike tr e w.conc s.conc
  dog : w.dog = s.dog
  slept : w.slept = s.slept
  listening : w.listening = s.listening
  handles : w.handles = s.handles
  strong : w.strong = s.strong
  released : w.released = s.released
  clock : w.clock = s.clock
  happened : w.happened = s.happened
  userCloses : w.userCloses = s.userCloses
  seen : w.seen = s.seen

end Binate.Spec
