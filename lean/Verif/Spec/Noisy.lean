import Verif.Model.Noisy
import Verif.Spec.System

/-! # What log lines that panic do -/

namespace Binate.Spec

open RSocketMachine

/-- Some steps in a row. -/
inductive NoisySteps (dbg : Bool) (tr : Transport) : Noisy → Noisy → Prop where
  | refl (h : Noisy) : NoisySteps dbg tr h h
  | step {h h' h'' : Noisy} : Noisy.Step dbg tr h h' → NoisySteps dbg tr h' h'' →
      NoisySteps dbg tr h h''

end Binate.Spec
