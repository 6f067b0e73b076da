import Verif.Spec.Socket

/-! # Specification of how long concurrent requests take -/

namespace Binate.Spec

open RSocketMachine

/-- The call with this number is in another place afterwards. -/
def Moves (s s' : Conc) (i : Nat) : Prop := ∃ c, s.calls[i]? = some c ∧ s'.calls[i]? ≠ some c

/-- Executions in which the keys of the map of receivers are always among `keys`, with the number of
steps that each call has taken itself. -/
inductive ConcRun (dbg : Bool) (tr : Transport) (m : RSocketMachine) (keys : List U32) :
    Conc → (Nat → Nat) → Prop where
  | init : (∀ x, m.receivers x = true → x ∈ keys) →
      ConcRun dbg tr m keys (Conc.init m) (fun _ => 0)
  | step {s s' : Conc} {k k' : Nat → Nat} : ConcRun dbg tr m keys s k → ConcStep dbg tr s s' →
      (∀ x, s'.machine.receivers x = true → x ∈ keys) → (∀ i, Moves s s' i → k' i = k i + 1) →
      (∀ i, ¬ Moves s s' i → k' i = k i) → ConcRun dbg tr m keys s' k'

/-- How many steps a request may need: two per key in use, two for the id it gets, one per frame, and
one to return; the last frame of an unfragmented request is sent in the step that returns. -/
def maxSteps (keys : List U32) (fragment : Option Nat) (p : Payload) : Nat :=
  2 * keys.length + 3 + match fragment with
    | none => 0
    | some size => chunkCount size p

end Binate.Spec
