import Verif.Spec.Fair

/-! # Connections that answer as they like

In the models the answer of a connection to a frame is a function of the frames that it was handed before. A real
one may take into account whatever it likes: whether it is closed, the time, what the peer does, or chance. -/

namespace Binate.Spec

/-- A step in which the connection (or each of several) is free in its answers: nothing says that what it does
in one step has to do with what it does in another. `step` asks a connection at most once. -/
def Whim {conn state : Type} (step : conn → state → state → Prop) (s s' : state) : Prop :=
  ∃ c, step c s s'

/-- An execution with connections that answer as they like is one with connections `c`, whose answers are a
function of what they were handed, and is fair with them wherever it is fair. -/
structure WithConn {conn state : Type} (step : conn → state → state → Prop) (σ : Nat → state) (c : conn) :
    Prop where
  follows : Follows (step c) σ
  fair : ∀ act, Fair (Whim step) act σ → Fair (step c) act σ

/-- What can be reached from `a` in any number of steps. -/
inductive Reached {state : Type} (step : state → state → Prop) (a : state) : state → Prop where
  | here : Reached step a a
  | next {s s' : state} : Reached step a s → step s s' → Reached step a s'

end Binate.Spec
