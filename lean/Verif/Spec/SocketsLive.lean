import Verif.Spec.Sockets
import Verif.Spec.Live

/-! # Executions of any number of sockets that go on for ever -/

namespace Binate.Spec

open RSocketMachine

/-- What happens when there is nothing at first; there may be pauses. -/
structure AllForever (dbg : Bool) (trs : Nat → Transport) (τ : Nat → Sockets) : Prop where
  start : ∃ now, τ 0 = Sockets.init now
  follows : Follows (SocketsStep dbg trs) τ

/-- Every time comes. -/
def EveryTime (τ : Nat → Sockets) : Prop := ∀ t, ∃ n, t ≤ (τ n).clock

/-- The scheduler is fair to the watchdog of socket `g`. -/
def ItsDogScheduled (dbg : Bool) (trs : Nat → Transport) (τ : Nat → Sockets) (g : Handle) : Prop :=
  Fair (SocketsStep dbg trs) (fun t t' => DogMoves (systemOf t g) (systemOf t' g)) τ

/-- The scheduler is fair to the thread of call `i` on socket `g`. -/
def ItsCallScheduled (dbg : Bool) (trs : Nat → Transport) (τ : Nat → Sockets) (g : Handle) (i : Nat) :
    Prop :=
  Fair (SocketsStep dbg trs) (fun t t' => Moves (systemOf t g).conc (systemOf t' g).conc i) τ

end Binate.Spec
