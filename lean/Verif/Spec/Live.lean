import Verif.Spec.Fair
import Verif.Spec.System
import Verif.Spec.Wait

/-! # Executions that go on for ever -/

namespace Binate.Spec

open RSocketMachine

/-- What happens to a new machine. -/
structure Forever (dbg : Bool) (tr : Transport) (role : Role) (timeout created spawned : Nat)
    (σ : Nat → System) : Prop where
  start : σ 0 = System.new role timeout created spawned
  follows : Follows (System.Step dbg tr) σ

/-- Every time comes. -/
def TimeGoesOn (σ : Nat → System) : Prop := ∀ t, ∃ n, t ≤ (σ n).clock

/-- The watchdog does something: it goes back to sleep, or it goes on. -/
def DogMoves (s s' : System) : Prop :=
  s'.dog ≠ s.dog ∨ s.dog = .sleeping ∧ s'.slept = s.clock

/-- The scheduler is fair to the watchdog. -/
def DogScheduled (dbg : Bool) (tr : Transport) (σ : Nat → System) : Prop :=
  Fair (System.Step dbg tr) DogMoves σ

/-- The scheduler is fair to the thread of call `i`. -/
def Scheduled (dbg : Bool) (tr : Transport) (σ : Nat → Conc) (i : Nat) : Prop :=
  Fair (ConcStep dbg tr) (fun s s' => Moves s s' i) σ

/-- The scheduler is fair to the thread of call `i` of the machine. -/
def CallScheduled (dbg : Bool) (tr : Transport) (σ : Nat → System) (i : Nat) : Prop :=
  Fair (System.Step dbg tr) (fun s s' => Moves s.conc s'.conc i) σ

end Binate.Spec
