import Verif.Spec.Storm
import Verif.Spec.Live

/-! # Executions that go on for ever, with everything that can go wrong -/

namespace Binate.Spec

open RSocketMachine

/-- What happens to a new machine. -/
structure StormForever (dbg : Bool) (tr : WildTransport) (role : Role) (timeout created spawned : Nat)
    (σ : Nat → Storm) : Prop where
  start : σ 0 = Storm.new role timeout created spawned
  follows : Follows (Storm.Step dbg tr) σ

/-- Every time comes. -/
def StormTimeGoesOn (σ : Nat → Storm) : Prop := ∀ t, ∃ n, t ≤ (σ n).sys.clock

/-- The watchdog does something: it goes back to sleep, goes on, or ends, if by a panic. -/
def StormDogMoves (h h' : Storm) : Prop :=
  h'.sys.dog ≠ h.sys.dog ∨ h'.dogGone ≠ h.dogGone ∨ h.sys.dog = .sleeping ∧ h'.sys.slept = h.sys.clock

/-- The scheduler is fair to the watchdog. -/
def StormDogScheduled (dbg : Bool) (tr : WildTransport) (σ : Nat → Storm) : Prop :=
  Fair (Storm.Step dbg tr) StormDogMoves σ

/-- The scheduler is fair to the watchdog in what does not make it go: neither a panic nor the shutdown. -/
def StormDogServed (dbg : Bool) (tr : WildTransport) (σ : Nat → Storm) : Prop :=
  Fair (Storm.Step dbg tr) (fun h h' => h'.dogGone = h.dogGone ∧ StormDogMoves h h') σ

/-- A runtime that is shut down does not leave a listener that can be ended where it is for ever. -/
def ListenerCleared (dbg : Bool) (tr : WildTransport) (σ : Nat → Storm) : Prop :=
  Fair (Storm.Step dbg tr)
    (fun h h' => h.down = true ∧ h'.sys.listening ≠ h.sys.listening) σ

/-- A runtime that is shut down does not leave a watchdog that can be dropped or go on where it is for
ever. -/
def DogCleared (dbg : Bool) (tr : WildTransport) (σ : Nat → Storm) : Prop :=
  Fair (Storm.Step dbg tr)
    (fun h h' => h.down = true ∧ (h'.sys.dog ≠ h.sys.dog ∨ h'.dogGone ≠ h.dogGone)) σ

/-- Call `i` takes a step. -/
def WildMoves (w w' : WildConc) (i : Nat) : Prop :=
  ∃ c, w.calls[i]? = some c ∧ w'.calls[i]? ≠ some c

/-- The scheduler is fair to the thread of call `i`. -/
def WildScheduled (dbg : Bool) (tr : WildTransport) (τ : Nat → WildConc) (i : Nat) : Prop :=
  Fair (WildStep dbg tr) (fun w w' => WildMoves w w' i) τ

/-- The scheduler is fair to the thread of call `i` of the machine. -/
def StormCallScheduled (dbg : Bool) (tr : WildTransport) (σ : Nat → Storm) (i : Nat) : Prop :=
  Fair (Storm.Step dbg tr) (fun h h' => WildMoves h.sys.conc h'.sys.conc i) σ

end Binate.Spec
