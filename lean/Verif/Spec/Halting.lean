import Verif.Model.Halting
import Verif.Spec.Workers

/-! # Getting rid of the background tasks -/

namespace Binate.Spec

/-- The listener of machine `i` is gone: it has left its loop, or was dropped, and no thread is polling it. -/
def ListenerRid (i : Nat) (a : Halting) : Prop :=
  ∃ c, a.run.chores[i]? = some c ∧ c.polling = false ∧ (c.over = true ∨ i ∈ a.deaf)

/-- The watchdog of machine `i` is gone: it has left its loop, or was dropped. -/
def DogRid (i : Nat) (a : Halting) : Prop :=
  ∃ c, a.run.chores[i]? = some c ∧ (c.dog = .done ∨ i ∈ a.loose)

/-- All background tasks are gone. -/
def AllRid (a : Halting) : Prop :=
  ∀ i, i < a.run.chores.length → ListenerRid i a ∧ DogRid i a

/-- A runtime that goes on for ever; what can be done is done. -/
structure Halts (workers : Nat) (ask : Nat → Nat → StatusPoll) (σ : Nat → Halting) : Prop where
  start : ∃ clock, σ 0 = Halting.start clock
  follows : Follows (Halting.Step workers ask) σ
  /-- a poll that has begun goes on -/
  polls : ∀ i, Fair (Halting.Step workers ask) (fun a a' => ListenerPolls i a.run a'.run) σ
  /-- a runtime that is being shut down turns to every task -/
  listeners : ∀ i, Fair (Halting.Step workers ask) (fun a a' => i ∉ a.deaf ∧ i ∈ a'.deaf) σ
  dogs : ∀ i, Fair (Halting.Step workers ask) (fun a a' => i ∉ a.loose ∧ i ∈ a'.loose) σ

end Binate.Spec
