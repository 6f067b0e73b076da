import Verif.Model.Workers
import Verif.Spec.Whim

/-! # Giving way to other tasks -/

namespace Binate.Spec

open RSocketMachine

/-- What the documentation promises of `connection_status` (conn.rs:32-33): a new stream has an item at once. The
listener makes a new stream at first and after every item. -/
def Published (answers : Nat → StatusPoll) : Prop :=
  (∃ st, answers 0 = .ready (some st)) ∧
    ∀ n st, answers n = .ready (some st) → ∃ st', answers (n + 1) = .ready (some st')

/-- Again and again there is nothing to be had from the stream for now, or it has ended. -/
def Relents (answers : Nat → StatusPoll) : Prop :=
  ∀ n, ∃ k, n ≤ k ∧ ∀ st, answers k ≠ .ready (some st)

/-- What the first polls of status streams had to offer: the items, with `none` for the end of a stream. -/
def offered (answers : Nat → StatusPoll) : Nat → List (Option ConnectionStatus)
  | 0 => []
  | n + 1 => offered answers n ++ match answers n with
    | .ready item => [item]
    | .pending => []

/-- A worker thread is occupied by the listener of machine `i`. -/
def Occupied (i : Nat) (r : Workers) : Prop :=
  ∃ c, r.chores[i]? = some c ∧ c.polling = true

/-- The watchdog of machine `i` has closed the connection. -/
def Barked (i : Nat) (r : Workers) : Prop :=
  ∃ c, r.chores[i]? = some c ∧ Act.close ∈ c.barked

/-- The listener of machine `i` polls a stream. -/
def ListenerPolls (i : Nat) (r r' : Workers) : Prop :=
  ∃ c c', r.chores[i]? = some c ∧ r'.chores[i]? = some c' ∧ c'.polls = c.polls + 1

/-- A worker thread begins to poll the listener of machine `i`. -/
def ListenerBegins (i : Nat) (r r' : Workers) : Prop :=
  ¬ Occupied i r ∧ Occupied i r'

/-- The watchdog of machine `i` begins to sleep, sleeps anew, or ends. -/
def DogTurns (i : Nat) (r r' : Workers) : Prop :=
  ∃ c c', r.chores[i]? = some c ∧ r'.chores[i]? = some c' ∧ c'.dog ≠ c.dog

/-- What can be done again and again is done at some time: a worker thread that becomes free again and again
will at some time turn to each task that waits for it. -/
def StronglyFair {α : Type} (step act : α → α → Prop) (σ : Nat → α) : Prop :=
  ∀ n, (∀ m, n ≤ m → ∃ k, m ≤ k ∧ ∃ s, step (σ k) s ∧ act (σ k) s) → ∃ k, n ≤ k ∧ act (σ k) (σ (k + 1))

/-- A runtime that goes on for ever. -/
structure Runs (workers : Nat) (ask : Nat → Nat → StatusPoll) (σ : Nat → Workers) : Prop where
  start : ∃ clock, σ 0 = Workers.start clock
  follows : Follows (Workers.Step workers ask) σ
  /-- a poll that has begun goes on -/
  polls : ∀ i, Fair (Workers.Step workers ask) (ListenerPolls i) σ
  /-- tasks that are ready are polled -/
  dogs : ∀ i, StronglyFair (Workers.Step workers ask) (DogTurns i) σ
  time : ∀ t, ∃ n, t ≤ (σ n).clock

end Binate.Spec
