import Verif.Model.Workers

/-! # The shutdown of a runtime with worker threads

`Workers` on a runtime that may be shut down. After the beginning of the shutdown no poll is begun any more; a poll
that is going on goes on, and the runtime drops a task only where the task waits (documentation of tokio). A machine
that is made during the shutdown has tasks that are never polled. This is `Workers` with no worker thread to begin
anything. -/

namespace Binate

/-- A runtime (runtime.rs:5-11) that may be shut down. -/
structure Halting where
  run : Workers
  /-- the shutdown has begun -/
  halting : Bool
  /-- the machines whose listener (socket.rs:71-86) the runtime has dropped -/
  deaf : List Nat
  /-- the machines whose watchdog (socket.rs:89-100) the runtime has dropped -/
  loose : List Nat
deriving DecidableEq, Repr

namespace Halting

/-- A runtime that just started (runtime.rs:5-11). -/
def start (clock : Nat) : Halting := { run := Workers.start clock, halting := false, deaf := [], loose := [] }

/-- What happens on a runtime (runtime.rs:5-11) with so many worker threads; `ask` as in `Workers.Step`. -/
inductive Step (workers : Nat) (ask : Nat → Nat → StatusPoll) (a : Halting) : Halting → Prop where
  /-- before the shutdown -/
  | runs {r : Workers} (before : a.halting = false) (step : Workers.Step workers ask a.run r) :
      Step workers ask a { a with run := r }
  /-- the shutdown begins -/
  | halt (before : a.halting = false) : Step workers ask a { a with halting := true }
  /-- a poll that was begun goes on, a machine is made, or time goes by -/
  | goesOn {r : Workers} (after : a.halting = true) (step : Workers.Step 0 ask a.run r) :
      Step workers ask a { a with run := r }
  /-- socket.rs:73: the listener is dropped where it waits, with its clone of the machine (line 70) -/
  | dropsListener {i : Nat} {c : Chores} (after : a.halting = true) (at_ : a.run.chores[i]? = some c)
      (idle : c.polling = false) (on : c.over = false) (there : i ∉ a.deaf) :
      Step workers ask a { a with deaf := i :: a.deaf }
  /-- socket.rs:91: the watchdog is dropped where it waits, with its clone of the machine (line 88) -/
  | dropsDog {i : Nat} {c : Chores} (after : a.halting = true) (at_ : a.run.chores[i]? = some c)
      (on : c.dog ≠ .done) (there : i ∉ a.loose) : Step workers ask a { a with loose := i :: a.loose }

end Halting

end Binate
