import Verif.Model.Socket

/-! # The background tasks on the threads of a runtime

`runtime::spawn` hands a task to tokio (runtime.rs:5-11), which polls it on one of its worker threads. A poll goes on
until the task has to wait (the future that it awaits is pending) or ends; the worker thread can do nothing else
meanwhile. A runtime has one worker thread or more; with the features of tokio that the crate asks for (`rt`, but not
`rt-multi-thread`, Cargo.toml) it has one.

The status listener awaits the first item of a new stream in every round (socket.rs:72-74). It therefore goes on in
the same poll as long as these are there at once. What a stream says to a poll may depend on anything; all that
matters is the sequence of these answers.

Simplifications: a poll of the watchdog, and of any other task, is short and is one step. A clone of a machine and
what it holds is not tracked here (`Storm`, `Tended`). Nothing panics here (`WildSystem`, `Noisy`, `Storm`). Should tokio make a future pending that would be ready, in
order that other tasks have their turn (it does so with its own streams and channels only), then this counts as an
answer `pending` of the stream. -/

namespace Binate

open RSocketMachine

/-- What the poll of a status stream (conn.rs:34) returns: `Poll<Option<ConnectionStatus>>`. -/
inductive StatusPoll where
  | ready (item : Option ConnectionStatus)
  | pending
deriving DecidableEq, Repr

/-- The watchdog task (socket.rs:89-100): not polled yet, in its `sleep` (line 91) that began at `since`, or
done. -/
inductive DogTask where
  | fresh
  | sleeping (since : Nat)
  | done
deriving DecidableEq, Repr

/-- The two tasks of a machine (socket.rs:70-100). -/
structure Chores where
  /-- socket.rs:40 `keepalive_timeout` -/
  timeout : Nat
  /-- socket.rs:41 `keepalive_last_received` -/
  last : Nat
  /-- how often the listener has polled a status stream -/
  polls : Nat
  /-- a worker thread is polling the listener -/
  polling : Bool
  /-- the listener has left its loop -/
  over : Bool
  dog : DogTask
  /-- what the listener did -/
  heard : List Act
  /-- what the watchdog did -/
  barked : List Act
deriving DecidableEq, Repr

/-- A runtime, with the tasks of any number of machines (socket.rs:70-100) and others. -/
structure Workers where
  clock : Nat
  chores : List Chores
  /-- how often other tasks were polled -/
  others : Nat
deriving DecidableEq, Repr

namespace Workers

/-- A runtime that just started (runtime.rs:5-11). -/
def start (clock : Nat) : Workers := { clock, chores := [], others := 0 }

/-- The tasks of a new machine (socket.rs:66-67, 70-100). -/
def spawned (timeout last : Nat) : Chores :=
  { timeout, last, polls := 0, polling := false, over := false, dog := .fresh, heard := [], barked := [] }

/-- How many worker threads are occupied by a status listener (socket.rs:71-86). -/
def busy (r : Workers) : Nat := r.chores.countP (·.polling)

/-- The runtime after the tasks of machine `i` (socket.rs:70-100) changed to `c`. -/
def put (r : Workers) (i : Nat) (c : Chores) : Workers := { r with chores := r.chores.set i c }

/-- What happens on a runtime (runtime.rs:5-11) with so many worker threads. `ask i n` is what the `n`-th poll of a
status stream by the listener of machine `i` returns. -/
inductive Step (workers : Nat) (ask : Nat → Nat → StatusPoll) (r : Workers) : Workers → Prop where
  /-- time goes by -/
  | time : Step workers ask r { r with clock := r.clock + 1 }
  /-- some other task is polled -/
  | other (free : r.busy < workers) : Step workers ask r { r with others := r.others + 1 }
  /-- socket.rs:45-103: a new machine; `new` may be called on any thread that has entered the runtime -/
  | machine (timeout : Nat) : Step workers ask r { r with chores := r.chores ++ [spawned timeout r.clock] }
  /-- socket.rs:71: a worker thread begins to poll the listener -/
  | listens {i : Nat} {c : Chores} (at_ : r.chores[i]? = some c) (idle : c.polling = false)
      (on : c.over = false) (free : r.busy < workers) : Step workers ask r (r.put i { c with polling := true })
  /-- socket.rs:72-85: the stream has an item; the listener goes on with the next stream -/
  | hears {i : Nat} {c : Chores} {st : ConnectionStatus} (at_ : r.chores[i]? = some c)
      (polling : c.polling = true) (said : ask i c.polls = .ready (some st)) :
      Step workers ask r (r.put i { c with polls := c.polls + 1, heard := c.heard ++ onStatus st })
  /-- socket.rs:73: the stream is pending; the worker thread is free again -/
  | waits {i : Nat} {c : Chores} (at_ : r.chores[i]? = some c) (polling : c.polling = true)
      (said : ask i c.polls = .pending) :
      Step workers ask r (r.put i { c with polls := c.polls + 1, polling := false })
  /-- socket.rs:72, 86: the stream has ended, and the listener ends -/
  | ends {i : Nat} {c : Chores} (at_ : r.chores[i]? = some c) (polling : c.polling = true)
      (said : ask i c.polls = .ready none) :
      Step workers ask r (r.put i { c with polls := c.polls + 1, polling := false, over := true })
  /-- socket.rs:91: the watchdog is polled for the first time and begins to sleep -/
  | sleeps {i : Nat} {c : Chores} (at_ : r.chores[i]? = some c) (dog : c.dog = .fresh) (free : r.busy < workers) :
      Step workers ask r (r.put i { c with dog := .sleeping r.clock })
  /-- socket.rs:91-95: the watchdog wakes up too early and sleeps again -/
  | early {i : Nat} {c : Chores} {since : Nat} (at_ : r.chores[i]? = some c) (dog : c.dog = .sleeping since)
      (due : since + c.timeout ≤ r.clock) (soon : ¬ r.clock - c.last > c.timeout) (free : r.busy < workers) :
      Step workers ask r (r.put i { c with dog := .sleeping r.clock })
  /-- socket.rs:91-98: the watchdog wakes up, closes the connection, and ends -/
  | barks {i : Nat} {c : Chores} {since : Nat} (at_ : r.chores[i]? = some c) (dog : c.dog = .sleeping since)
      (due : since + c.timeout ≤ r.clock) (late : r.clock - c.last > c.timeout) (free : r.busy < workers) :
      Step workers ask r
        (r.put i { c with dog := .done, barked := c.barked ++ handleConnectionError timeoutDisplay })

end Workers

end Binate
