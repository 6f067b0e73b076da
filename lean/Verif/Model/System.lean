import Verif.Model.Socket

/-! # A whole `RSocketMachine`: handles, requests, the two background tasks and the connection

`socket.rs` as one transition system in which everything that may run concurrently interleaves:
requests on any number of clones of the machine (`ConcStep`), `close()` by the user, the status
listener, the keepalive watchdog, and cloning and dropping of handles. `Arc<dyn DuplexConnection>`
is represented by its strong count. -/

namespace Binate

namespace RSocketMachine

/-- What is done to the connection or the log, in order. As in socket.rs:106, 112-113, 117, 159, 165,
173. -/
inductive Happening where
  /-- a frame is handed to the connection -/
  | frame (f : Frame)
  /-- a log line or `connection.close()` -/
  | act (a : Act)
deriving DecidableEq, Repr

/-- Where the watchdog task is (socket.rs:89-100). -/
inductive Dog where
  /-- line 91 -/
  | sleeping
  /-- inside `handle_connection_error` (lines 96, 111-114), the error is logged -/
  | timedOut
  /-- the task has ended (line 97) and its clone of the machine is dropped -/
  | stopped
deriving DecidableEq, Repr

/-- The state of the whole system. What socket.rs:45-103 makes, with the calls of socket.rs:105-107
and 148-174. -/
structure System where
  conc : Conc
  dog : Dog
  /-- when the watchdog's current sleep began -/
  slept : Nat
  /-- the status listener is in its loop (socket.rs:73-86) -/
  listening : Bool
  /-- clones of the machine that the user holds -/
  handles : Nat
  /-- strong count of `connection` -/
  strong : Nat
  /-- the connection was dropped -/
  released : Bool
  /-- current time -/
  clock : Nat
  happened : List Happening
  /-- number of `close()` calls by the user (ghost) -/
  userCloses : Nat
  /-- statuses that the listener has seen (ghost) -/
  seen : List ConnectionStatus

namespace System

/-- Dropping one `Arc` of the connection. The `Arc` is at socket.rs:34. -/
def release (s : System) : System :=
  { s with strong := s.strong - 1, released := s.released || s.strong == 1 }

/-- Something happens. As in socket.rs:106, 112-113, 117, 159, 165, 173. -/
def emit (s : System) (hs : List Happening) : System := { s with happened := s.happened ++ hs }

/-- The call holds a reference to its machine. The `&self` of socket.rs:148. -/
def busy : Call → Bool
  | .done .. => false
  | .panicked _ => false
  | _ => true

/-- socket.rs:45-103 `new`: the machine is made at `created`, the watchdog begins its first sleep at
`spawned`. The machine that is returned and the clones of the two tasks (lines 71, 88) share one
connection. -/
def new (role : Role) (keepaliveTimeout created spawned : Nat) : System :=
  { conc := Conc.init (RSocketMachine.new role keepaliveTimeout created)
    dog := .sleeping
    slept := spawned
    listening := true
    handles := 1
    strong := 3
    released := false
    clock := spawned
    happened := []
    userCloses := 0
    seen := [] }

/-- One step of the system. The code is socket.rs:71-107 and 148-174. -/
inductive Step (dbg : Bool) (tr : Transport) : System → System → Prop where
  /-- time passes -/
  | time (s : System) (now : Nat) : s.clock ≤ now → Step dbg tr s { s with clock := now }
  /-- a step of a request on some handle; `new` is what it hands to the connection -/
  | request (s : System) (c : Conc) (new : List Frame) : 0 < s.handles → ConcStep dbg tr s.conc c →
      c.wire = s.conc.wire ++ new →
      Step dbg tr s { s.emit (new.map .frame) with conc := c }
  /-- socket.rs:105-107 `close` -/
  | close (s : System) : 0 < s.handles →
      Step dbg tr s { s.emit [.act .close] with userCloses := s.userCloses + 1 }
  /-- socket.rs:91-95: the watchdog wakes and goes back to sleep -/
  | wakeEarly (s : System) : s.dog = .sleeping → s.slept + s.conc.machine.keepaliveTimeout ≤ s.clock →
      ¬ (s.clock - s.conc.machine.keepaliveLastReceived > s.conc.machine.keepaliveTimeout) →
      Step dbg tr s { s with slept := s.clock }
  /-- socket.rs:91-96, 112: the watchdog wakes and logs the timeout -/
  | wakeLate (s : System) : s.dog = .sleeping → s.slept + s.conc.machine.keepaliveTimeout ≤ s.clock →
      s.clock - s.conc.machine.keepaliveLastReceived > s.conc.machine.keepaliveTimeout →
      Step dbg tr s { s.emit ((handleError timeoutDisplay).map .act) with dog := .timedOut }
  /-- socket.rs:113, 97: the watchdog closes the connection and ends -/
  | dogCloses (s : System) : s.dog = .timedOut →
      Step dbg tr s { (s.emit [.act .close]).release with dog := .stopped }
  /-- socket.rs:73-84: the listener sees a status -/
  | status (s : System) (st : ConnectionStatus) : s.listening = true →
      Step dbg tr s { s.emit ((onStatus st).map .act) with seen := s.seen ++ [st] }
  /-- socket.rs:73, 86: the stream has ended, and so does the listener -/
  | statusEnd (s : System) : s.listening = true →
      Step dbg tr s { s.release with listening := false }
  /-- `#[derive(Clone)]` at socket.rs:30 -/
  | clone (s : System) : 0 < s.handles →
      Step dbg tr s { s with handles := s.handles + 1, strong := s.strong + 1 }
  /-- the user drops a handle; the last one cannot be dropped while a call borrows it -/
  | drop (s : System) : 0 < s.handles → (s.handles = 1 → ∀ c ∈ s.conc.calls, busy c = false) →
      Step dbg tr s { s.release with handles := s.handles - 1 }

/-- States reachable from a new machine. The machine is made by socket.rs:45-103. -/
inductive Reachable (dbg : Bool) (tr : Transport) (role : Role) (timeout created spawned : Nat) :
    System → Prop where
  | init : Reachable dbg tr role timeout created spawned (new role timeout created spawned)
  | step {s s' : System} : Reachable dbg tr role timeout created spawned s → Step dbg tr s s' →
      Reachable dbg tr role timeout created spawned s'

end System

end RSocketMachine

end Binate
