import Verif.Model.System
import Verif.Model.Unwind

/-! # A whole `RSocketMachine` over a connection that may panic

`System` once more, where `send`, `send_and_forget`, `close` and `connection_status` of the connection (or
the stream that the last one returns) may panic. A panic in a call by the user ends that call. A panic in a
background task ends the task, which drops its clone of the machine; `tokio` catches the panic, and nobody
asks for the outcome of the task (socket.rs:72, 89). Logging does not panic. -/

namespace Binate

namespace RSocketMachine

/-- As `System`. What socket.rs:45-103 makes, with the calls of socket.rs:105-107 and 148-174. -/
structure WildSystem where
  conc : WildConc
  dog : Dog
  /-- when the watchdog's current sleep began -/
  slept : Nat
  /-- the status listener is in its loop (socket.rs:73-86) -/
  listening : Bool
  /-- clones of the machine that the user holds -/
  handles : Nat
  /-- strong count of `connection` -/
  strong : Nat
  /-- the connection was dropped -/
  released : Bool
  /-- current time -/
  clock : Nat
  happened : List Happening
  /-- number of `close()` calls by the user (ghost) -/
  userCloses : Nat
  /-- how often `close` and `connection_status` have panicked (ghost) -/
  panics : Nat
  /-- statuses that the listener has seen (ghost) -/
  seen : List ConnectionStatus

namespace WildSystem

/-- Dropping one `Arc` of the connection. The `Arc` is at socket.rs:34. -/
def release (s : WildSystem) : WildSystem :=
  { s with strong := s.strong - 1, released := s.released || s.strong == 1 }

/-- Something happens. As in socket.rs:106, 112-113, 117, 159, 165, 173. -/
def emit (s : WildSystem) (hs : List Happening) : WildSystem :=
  { s with happened := s.happened ++ hs }

/-- socket.rs:45-103 `new`, as in `System.new`. -/
def new (role : Role) (keepaliveTimeout created spawned : Nat) : WildSystem :=
  { conc := WildConc.init (RSocketMachine.new role keepaliveTimeout created)
    dog := .sleeping
    slept := spawned
    listening := true
    handles := 1
    strong := 3
    released := false
    clock := spawned
    happened := []
    userCloses := 0
    panics := 0
    seen := [] }

/-- One step of the system. The code is socket.rs:71-107 and 148-174. -/
inductive Step (dbg : Bool) (tr : WildTransport) : WildSystem → WildSystem → Prop where
  /-- time passes -/
  | time (s : WildSystem) (now : Nat) : s.clock ≤ now → Step dbg tr s { s with clock := now }
  /-- a step of a request on some handle; `new` is what it hands to the connection -/
  | request (s : WildSystem) (c : WildConc) (new : List Frame) : 0 < s.handles →
      WildStep dbg tr s.conc c → c.wire = s.conc.wire ++ new →
      Step dbg tr s { s.emit (new.map .frame) with conc := c }
  /-- socket.rs:105-107 `close` -/
  | close (s : WildSystem) : 0 < s.handles →
      Step dbg tr s { s.emit [.act .close] with userCloses := s.userCloses + 1 }
  /-- socket.rs:106: the connection panics -/
  | closePanics (s : WildSystem) : 0 < s.handles →
      Step dbg tr s { s.emit [.act .close] with
        userCloses := s.userCloses + 1, panics := s.panics + 1 }
  /-- socket.rs:91-95: the watchdog wakes and goes back to sleep -/
  | wakeEarly (s : WildSystem) : s.dog = .sleeping →
      s.slept + s.conc.machine.keepaliveTimeout ≤ s.clock →
      ¬ (s.clock - s.conc.machine.keepaliveLastReceived > s.conc.machine.keepaliveTimeout) →
      Step dbg tr s { s with slept := s.clock }
  /-- socket.rs:91-96, 112: the watchdog wakes and logs the timeout -/
  | wakeLate (s : WildSystem) : s.dog = .sleeping →
      s.slept + s.conc.machine.keepaliveTimeout ≤ s.clock →
      s.clock - s.conc.machine.keepaliveLastReceived > s.conc.machine.keepaliveTimeout →
      Step dbg tr s { s.emit ((handleError timeoutDisplay).map .act) with dog := .timedOut }
  /-- socket.rs:113, 97: the watchdog closes the connection and ends -/
  | dogCloses (s : WildSystem) : s.dog = .timedOut →
      Step dbg tr s { (s.emit [.act .close]).release with dog := .stopped }
  /-- socket.rs:113: the connection panics in `close`; the panic ends the task -/
  | dogPanics (s : WildSystem) : s.dog = .timedOut →
      Step dbg tr s { (s.emit [.act .close]).release with dog := .stopped, panics := s.panics + 1 }
  /-- socket.rs:73-84: the listener sees a status -/
  | status (s : WildSystem) (st : ConnectionStatus) : s.listening = true →
      Step dbg tr s { s.emit ((onStatus st).map .act) with seen := s.seen ++ [st] }
  /-- socket.rs:73, 86: the stream has ended, and so does the listener -/
  | statusEnd (s : WildSystem) : s.listening = true →
      Step dbg tr s { s.release with listening := false }
  /-- socket.rs:74: `connection_status` or the stream panics; the panic ends the task -/
  | statusPanics (s : WildSystem) : s.listening = true →
      Step dbg tr s { s.release with listening := false, panics := s.panics + 1 }
  /-- `#[derive(Clone)]` at socket.rs:30 -/
  | clone (s : WildSystem) : 0 < s.handles →
      Step dbg tr s { s with handles := s.handles + 1, strong := s.strong + 1 }
  /-- the user drops a handle; the last one cannot be dropped while a call borrows it -/
  | drop (s : WildSystem) : 0 < s.handles →
      (s.handles = 1 → ∀ c ∈ s.conc.calls, System.busy c = false) →
      Step dbg tr s { s.release with handles := s.handles - 1 }

/-- States reachable from a new machine. The machine is made by socket.rs:45-103. -/
inductive Reachable (dbg : Bool) (tr : WildTransport) (role : Role) (timeout created spawned : Nat) :
    WildSystem → Prop where
  | init : Reachable dbg tr role timeout created spawned (new role timeout created spawned)
  | step {s s' : WildSystem} : Reachable dbg tr role timeout created spawned s → Step dbg tr s s' →
      Reachable dbg tr role timeout created spawned s'

end WildSystem

end RSocketMachine

end Binate
