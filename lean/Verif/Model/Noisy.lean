import Verif.Model.Hosted

/-! # A machine whose log lines may panic

`error!("{}", error)` (socket.rs:117 and 121) runs code that is not of the crate: the subscriber of `tracing`, and
`Display` of what the transport reports as an error. If it panics, the background task that logs ends, which
drops its clone of the machine; `tokio` catches the panic. The line is counted as not written. The user's
calls log nothing. -/

namespace Binate

namespace RSocketMachine

/-- `System` with a watchdog that may have panicked. The tasks are started at socket.rs:72 and 89. -/
structure Noisy where
  sys : System
  /-- the watchdog has ended with a panic at its log line; `sys.dog` stays `sleeping` -/
  dogPanicked : Bool

namespace Noisy

/-- socket.rs:45-103 `new`, as in `System.new`. -/
def new (role : Role) (keepaliveTimeout created spawned : Nat) : Noisy :=
  ⟨System.new role keepaliveTimeout created spawned, false⟩

/-- One step. The code is socket.rs:71-122 and 148-174. -/
inductive Step (dbg : Bool) (tr : Transport) : Noisy → Noisy → Prop where
  /-- a step of the system without a panic; a watchdog that has panicked takes none -/
  | run (h : Noisy) (s : System) : System.Step dbg tr h.sys s →
      (h.dogPanicked = true → s.dog = h.sys.dog ∧ s.slept = h.sys.slept) →
      Step dbg tr h { h with sys := s }
  /-- socket.rs:91-96, 112, 117: the watchdog finds the timeout and panics while it logs it -/
  | dogPanics (h : Noisy) : h.dogPanicked = false → h.sys.dog = .sleeping →
      h.sys.slept + h.sys.conc.machine.keepaliveTimeout ≤ h.sys.clock →
      h.sys.clock - h.sys.conc.machine.keepaliveLastReceived > h.sys.conc.machine.keepaliveTimeout →
      Step dbg tr h { sys := h.sys.release, dogPanicked := true }
  /-- socket.rs:74-82, 117, 121: the listener sees a status that it reports and panics while it logs it -/
  | listenerPanics (h : Noisy) (st : ConnectionStatus) : h.sys.listening = true → onStatus st ≠ [] →
      Step dbg tr h { h with sys := { h.sys.release with listening := false } }

/-- States reachable from a new machine. The machine is made by socket.rs:45-103. -/
inductive Reachable (dbg : Bool) (tr : Transport) (role : Role) (timeout created spawned : Nat) :
    Noisy → Prop where
  | init : Reachable dbg tr role timeout created spawned (new role timeout created spawned)
  | step {h h' : Noisy} : Reachable dbg tr role timeout created spawned h → Step dbg tr h h' →
      Reachable dbg tr role timeout created spawned h'

end Noisy

end RSocketMachine

end Binate
