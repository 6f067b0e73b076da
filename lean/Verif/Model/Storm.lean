import Verif.Model.WildSystem
import Verif.Model.Noisy

/-! # Everything that can go wrong, at once

A whole `RSocketMachine` as in `WildSystem`, over a connection that may panic in any call, whose log lines may
panic (as in `Noisy`) and whose runtime may be shut down (as in `Hosted`). -/

namespace Binate

namespace RSocketMachine

/-- `WildSystem` with a watchdog that may be gone. The tasks are started at socket.rs:72 and 89. -/
structure Storm where
  sys : WildSystem
  /-- the runtime is being shut down -/
  down : Bool
  /-- the watchdog was dropped with the runtime, or panicked at its log line; `sys.dog` stays `sleeping` -/
  dogGone : Bool

namespace Storm

/-- socket.rs:45-103 `new`, as in `System.new`. -/
def new (role : Role) (keepaliveTimeout created spawned : Nat) : Storm :=
  ⟨WildSystem.new role keepaliveTimeout created spawned, false, false⟩

/-- One step. The code is socket.rs:71-122 and 148-174. -/
inductive Step (dbg : Bool) (tr : WildTransport) : Storm → Storm → Prop where
  /-- a step of the system, in which the connection may panic; a watchdog that is gone takes none -/
  | run (h : Storm) (s : WildSystem) : WildSystem.Step dbg tr h.sys s →
      (h.dogGone = true → s.dog = h.sys.dog ∧ s.slept = h.sys.slept) →
      Step dbg tr h { h with sys := s }
  /-- the shutdown of the runtime begins -/
  | shutdown (h : Storm) : Step dbg tr h { h with down := true }
  /-- the runtime drops the watchdog (socket.rs:91) -/
  | dropDog (h : Storm) : h.down = true → h.dogGone = false → h.sys.dog = .sleeping →
      Step dbg tr h { h with sys := h.sys.release, dogGone := true }
  /-- the runtime drops the listener (socket.rs:74) -/
  | dropListener (h : Storm) : h.down = true → h.sys.listening = true →
      Step dbg tr h { h with sys := { h.sys.release with listening := false } }
  /-- socket.rs:91-96, 112, 117: the watchdog finds the timeout and panics while it logs it -/
  | dogPanics (h : Storm) : h.dogGone = false → h.sys.dog = .sleeping →
      h.sys.slept + h.sys.conc.machine.keepaliveTimeout ≤ h.sys.clock →
      h.sys.clock - h.sys.conc.machine.keepaliveLastReceived > h.sys.conc.machine.keepaliveTimeout →
      Step dbg tr h { h with sys := h.sys.release, dogGone := true }
  /-- socket.rs:74-82, 117, 121: the listener sees a status that it reports and panics while it logs it -/
  | listenerPanics (h : Storm) (st : ConnectionStatus) : h.sys.listening = true → onStatus st ≠ [] →
      Step dbg tr h { h with sys := { h.sys.release with listening := false } }

/-- States reachable from a new machine. The machine is made by socket.rs:45-103. -/
inductive Reachable (dbg : Bool) (tr : WildTransport) (role : Role) (timeout created spawned : Nat) :
    Storm → Prop where
  | init : Reachable dbg tr role timeout created spawned (new role timeout created spawned)
  | step {h h' : Storm} : Reachable dbg tr role timeout created spawned h → Step dbg tr h h' →
      Reachable dbg tr role timeout created spawned h'

end Storm

end RSocketMachine

end Binate
