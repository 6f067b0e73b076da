import Verif.Model.System

/-! # A machine whose runtime is shut down

`runtime::spawn` (runtime.rs:6-10) hands the listener and the watchdog to `tokio`. When the runtime is shut
down, `tokio` drops its tasks where they wait: the listener in `next().await` (socket.rs:74), the watchdog in
`sleep().await` (socket.rs:91), or before they have begun. A task that runs is not interrupted; so the watchdog
is not dropped between the log line and `close` (socket.rs:112-113). Dropping a task drops its clone of the
machine. The handles of the user do not belong to the runtime. -/

namespace Binate

namespace RSocketMachine

/-- `System` on a runtime that may be shut down. The tasks are started at socket.rs:72 and 89. -/
structure Hosted where
  sys : System
  /-- the runtime is being shut down -/
  down : Bool
  /-- the watchdog was dropped by the runtime; `sys.dog` stays `sleeping` -/
  dogDropped : Bool

namespace Hosted

/-- socket.rs:45-103 `new`, as in `System.new`. -/
def new (role : Role) (keepaliveTimeout created spawned : Nat) : Hosted :=
  ⟨System.new role keepaliveTimeout created spawned, false, false⟩

/-- One step. The code is socket.rs:71-107 and 148-174. -/
inductive Step (dbg : Bool) (tr : Transport) : Hosted → Hosted → Prop where
  /-- a step of the system; a watchdog that was dropped takes none -/
  | run (h : Hosted) (s : System) : System.Step dbg tr h.sys s →
      (h.dogDropped = true → s.dog = h.sys.dog ∧ s.slept = h.sys.slept) →
      Step dbg tr h { h with sys := s }
  /-- the shutdown begins -/
  | shutdown (h : Hosted) : Step dbg tr h { h with down := true }
  /-- the runtime drops the watchdog (socket.rs:91) -/
  | dropDog (h : Hosted) : h.down = true → h.dogDropped = false → h.sys.dog = .sleeping →
      Step dbg tr h { h with sys := h.sys.release, dogDropped := true }
  /-- the runtime drops the listener (socket.rs:74) -/
  | dropListener (h : Hosted) : h.down = true → h.sys.listening = true →
      Step dbg tr h { h with sys := { h.sys.release with listening := false } }

/-- States reachable from a new machine. The machine is made by socket.rs:45-103. -/
inductive Reachable (dbg : Bool) (tr : Transport) (role : Role) (timeout created spawned : Nat) :
    Hosted → Prop where
  | init : Reachable dbg tr role timeout created spawned (new role timeout created spawned)
  | step {h h' : Hosted} : Reachable dbg tr role timeout created spawned h → Step dbg tr h h' →
      Reachable dbg tr role timeout created spawned h'

end Hosted

end RSocketMachine

end Binate
