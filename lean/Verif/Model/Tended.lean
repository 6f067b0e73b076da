import Verif.Model.Storm
import Verif.Model.WildHandler

/-! # A whole `RSocketMachine` with its request handler

`Storm` and the lock of `WildHandler`. The lock is behind an `Arc` that every clone of the machine has
(socket.rs:28, 35), the two of the background tasks included, as the connection is (socket.rs:34). A clone that is
dropped drops its fields in their order, so first its `Arc` of the connection and later that of the lock; other
threads may do anything in between. The lock is dropped with its last `Arc`, and the handler in it too. A call of
`set_request_handler` borrows the handle that it is made on, so that the last handle is not dropped while a call is
pending.

Simplifications: nobody keeps a clone of the field `request_handler` apart from a machine; the code has none. A
destructor that panics while another panic unwinds aborts the process; such executions are left out after the
abort. -/

namespace Binate

namespace RSocketMachine

/-- A machine (socket.rs:31-42) and its request handler. -/
structure Tended (H : Type) where
  storm : Storm
  lock : RequestHanlder.State H
  /-- strong count of `request_handler` -/
  refs : Nat
  /-- clones of the machine that are being dropped: their connection is, their request handler not yet -/
  falling : Nat
  /-- the lock was dropped -/
  gone : Bool
  /-- what happened to the lock (ghost) -/
  events : List (RequestHanlder.WildEvent H)
  /-- the handler in place panicked when it was dropped with the lock (ghost) -/
  unwound : Bool
  /-- the connection panicked when it was dropped (ghost) -/
  connUnwound : Bool

namespace Tended

/-- socket.rs:45-103 `new`, with the handler `dummy` (socket.rs:59-61). -/
def new {H : Type} (dummy : H) (role : Role) (keepaliveTimeout created spawned : Nat) : Tended H :=
  { storm := Storm.new role keepaliveTimeout created spawned
    lock := .new dummy
    refs := 3
    falling := 0
    gone := false
    events := []
    unwound := false
    connUnwound := false }

/-- No call of `set_request_handler` is pending (socket.rs:126-129). -/
def idle {H : Type} (a : Tended H) : Prop := a.lock.holder = none ∧ a.lock.queue = []

/-- A clone of the machine that is being dropped drops its `Arc` of the lock (socket.rs:28, 35), and the lock
with it if it is the last. -/
def letGo {H : Type} (a : Tended H) : Tended H :=
  { a with
    falling := a.falling - 1
    refs := a.refs - 1
    gone := a.gone || a.refs == 1
    lock := if a.refs = 1 then { a.lock with dropped := a.lock.dropped ++ [a.lock.current] } else a.lock }

/-- One step. The code is socket.rs:71-130 and 148-174. -/
inductive Step {H : Type} (dbg : Bool) (tr : WildTransport) : Tended H → Tended H → Prop where
  /-- a step of the machine; a new clone of it has its own `Arc` of the lock, and one that drops its `Arc` of
  the connection drops that of the lock next -/
  | machine (a : Tended H) (h : Storm) : Storm.Step dbg tr a.storm h → (h.sys.handles = 0 → a.idle) →
      Step dbg tr a { a with
        storm := h
        refs := a.refs + (h.sys.strong - a.storm.sys.strong)
        falling := a.falling + (a.storm.sys.strong - h.sys.strong) }
  /-- the same, it drops the connection, and that panics; the other fields are dropped all the same
  (socket.rs:31-42) -/
  | machinePanics (a : Tended H) (h : Storm) : Storm.Step dbg tr a.storm h → (h.sys.handles = 0 → a.idle) →
      a.storm.sys.released = false → h.sys.released = true →
      Step dbg tr a { a with
        storm := h
        refs := a.refs + (h.sys.strong - a.storm.sys.strong)
        falling := a.falling + (a.storm.sys.strong - h.sys.strong)
        connUnwound := true }
  /-- a clone drops its `Arc` of the lock (socket.rs:35) -/
  | letGo (a : Tended H) : 0 < a.falling → Step dbg tr a a.letGo
  /-- the same, it is the last, and the handler panics when it is dropped (socket.rs:28, 35) -/
  | letGoPanics (a : Tended H) : 0 < a.falling → a.refs = 1 →
      Step dbg tr a { a.letGo with unwound := true }
  /-- a step of `set_request_handler` on some handle (socket.rs:126-129) -/
  | handler (a : Tended H) (e : RequestHanlder.WildEvent H) (l : RequestHanlder.State H) :
      0 < a.storm.sys.handles → RequestHanlder.WildStep a.lock e l →
      Step dbg tr a { a with lock := l, events := a.events ++ [e] }

/-- States reachable from a new machine. The machine is made by socket.rs:45-103. -/
inductive Reachable {H : Type} (dbg : Bool) (tr : WildTransport) (dummy : H) (role : Role)
    (timeout created spawned : Nat) : Tended H → Prop where
  | init : Reachable dbg tr dummy role timeout created spawned (new dummy role timeout created spawned)
  | step {a a' : Tended H} : Reachable dbg tr dummy role timeout created spawned a → Step dbg tr a a' →
      Reachable dbg tr dummy role timeout created spawned a'

end Tended

end RSocketMachine

end Binate
