import Verif.Model.Basic

/-! # The shared request handler

Model of `RequestHanlder` (binate/src/connection/socket.rs:27-28, 59-61, 125-130): a handler behind
`Arc<RwLock<Box<dyn RSocket>>>`, replaced by the asynchronous function `set_request_handler`.

Simplifications.  `tokio::sync::RwLock` is not modelled from its source; what is used of it is its
documentation: it is fair, so that writers get the lock in the order in which they asked for it, one
at a time, and a caller that is dropped while it waits gives up its place or the lock it was just
given.  The code never reads the handler, so there are no readers.  A handler is represented by a
value of an arbitrary type `H`, and dropping a handler has no effect but to be recorded.  Tasks are
numbered by their calls: call `i` is the `i`-th call of `set_request_handler` that is polled. -/

namespace Binate

namespace RequestHanlder

/-- A call of `set_request_handler` that has been polled and has not returned: its number and the
handler that it holds. The call is socket.rs:126-129. -/
structure Call (H : Type) where
  number : Nat
  handler : H
  deriving Repr, DecidableEq

/-- The handler behind the lock and the calls of `set_request_handler` (socket.rs:27-28, 126). -/
structure State (H : Type) where
  /-- The content of the lock. -/
  current : H
  /-- The call that was given the lock (socket.rs:127) and has not run on since. -/
  holder : Option (Call H)
  /-- The calls that wait in `self.0.write().await` (socket.rs:127). -/
  queue : List (Call H)
  /-- How many calls have been made. -/
  calls : Nat
  /-- The handlers that were dropped. -/
  dropped : List H
  deriving Repr, DecidableEq

/-- The state that `RSocketMachine::new` makes, with the handler `dummy` (socket.rs:59-61). -/
def State.new {H : Type} (dummy : H) : State H := ⟨dummy, none, [], 0, []⟩

/-- What happened in a step. The code is socket.rs:126-129. -/
inductive Event (H : Type) where
  /-- `set_request_handler(handler)` is called and polled. -/
  | call (handler : H)
  /-- The lock is given to a waiting call. -/
  | grant
  /-- The call of this number assigns its handler and returns. -/
  | done (number : Nat) (handler : H)
  /-- The future of the call of this number is dropped before it returned. -/
  | cancel (number : Nat)
  deriving Repr, DecidableEq

/-- The steps. The code is socket.rs:126-129. -/
inductive Step {H : Type} : State H → Event H → State H → Prop where
  /-- socket.rs:127, the first poll: the call joins the queue of the lock. -/
  | call (s : State H) (h : H) :
      Step s (.call h) { s with queue := s.queue ++ [⟨s.calls, h⟩], calls := s.calls + 1 }
  /-- The lock is free and goes to the first in the queue. -/
  | grant (s : State H) (c : Call H) (rest : List (Call H)) :
      s.holder = none → s.queue = c :: rest →
      Step s .grant { s with holder := some c, queue := rest }
  /-- socket.rs:128-129: the old handler is dropped, the new one put in its place, and the guard
  `wtr` gives the lock back. -/
  | done (s : State H) (c : Call H) :
      s.holder = some c →
      Step s (.done c.number c.handler)
        { s with current := c.handler, holder := none, dropped := s.dropped ++ [s.current] }
  /-- The future is dropped while it waits. -/
  | cancelWaiting (s : State H) (front : List (Call H)) (c : Call H) (back : List (Call H)) :
      s.queue = front ++ c :: back →
      Step s (.cancel c.number)
        { s with queue := front ++ back, dropped := s.dropped ++ [c.handler] }
  /-- The future is dropped after it was given the lock and before it was polled again. -/
  | cancelHolding (s : State H) (c : Call H) :
      s.holder = some c →
      Step s (.cancel c.number)
        { s with holder := none, dropped := s.dropped ++ [c.handler] }

/-- Finite executions with the events that happened. The code is socket.rs:126-129. -/
inductive Run {H : Type} : State H → List (Event H) → State H → Prop where
  | nil (s : State H) : Run s [] s
  | snoc {s t u : State H} {es : List (Event H)} {e : Event H} :
      Run s es t → Step t e u → Run s (es ++ [e]) u

end RequestHanlder

end Binate
