import Verif.Model.Handler

/-! # `set_request_handler` with handlers that panic when they are dropped

A handler is a `Box<dyn RSocket>`, whose destructor is code of the user and may panic. It runs in three
places: when the assignment `*wtr = handler` drops the old handler (socket.rs:128), and when the future of a
call is dropped that waits for the lock or was just given it (socket.rs:127).

What Rust does then: an assignment puts the new value in place even if dropping the old one panics, and
unwinding drops what is left of the frame, here the guard `wtr`; the lock of `tokio` is not poisoned. A
future that is dropped drops its other parts, here its place in the queue or the lock, even if one of them
panics. A handler whose destructor has panicked is gone and is not dropped again. -/

namespace Binate

namespace RequestHanlder

/-- What happened in a step, if handlers may panic. The code is socket.rs:126-129. -/
inductive WildEvent (H : Type) where
  /-- something without a panic -/
  | calm (e : Event H)
  /-- The call of this number ends with the panic of the handler that it replaces. -/
  | donePanics (number : Nat) (handler : H)
  /-- The future of the call of this number is dropped and its handler panics. -/
  | cancelPanics (number : Nat)
  deriving Repr, DecidableEq

/-- The steps, if handlers may panic. The code is socket.rs:126-129. -/
inductive WildStep {H : Type} : State H → WildEvent H → State H → Prop where
  /-- nothing panics -/
  | calm {s t : State H} {e : Event H} : Step s e t → WildStep s (.calm e) t
  /-- socket.rs:128-129: the old handler panics while it is dropped; the new one is put in its place and
  the guard `wtr` gives the lock back while the stack unwinds. -/
  | donePanics (s : State H) (c : Call H) :
      s.holder = some c →
      WildStep s (.donePanics c.number c.handler)
        { s with current := c.handler, holder := none, dropped := s.dropped ++ [s.current] }
  /-- socket.rs:127: the future is dropped while it waits. -/
  | cancelWaitingPanics (s : State H) (front : List (Call H)) (c : Call H) (back : List (Call H)) :
      s.queue = front ++ c :: back →
      WildStep s (.cancelPanics c.number)
        { s with queue := front ++ back, dropped := s.dropped ++ [c.handler] }
  /-- socket.rs:127: the future is dropped after it was given the lock and before it was polled again. -/
  | cancelHoldingPanics (s : State H) (c : Call H) :
      s.holder = some c →
      WildStep s (.cancelPanics c.number)
        { s with holder := none, dropped := s.dropped ++ [c.handler] }

/-- Finite executions with the events that happened. The code is socket.rs:126-129. -/
inductive WildRun {H : Type} : State H → List (WildEvent H) → State H → Prop where
  | nil (s : State H) : WildRun s [] s
  | snoc {s t u : State H} {es : List (WildEvent H)} {e : WildEvent H} :
      WildRun s es t → WildStep t e u → WildRun s (es ++ [e]) u

end RequestHanlder

end Binate
