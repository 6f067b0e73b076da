import Verif.Model.Atomic
import Verif.Spec.StreamId

/-! # Specification: what it means for an execution to be sequential -/

namespace Binate.Spec

open Atomic StreamIdProvider

variable {ι : Type}

/-- The list contains every event once, and in an order that agrees with `R`. -/
structure Schedule (R : ι → ι → Prop) (order : List ι) : Prop where
  nodup : order.Nodup
  complete : ∀ e, e ∈ order
  agrees : order.Pairwise fun a b => ¬ R b a

/-- C++20 [atomics.order]: `a` is coherence-ordered before `b`, in one step. The total order of
`SeqCst` operations agrees with it. -/
def CoherenceOrdered (g : Graph ι) (a b : ι) : Prop :=
  g.Before (some a) (some b) ∨ g.rf b = some a ∨ (g.Before (g.rf a) (some b) ∧ a ≠ b)

/-- Step by step executions of callers of `next_stream_id` in which the given events happened in
the given order. Entering a call is not an event. -/
inductive Interleaving (p : StreamIdProvider) (store : Store) : List Event → Sys → Prop where
  | nil : Interleaving p store [] (Sys.init p store)
  | call {es : List Event} {s : Sys} (t : Nat) : Interleaving p store es s → s.pc t = .idle →
      Interleaving p store es (s.setPc t .probing)
  | draw {es : List Event} {s : Sys} (t : Nat) : Interleaving p store es s → s.pc t = .probing →
      Interleaving p store (es ++ [.draw t s.provider.draw.1])
        { (s.setPc t (.checking s.provider.draw.1)) with
          provider := s.provider.draw.2, drawn := s.provider.draw.1 :: s.drawn }
  | free {es : List Event} {s : Sys} (t : Nat) (sid : U32) : Interleaving p store es s →
      s.pc t = .checking sid → s.store sid = false →
      Interleaving p store (es ++ [.check t sid false])
        { (s.setPc t .idle) with returned := (t, sid, s.store) :: s.returned }
  | used {es : List Event} {s : Sys} (t : Nat) (sid : U32) : Interleaving p store es s →
      s.pc t = .checking sid → s.store sid = true →
      Interleaving p store (es ++ [.check t sid true]) (s.setPc t .probing)
  | insert {es : List Event} {s : Sys} (k : U32) : Interleaving p store es s →
      Interleaving p store (es ++ [.insert k])
        { s with store := fun x => if x = k then true else s.store x }
  | remove {es : List Event} {s : Sys} (k : U32) : Interleaving p store es s →
      Interleaving p store (es ++ [.remove k])
        { s with store := fun x => if x = k then false else s.store x }

/-- The id that the event hands out: a check that did not find its id ends the call. -/
def handedOut : Event → Option U32
  | .check _ sid false => some sid
  | _ => none

/-- The event draws an id from the counter. -/
def isDraw : Event → Bool
  | .draw _ _ => true
  | _ => false

end Binate.Spec
