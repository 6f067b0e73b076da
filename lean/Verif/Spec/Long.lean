import Verif.Spec.Socket

/-! # Specification of long-lived machines -/

namespace Binate.Spec

open RSocketMachine

/-- The id that call `i` has. -/
def drawnId (s : Conc) (i : Nat) : Option U32 := s.calls[i]?.bind callId

/-- Call `i` is in progress. -/
def inProgress (s : Conc) (i : Nat) : Bool := s.calls[i]?.any running

/-- When a call drew its id, how many ids had been drawn before (`born`) and how many frames had been
sent (`mark`); how many frames had been sent when it returned, or until now (`stop`). -/
structure Span where
  born : Nat
  mark : Nat
  stop : Nat

/-- Executions of any length, with the span of each call, in which no call is in progress for so long
that more than 2^30 ids are drawn, its own included. -/
inductive LongRun (dbg : Bool) (tr : Transport) (m : RSocketMachine) :
    Conc → (Nat → Span) → Prop where
  | init {span : Nat → Span} : LongRun dbg tr m (Conc.init m) span
  | step {s s' : Conc} {span span' : Nat → Span} : LongRun dbg tr m s span → ConcStep dbg tr s s' →
      (∀ i, drawnId s i = none → drawnId s' i ≠ none →
        (span' i).born = s.draws ∧ (span' i).mark = s.wire.length) →
      (∀ i, drawnId s i ≠ none → (span' i).born = (span i).born ∧ (span' i).mark = (span i).mark) →
      (∀ i, inProgress s i = true → (span' i).stop = s'.wire.length) →
      (∀ i, inProgress s i = false → (span' i).stop = (span i).stop) →
      (∀ i, inProgress s' i = true → drawnId s' i ≠ none → s'.draws ≤ (span' i).born + 2 ^ 30) →
      LongRun dbg tr m s' span'

/-- The frames on stream `sid` that were sent while call `i` had its id and was in progress. -/
def during (s : Conc) (span : Nat → Span) (i : Nat) (sid : U32) : List Frame :=
  ((s.wire.take (span i).stop).drop (span i).mark).filter (onStream sid)

/-- Executions in which an id is only drawn while no other call in progress has one. -/
inductive Sequential (dbg : Bool) (tr : Transport) (m : RSocketMachine) : Conc → Prop where
  | init : Sequential dbg tr m (Conc.init m)
  | step {s s' : Conc} : Sequential dbg tr m s → ConcStep dbg tr s s' →
      (s'.draws = s.draws ∨ ∀ i, inProgress s' i = true → drawnId s' i ≠ none → drawnId s i = none) →
      Sequential dbg tr m s'

end Binate.Spec
