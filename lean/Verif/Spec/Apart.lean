import Verif.Spec.Serial

/-! # Streams looked at one by one -/

namespace Binate.Spec

open RSocketMachine

/-- Where a frame belongs: the requests of one stream, or what belongs to no request. -/
def channel : Frame → Option U32
  | .requestFnf v => some v.streamId
  | _ => none

/-- The frames that belong to one stream, or to none. -/
def onChannel (c : Option U32) (l : List Frame) : List Frame := l.filter fun f => channel f == c

/-- The same frames in the same order on every stream, and the same in the same order that belong to no
stream. -/
def SameStreams (l l' : List Frame) : Prop := ∀ c, onChannel c l = onChannel c l'

/-- The answers of the connection to the frames of a stream do not depend on other streams. -/
def StreamsApart (tr : Transport) : Prop :=
  ∀ l l' f, onChannel (channel f) l = onChannel (channel f) l' → tr l f = tr l' f

/-- Executions in which the ids in use stay as they are, with the states passed through. -/
inductive CalmRun (dbg : Bool) (tr : Transport) (m : RSocketMachine) : List Conc → Conc → Prop where
  | init : CalmRun dbg tr m [] (Conc.init m)
  | step {past : List Conc} {s s' : Conc} : CalmRun dbg tr m past s → ConcStep dbg tr s s' →
      s'.machine.receivers = s.machine.receivers → CalmRun dbg tr m (s :: past) s'

/-- A call that has returned before another one is made comes before it in the order. -/
def KeepsOrder (past : List Conc) (order : List Nat) : Prop :=
  ∀ t ∈ past, ∃ before after, order = before ++ after ∧
    (∀ (k : Nat) r, (returns t)[k]? = some (some r) → k ∈ before) ∧
    ∀ k ∈ before, k < t.asked.length

end Binate.Spec
