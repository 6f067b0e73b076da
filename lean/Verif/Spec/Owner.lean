import Verif.Spec.Socket

/-! # Who sent which frame -/

namespace Binate.Spec

open RSocketMachine

/-- One frame handed to the transport: by which call of `fire_and_forget` (`none`: by a
`metadata_push`), and what the transport answered. -/
structure Sent where
  owner : Option Nat
  frame : Frame
  answer : Except Error Unit

/-- The log accounts for everything on the wire: its frames are those on the wire in their order, each
answer is what the transport answers after the frames before it, and only METADATA_PUSH frames belong
to no call. -/
structure Accounts (tr : Transport) (wire : List Frame) (log : List Sent) : Prop where
  frames : log.map Sent.frame = wire
  answers : ∀ before x after, log = before ++ x :: after →
    x.answer = tr (before.map Sent.frame) x.frame
  pushes : ∀ x ∈ log, x.owner = none ↔ ∃ md, x.frame = .metadataPush ⟨md⟩

/-- The payloads that `fire_and_forget` was called with, in order. -/
def askedPayloads (asked : List Asked) : List Payload :=
  asked.filterMap fun | .fireAndForget p => some p | .metadataPush .. => none

/-- What `metadata_push` was called with, in order, and what the calls returned. -/
def askedPushes (asked : List Asked) : List (Bytes × Except Error Unit) :=
  asked.filterMap fun | .fireAndForget _ => none | .metadataPush md a => some (md, a)

/-- What `metadata_push` has handed over, and the answers to it. -/
def pushedBy (log : List Sent) : List (Frame × Except Error Unit) :=
  (log.filter fun x => x.owner == none).map fun x => (x.frame, x.answer)

/-- What one call has handed over. -/
def sentBy (i : Nat) (log : List Sent) : List Sent := log.filter fun x => x.owner == some i

end Binate.Spec
