import Verif.Spec.Owner
import Verif.Spec.Chunks
import Verif.Spec.StreamId

/-! # The order of frames of calls that do not overlap -/

namespace Binate.Spec

open RSocketMachine

/-- An execution that goes from one state to another. -/
inductive ConcSteps (dbg : Bool) (tr : Transport) : Conc → Conc → Prop where
  | refl (s : Conc) : ConcSteps dbg tr s s
  | step {s s' s'' : Conc} : ConcSteps dbg tr s s' → ConcStep dbg tr s' s'' → ConcSteps dbg tr s s''

/-- The log says which call sent which frame on the wire, in the order of the wire: the
METADATA_PUSH frames are those of the calls of `metadata_push` in the order of the calls, and what a
call of `fire_and_forget` has sent is a prefix of what it would send alone, all of it when it has
returned `Ok`. -/
structure Explains (dbg : Bool) (tr : Transport) (m : RSocketMachine) (s : Conc) (log : List Sent) :
    Prop where
  accounts : Accounts tr s.wire log
  owners : ∀ x ∈ log, ∀ i, x.owner = some i → i < s.calls.length
  payloads : s.calls.map callPayload = askedPayloads s.asked
  pushes : pushedBy log = (askedPushes s.asked).map fun p => (.metadataPush ⟨p.1⟩, p.2)
  none_yet : ∀ (i : Nat) c, s.calls[i]? = some c → callId c = none → sentBy i log = []
  own : ∀ (i : Nat) c, s.calls[i]? = some c → ∀ sid, callId c = some sid →
    ∃ frames, fnfSend dbg openTransport m.chunkPayload sid (callPayload c) [] =
        .ok (.ok (), frames) ∧
      (sentBy i log).map Sent.frame <+: frames ∧
      (callResult c = some (.ok ()) → (sentBy i log).map Sent.frame = frames)

end Binate.Spec
