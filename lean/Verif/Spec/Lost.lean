import Verif.Spec.Whim
import Verif.Spec.Closing
import Verif.Spec.Peer

/-! # What is lost when a connection is closed -/

namespace Binate.Spec

open RSocketMachine

/-- In `k` the connection was not closed yet; then it was, at which the execution went on to `h`. `happened` is
what happened to the connection. -/
structure ClosedSince {state : Type} (step : state → state → Prop) (happened : state → List Happening)
    (k h : state) : Prop where
  before : closesOf (happened k) = 0
  close : ∃ k', step k k' ∧ happened k' = happened k ++ [.act .close] ∧ Reached step k' h

/-- Of the buffers `bs` those on stream `sid` are the payload `p` if `got`, and there are none if not. -/
def GotIff (dbg : Bool) (bs : List Bytes) (sid : U32) (p : Payload) (got : Prop) : Prop :=
  (got → reassembled dbg (streamBuffers sid.toNat bs) = .ok (.ok (normPayload p))) ∧
  (¬ got → streamBuffers sid.toNat bs = [])

/-- Call number `i` had ended. -/
def HadEnded (calls : List Call) (i : Nat) : Prop := ∃ c, calls[i]? = some c ∧ Ended c

end Binate.Spec
