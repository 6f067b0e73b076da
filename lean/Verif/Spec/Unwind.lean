import Verif.Model.Unwind
import Verif.Spec.Socket
import Verif.Spec.WellFormed

/-! # What is expected of a caught panic -/

namespace Binate.Spec

open RSocketMachine

/-- If the call panics, the state is as it was before. -/
def NothingDone {σ α : Type} (call : Mut σ α) (s : σ) : Prop :=
  ∀ m s', call s = .unwound m s' → s' = s

/-- The bytes of a frame before its payload and the length of its metadata. -/
def beforePayload (f : Frame) : Bytes :=
  match payloadOf f with
  | some p => (layout 16 f).take ((layout 16 f).length - (payloadBytes p).length)
  | none => []

/-- The transport that refuses with `e` what `tr` panics at. -/
def refusing (e : Error) (tr : WildTransport) : Transport := fun sent f =>
  match tr sent f with
  | .ok r => r
  | _ => .error e

/-- The last of the frames is one that `tr` panicked at. -/
def PanickedAt (tr : WildTransport) (sent : List Frame) (m : String) : Prop :=
  ∃ before f, sent = before ++ [f] ∧ tr before f = .panic m

/-- `tr` panicked at a frame of the stream. -/
def PanickedOn (tr : WildTransport) (wire : List Frame) (sid : U32) : Prop :=
  ∃ before f after msg, wire = before ++ f :: after ∧ onStream sid f = true ∧ tr before f = .panic msg

/-- The two calls are in the same state, or the first has panicked at a frame for which the second has
returned the error. -/
def SameCall (tr : WildTransport) (e : Error) (wire : List Frame) (c d : Call) : Prop :=
  c = d ∨ ∃ p sid, c = .panicked p ∧ d = .done p sid (.error e) ∧ PanickedOn tr wire sid

/-- What the user has called, with the error in place of a panic. -/
def calm (e : Error) : WildAsked → Asked
  | .fireAndForget p => .fireAndForget p
  | .metadataPush md r => .metadataPush md (r.getD (.error e))

/-- The two states are the same, apart from the calls that have panicked in the first and returned the
error in the second. -/
structure Alike (tr : WildTransport) (e : Error) (w : WildConc) (s : Conc) : Prop where
  machine : w.machine = s.machine
  wire : w.wire = s.wire
  draws : w.draws = s.draws
  asked : w.asked.map (calm e) = s.asked
  count : w.calls.length = s.calls.length
  calls : ∀ (i : Nat) c d, w.calls[i]? = some c → s.calls[i]? = some d → SameCall tr e s.wire c d

/-- The calls of `metadata_push`, with what each returned: `none` for a panic. -/
def wildPushes : List WildAsked → List (Bytes × Option (Except Error Unit))
  | [] => []
  | .fireAndForget _ :: rest => wildPushes rest
  | .metadataPush md r :: rest => (md, r) :: wildPushes rest

/-- The METADATA_PUSH frames handed over after `past`, with the answers: `none` for a panic. -/
def pushedFrom (tr : WildTransport) (past : List Frame) : List Frame →
    List (Bytes × Option (Except Error Unit))
  | [] => []
  | f :: rest =>
    match f with
    | .metadataPush v =>
      (v.metadata, match tr past f with | .ok r => some r | _ => none) :: pushedFrom tr (past ++ [f]) rest
    | _ => pushedFrom tr (past ++ [f]) rest

end Binate.Spec
