import Verif.Spec.Ascending

/-! # What a side of a connection may send

The rules of the RSocket protocol about the order of the frames that one side sends, as far as they do
not depend on what the other side sends: what a client begins with, who may use which stream ids, when
a stream id may be used for a request, and how a request that is sent in fragments goes on. -/

namespace Binate.Spec

/-- How far this side is with a stream of its own. -/
inductive Phase where
  /-- not begun, or over: a request may be sent -/
  | unused
  /-- a REQUEST_FNF was sent with the FOLLOWS flag: PAYLOAD frames with the rest come next -/
  | cutFnf
  /-- another request was sent with the FOLLOWS flag: PAYLOAD frames with the rest come next -/
  | cut
  /-- a whole request that the other side answers -/
  | asked
deriving DecidableEq, Repr

/-- What one has to remember of the frames that a side has sent. -/
structure Session where
  /-- whether the connection was opened -/
  greeted : Bool
  phase : Nat → Phase

/-- The stream is now in this phase. -/
def Session.put (s : Session) (id : Nat) (p : Phase) : Session :=
  { s with phase := fun x => if x = id then p else s.phase x }

/-- The FOLLOWS flag, bit 6. -/
def follows (fl : Flags) : Bool := fl.bits.toNat.testBit 6

/-- Stream ids that this side may use for its requests: 31 bits, not 0, odd for a client and even for
a server. -/
def ownId (role : Role) (id : Nat) : Bool := id != 0 && id < 2 ^ 31 && id % 2 == sideParity role

/-- A request on a stream id of one's own that is not in use. -/
def Session.request (role : Role) (s : Session) (id : Nat) (p : Phase) : Option Session :=
  if ownId role id = true ∧ s.phase id = .unused then some (s.put id p) else none

/-- Another frame on a stream: if it is one of one's own, the phase decides; the streams of the other
side depend on what that side sends. Stream 0 is none of these. -/
def Session.goOn (role : Role) (s : Session) (id : Nat) (step : Phase → Option Phase) :
    Option Session :=
  if id = 0 then none
  else if ownId role id = true then (step (s.phase id)).map (s.put id)
  else some s

/-- A frame on a connection that was opened. -/
def Session.after (role : Role) (s : Session) : Frame → Option Session
  | .setup _ => none
  | .resume _ => none
  | .resumeOk _ => if role = .server then some s else none
  | .lease _ => some s
  | .keepalive _ => some s
  | .metadataPush _ => some s
  | .requestFnf v => s.request role v.streamId.toNat (if follows v.flags then .cutFnf else .unused)
  | .requestResponse v => s.request role v.streamId.toNat (if follows v.flags then .cut else .asked)
  | .requestStream v => s.request role v.streamId.toNat (if follows v.flags then .cut else .asked)
  | .requestChannel v => s.request role v.streamId.toNat (if follows v.flags then .cut else .asked)
  | .payload v => s.goOn role v.streamId.toNat fun
    | .unused => none
    | .cutFnf => some (if follows v.flags then .cutFnf else .unused)
    | .cut => some (if follows v.flags then .cut else .asked)
    | .asked => some .asked
  | .requestN v => s.goOn role v.streamId.toNat fun
    | .asked => some .asked
    | _ => none
  | .cancel v => s.goOn role v.streamId.toNat fun
    | .unused => none
    | _ => some .unused
  | .error v => if v.streamId = 0#32 then some s else s.goOn role v.streamId.toNat fun
    | .unused => none
    | _ => some .unused

/-- A frame, and what to remember then; `none` if the frame is not allowed. A client opens the
connection with SETUP or RESUME, once and before anything else. -/
def Session.next (role : Role) (s : Session) (f : Frame) : Option Session :=
  if s.greeted then s.after role f
  else match f with
    | .setup _ => some { s with greeted := true }
    | .resume _ => some { s with greeted := true }
    | _ => none

/-- Frames one after the other. -/
def Session.run (role : Role) : Session → List Frame → Option Session
  | s, [] => some s
  | s, f :: fs => (s.next role f).bind fun s' => s'.run role fs

/-- Nothing was sent yet. Only a client has to open the connection. -/
def Session.start (role : Role) : Session :=
  { greeted := role == .server, phase := fun _ => .unused }

/-- This side may send these frames. -/
def Conforms (role : Role) (frames : List Frame) : Prop :=
  ∃ s, (Session.start role).run role frames = some s

/-- What opens the connection. -/
def Greeting : Role → List Frame → Prop
  | .client, g => (∃ v, g = [.setup v]) ∨ ∃ v, g = [.resume v]
  | .server, g => g = []

/-- No request frame comes on a stream after one with the FOLLOWS flag. -/
def NoneAfterFollows (frames : List Frame) : Prop :=
  ∀ before f rest, frames = before ++ f :: rest → ∀ sid, onStream sid f = true →
    ∀ g ∈ before, onStream sid g = true → followsOf g = some false

end Binate.Spec
