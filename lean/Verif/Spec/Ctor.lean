import Verif.Model.Access
import Verif.Spec.Need

/-! # The public constructors, seen from the caller -/

namespace Binate.Spec

/-- A call of one of the public `new` functions, with its arguments in the order of the Rust
signature. (SETUP has a builder instead, see `Spec/Builder`.) -/
inductive NewCall where
  | lease (ttl numberOfRequests : U32) (metadata : Option Bytes)
  | keepalive (lastReceivedPosition : U64) (data : Option Bytes) (respond : Bool)
  | requestResponse (streamId : U32) (follows : Bool) (payload : Payload)
  | requestFnf (streamId : U32) (follows : Bool) (payload : Payload)
  | requestStream (streamId : U32) (follows : Bool) (initialRequestN : U32) (payload : Payload)
  | requestChannel (streamId : U32) (follows complete : Bool) (initialRequestN : U32)
      (payload : Payload)
  | requestN (streamId requestN : U32)
  | cancel (streamId : U32)
  | payload (streamId : U32) (flags : Flags) (payload : Payload)
  | error (streamId errorCode : U32) (data : Option Bytes)
  | metadataPush (metadata : Bytes)
  | resume (version : Version) (token : Bytes) (serverPosition clientPosition : U64)
  | resumeOk (clientPosition : U64)

/-- The frame of an outcome, wrapped. -/
def wrap {α : Type} (k : α → Frame) : Outcome α → Outcome Frame
  | .ok a => .ok (k a)
  | .panic m => .panic m
  | .diverge => .diverge

/-- Making the call in build profile `dbg`. -/
def NewCall.run (dbg : Bool) : NewCall → Outcome Frame
  | .lease t n m => wrap .lease (LeaseFrame.new dbg t n m)
  | .keepalive p d r => wrap .keepalive (KeepaliveFrame.new dbg p d r)
  | .requestResponse s f p => wrap .requestResponse (RequestResponseFrame.new dbg s f p)
  | .requestFnf s f p => wrap .requestFnf (RequestFnfFrame.new dbg s f p)
  | .requestStream s f n p => wrap .requestStream (RequestStreamFrame.new dbg s f n p)
  | .requestChannel s f c n p => wrap .requestChannel (RequestChannelFrame.new dbg s f c n p)
  | .requestN s n => wrap .requestN (RequestNFrame.new dbg s n)
  | .cancel s => wrap .cancel (CancelFrame.new dbg s)
  | .payload s f p => wrap .payload (PayloadFrame.new dbg s f p)
  | .error s c d => wrap .error (ErrorFrame.new dbg s c d)
  | .metadataPush m => .ok (.metadataPush (MetadataPushFrame.new m))
  | .resume v t p q => wrap .resume (ResumeFrame.new dbg v t p q)
  | .resumeOk p => wrap .resumeOk (ResumeOkFrame.new dbg p)

/-- The call is a LEASE. -/
def NewCall.isLease : NewCall → Bool
  | .lease .. => true
  | _ => false

/-- The arguments documented as "MUST be <= MAX_U31". -/
def NewCall.args31 : NewCall → List Nat
  | .lease t n _ => [t.toNat, n.toNat]
  | .requestResponse s _ _ => [s.toNat]
  | .requestFnf s _ _ => [s.toNat]
  | .requestStream s _ n _ => [s.toNat, n.toNat]
  | .requestChannel s _ _ n _ => [s.toNat, n.toNat]
  | .requestN s n => [s.toNat, n.toNat]
  | .cancel s => [s.toNat]
  | .payload s _ _ => [s.toNat]
  | .error s c _ => [s.toNat, c.toNat]
  | _ => []

/-- The arguments documented as "MUST be <= MAX_U63". -/
def NewCall.args63 : NewCall → List Nat
  | .keepalive p _ _ => [p.toNat]
  | .resume _ _ p q => [p.toNat, q.toNat]
  | .resumeOk p => [p.toNat]
  | _ => []

/-- The arguments documented as "MUST be > 0". -/
def NewCall.argsPos : NewCall → List Nat
  | .requestStream _ _ n _ => [n.toNat]
  | .requestChannel _ _ _ n _ => [n.toNat]
  | .requestN _ n => [n.toNat]
  | _ => []

/-- All documented range requirements hold. -/
def NewCall.InRange (c : NewCall) : Prop :=
  (∀ a ∈ c.args31, a < 2 ^ 31) ∧ (∀ a ∈ c.args63, a < 2 ^ 63) ∧ (∀ a ∈ c.argsPos, 0 < a)

/-- What the frame's accessors return for the 31-bit arguments. -/
def values31 : Frame → List Nat
  | .lease f => [f.ttl.toNat, f.numberOfRequests.toNat]
  | .requestResponse f => [f.streamId.toNat]
  | .requestFnf f => [f.streamId.toNat]
  | .requestStream f => [f.streamId.toNat, f.initialRequestN.toNat]
  | .requestChannel f => [f.streamId.toNat, f.initialRequestN.toNat]
  | .requestN f => [f.streamId.toNat, f.requestN.toNat]
  | .cancel f => [f.streamId.toNat]
  | .payload f => [f.streamId.toNat]
  | .error f => [f.streamId.toNat, f.code.toNat]
  | _ => []

/-- What the frame's accessors return for the 63-bit arguments. -/
def values63 : Frame → List Nat
  | .keepalive f => [f.lastReceivedPosition.toNat]
  | .resume f => [f.lastReceivedServerPosition.toNat, f.firstAvailableClientPosition.toNat]
  | .resumeOk f => [f.lastReceivedClientPosition.toNat]
  | _ => []

/-- The optional byte arguments of the call and the version: everything that is stored as is. -/
def NewCall.blobs : NewCall → List (Option Bytes) × Option Version
  | .lease _ _ m => ([m], none)
  | .keepalive _ d _ => ([d], none)
  | .requestResponse _ _ p => ([p.metadata, p.data], none)
  | .requestFnf _ _ p => ([p.metadata, p.data], none)
  | .requestStream _ _ _ p => ([p.metadata, p.data], none)
  | .requestChannel _ _ _ _ p => ([p.metadata, p.data], none)
  | .requestN .. => ([], none)
  | .cancel .. => ([], none)
  | .payload _ _ p => ([p.metadata, p.data], none)
  | .error _ _ d => ([d], none)
  | .metadataPush m => ([some m], none)
  | .resume v t _ _ => ([some t], some v)
  | .resumeOk _ => ([], none)

/-- The same of the frame. -/
def blobsOf : Frame → List (Option Bytes) × Option Version
  | .setup f => ([f.payload.metadata, f.payload.data], some f.version)
  | .lease f => ([f.metadata], none)
  | .keepalive f => ([f.data], none)
  | .requestResponse f => ([f.payload.metadata, f.payload.data], none)
  | .requestFnf f => ([f.payload.metadata, f.payload.data], none)
  | .requestStream f => ([f.payload.metadata, f.payload.data], none)
  | .requestChannel f => ([f.payload.metadata, f.payload.data], none)
  | .requestN _ => ([], none)
  | .cancel _ => ([], none)
  | .payload f => ([f.payload.metadata, f.payload.data], none)
  | .error f => ([f.data], none)
  | .metadataPush f => ([some f.metadata], none)
  | .resume f => ([some f.resumeToken], some f.version)
  | .resumeOk _ => ([], none)

/-- The frame type number belonging to the call. -/
def NewCall.typeNumber : NewCall → Nat
  | .lease .. => 2
  | .keepalive .. => 3
  | .requestResponse .. => 4
  | .requestFnf .. => 5
  | .requestStream .. => 6
  | .requestChannel .. => 7
  | .requestN .. => 8
  | .cancel .. => 9
  | .payload .. => 10
  | .error .. => 11
  | .metadataPush .. => 12
  | .resume .. => 13
  | .resumeOk .. => 14

/-! ## Flags -/

/-- The `follows` argument, if the constructor has one (for PAYLOAD: bit 6 of the flags). -/
def NewCall.followsArg : NewCall → Option Bool
  | .requestResponse _ f _ => some f
  | .requestFnf _ f _ => some f
  | .requestStream _ f _ _ => some f
  | .requestChannel _ f _ _ _ => some f
  | .payload _ fl _ => some (fl.bits.toNat.testBit 6)
  | _ => none

/-- The `complete` argument (for PAYLOAD: bit 5 of the flags). -/
def NewCall.completeArg : NewCall → Option Bool
  | .requestChannel _ _ c _ _ => some c
  | .payload _ fl _ => some (fl.bits.toNat.testBit 5)
  | _ => none

/-- The `next` argument (bit 4 of the flags given to PAYLOAD). -/
def NewCall.nextArg : NewCall → Option Bool
  | .payload _ fl _ => some (fl.bits.toNat.testBit 4)
  | _ => none

/-- The `respond` argument. -/
def NewCall.respondArg : NewCall → Option Bool
  | .keepalive _ _ r => some r
  | _ => none

/-- Whether the caller passed metadata. -/
def NewCall.metadataGiven : NewCall → Bool
  | .lease _ _ m => m.isSome
  | .requestResponse _ _ p => p.metadata.isSome
  | .requestFnf _ _ p => p.metadata.isSome
  | .requestStream _ _ _ p => p.metadata.isSome
  | .requestChannel _ _ _ _ p => p.metadata.isSome
  | .payload _ _ p => p.metadata.isSome
  | .metadataPush _ => true
  | _ => false

/-- The `is_follows()` accessor of the frames that have it. -/
def isFollows? : Frame → Option Bool
  | .requestResponse f => some f.isFollows
  | .requestFnf f => some f.isFollows
  | .requestStream f => some f.isFollows
  | .requestChannel f => some f.isFollows
  | .payload f => some f.isFollows
  | _ => none

/-- The `is_complete()` accessor of the frames that have it. -/
def isComplete? : Frame → Option Bool
  | .requestChannel f => some f.isComplete
  | .payload f => some f.isComplete
  | _ => none

/-- The `is_next()` accessor. -/
def isNext? : Frame → Option Bool
  | .payload f => some f.isNext
  | _ => none

/-- The `is_respond()` accessor. -/
def isRespond? : Frame → Option Bool
  | .keepalive f => some f.isRespond
  | _ => none

/-- The codes that `ErrorFrame` documents as usable. -/
def DocumentedCode (c : Nat) : Prop :=
  ConnectionCode c ∨ StreamCode c ∨ (0x301 ≤ c ∧ c ≤ 0xFFFFFFFE)

/-- The stream id is one that the documentation of the code allows. -/
def LegalPair (sid c : Nat) : Prop :=
  sid < 2 ^ 31 ∧ (ConnectionCode c → sid = 0) ∧ (StreamCode c → sid ≠ 0)

end Binate.Spec
