import Verif.Model.Access
import Verif.Model.Utf8
import Verif.Spec.Ctor
import Verif.Spec.Builder
import Verif.Spec.Api

/-! # What a caller sees of a frame

The accessors of all frame types as one table, and what the caller of the constructor expects to
find in it. -/

namespace Binate.Spec

/-- The accessors. The two positions of RESUME are told apart, RESUME_OK has only one. -/
inductive Field where
  | streamId | ttl | numberOfRequests | lastReceivedPosition | initialRequestN | requestN
  | errorCode | version | resumeToken | serverPosition | clientPosition | position | metadata
  | data | payload
deriving DecidableEq

/-- What an accessor returns. Times are in milliseconds. -/
inductive Value where
  | number (n : Nat)
  | millis (n : Nat)
  | version (major minor : Nat)
  | bytes (b : Option Bytes)
  | both (metadata data : Option Bytes)
deriving DecidableEq

/-- The table of accessor results; `none` where the frame type has no such accessor. -/
def seen : Frame → Field → Option Value
  | .setup f, .version => some (.version f.getVersion.major.toNat f.getVersion.minor.toNat)
  | .setup f, .resumeToken => some (.bytes f.getResumeToken)
  | .setup f, .metadata => some (.bytes f.getMetadata)
  | .setup f, .data => some (.bytes f.getData)
  | .setup f, .payload => some (.both f.getPayload.metadata f.getPayload.data)
  | .lease f, .ttl => some (.millis f.getTtl.asMillis)
  | .lease f, .numberOfRequests => some (.number f.getNumberOfRequests.toNat)
  | .lease f, .metadata => some (.bytes f.getMetadata)
  | .keepalive f, .lastReceivedPosition => some (.number f.getLastReceivedPosition.toNat)
  | .keepalive f, .data => some (.bytes f.getData)
  | .requestResponse f, .streamId => some (.number f.getStreamId.toNat)
  | .requestResponse f, .metadata => some (.bytes f.getMetadata)
  | .requestResponse f, .data => some (.bytes f.getData)
  | .requestResponse f, .payload => some (.both f.getPayload.metadata f.getPayload.data)
  | .requestFnf f, .streamId => some (.number f.getStreamId.toNat)
  | .requestFnf f, .metadata => some (.bytes f.getMetadata)
  | .requestFnf f, .data => some (.bytes f.getRequestData)
  | .requestFnf f, .payload => some (.both f.getPayload.metadata f.getPayload.data)
  | .requestStream f, .streamId => some (.number f.getStreamId.toNat)
  | .requestStream f, .initialRequestN => some (.number f.getInitialRequestN.toNat)
  | .requestStream f, .metadata => some (.bytes f.getMetadata)
  | .requestStream f, .data => some (.bytes f.getData)
  | .requestStream f, .payload => some (.both f.getPayload.metadata f.getPayload.data)
  | .requestChannel f, .streamId => some (.number f.getStreamId.toNat)
  | .requestChannel f, .initialRequestN => some (.number f.getInitialRequestN.toNat)
  | .requestChannel f, .metadata => some (.bytes f.getMetadata)
  | .requestChannel f, .data => some (.bytes f.getData)
  | .requestChannel f, .payload => some (.both f.getPayload.metadata f.getPayload.data)
  | .requestN f, .streamId => some (.number f.getStreamId.toNat)
  | .requestN f, .requestN => some (.number f.getRequestN.toNat)
  | .cancel f, .streamId => some (.number f.getStreamId.toNat)
  | .payload f, .streamId => some (.number f.getStreamId.toNat)
  | .payload f, .metadata => some (.bytes f.getMetadata)
  | .payload f, .data => some (.bytes f.getData)
  | .payload f, .payload => some (.both f.getPayload.metadata f.getPayload.data)
  | .error f, .streamId => some (.number f.getStreamId.toNat)
  | .error f, .errorCode => some (.number f.getErrorCode.toNat)
  | .error f, .data => some (.bytes f.getData)
  | .metadataPush f, .metadata => some (.bytes (some f.getMetadata))
  | .resume f, .version => some (.version f.getVersion.major.toNat f.getVersion.minor.toNat)
  | .resume f, .resumeToken => some (.bytes (some f.getResumeToken))
  | .resume f, .serverPosition => some (.number f.getLastReceivedServerPosition.toNat)
  | .resume f, .clientPosition => some (.number f.getFirstAvailableClientPosition.toNat)
  | .resumeOk f, .position => some (.number f.getLastReceivedServerPosition.toNat)
  | _, _ => none

/-- The arguments of the constructor, under the names of the accessors. -/
def NewCall.given : NewCall → Field → Option Value
  | .lease t _ _, .ttl => some (.millis t.toNat)
  | .lease _ n _, .numberOfRequests => some (.number n.toNat)
  | .lease _ _ m, .metadata => some (.bytes m)
  | .keepalive p _ _, .lastReceivedPosition => some (.number p.toNat)
  | .keepalive _ d _, .data => some (.bytes d)
  | .requestResponse s _ _, .streamId => some (.number s.toNat)
  | .requestResponse _ _ p, .metadata => some (.bytes p.metadata)
  | .requestResponse _ _ p, .data => some (.bytes p.data)
  | .requestResponse _ _ p, .payload => some (.both p.metadata p.data)
  | .requestFnf s _ _, .streamId => some (.number s.toNat)
  | .requestFnf _ _ p, .metadata => some (.bytes p.metadata)
  | .requestFnf _ _ p, .data => some (.bytes p.data)
  | .requestFnf _ _ p, .payload => some (.both p.metadata p.data)
  | .requestStream s _ _ _, .streamId => some (.number s.toNat)
  | .requestStream _ _ n _, .initialRequestN => some (.number n.toNat)
  | .requestStream _ _ _ p, .metadata => some (.bytes p.metadata)
  | .requestStream _ _ _ p, .data => some (.bytes p.data)
  | .requestStream _ _ _ p, .payload => some (.both p.metadata p.data)
  | .requestChannel s _ _ _ _, .streamId => some (.number s.toNat)
  | .requestChannel _ _ _ n _, .initialRequestN => some (.number n.toNat)
  | .requestChannel _ _ _ _ p, .metadata => some (.bytes p.metadata)
  | .requestChannel _ _ _ _ p, .data => some (.bytes p.data)
  | .requestChannel _ _ _ _ p, .payload => some (.both p.metadata p.data)
  | .requestN s _, .streamId => some (.number s.toNat)
  | .requestN _ n, .requestN => some (.number n.toNat)
  | .cancel s, .streamId => some (.number s.toNat)
  | .payload s _ _, .streamId => some (.number s.toNat)
  | .payload _ _ p, .metadata => some (.bytes p.metadata)
  | .payload _ _ p, .data => some (.bytes p.data)
  | .payload _ _ p, .payload => some (.both p.metadata p.data)
  | .error s _ _, .streamId => some (.number s.toNat)
  | .error _ c _, .errorCode => some (.number c.toNat)
  | .error _ _ d, .data => some (.bytes d)
  | .metadataPush m, .metadata => some (.bytes (some m))
  | .resume v _ _ _, .version => some (.version v.major.toNat v.minor.toNat)
  | .resume _ t _ _, .resumeToken => some (.bytes (some t))
  | .resume _ _ p _, .serverPosition => some (.number p.toNat)
  | .resume _ _ _ q, .clientPosition => some (.number q.toNat)
  | .resumeOk p, .position => some (.number p.toNat)
  | _, _ => none

/-- The receiver cannot tell an empty part from an absent one. Tokens and the metadata of
METADATA_PUSH are always present. -/
def received (f : Field) (always : Bool) : Value → Value
  | .bytes b => if f = .resumeToken ∨ always then .bytes b else .bytes (normOpt b)
  | .both m d => .both (normOpt m) (normOpt d)
  | v => v

/-- The call makes a METADATA_PUSH frame. -/
def NewCall.isPush : NewCall → Bool
  | .metadataPush _ => true
  | _ => false

/-- The constant `TYPE` of the frame's Rust type, where it has one. -/
def typeConst : Frame → Option FrameType
  | .setup _ => some SetupFrame.TYPE
  | .keepalive _ => some KeepaliveFrame.TYPE
  | .requestResponse _ => some RequestResponseFrame.TYPE
  | .requestFnf _ => some RequestFnfFrame.TYPE
  | .requestStream _ => some RequestStreamFrame.TYPE
  | .requestChannel _ => some RequestChannelFrame.TYPE
  | .requestN _ => some RequestNFrame.TYPE
  | .cancel _ => some CancelFrame.TYPE
  | .payload _ => some PayloadFrame.TYPE
  | .error _ => some ErrorFrame.TYPE
  | .metadataPush _ => some MetadataPushFrame.TYPE
  | _ => none

/-- The constant `STREAM_ID` of the frame's Rust type, where it has one, otherwise its
`stream_id()`. -/
def idOf : Frame → U32
  | .setup _ => SetupFrame.STREAM_ID
  | .lease _ => LeaseFrame.STREAM_ID
  | .keepalive _ => KeepaliveFrame.STREAM_ID
  | .metadataPush _ => MetadataPushFrame.STREAM_ID
  | .resume _ => ResumeFrame.STREAM_ID
  | .resumeOk _ => ResumeOkFrame.STREAM_ID
  | .requestResponse f => f.getStreamId
  | .requestFnf f => f.getStreamId
  | .requestStream f => f.getStreamId
  | .requestChannel f => f.getStreamId
  | .requestN f => f.getStreamId
  | .cancel f => f.getStreamId
  | .payload f => f.getStreamId
  | .error f => f.getStreamId

/-- What the accessors of a SETUP frame show, in terms of the calls made on the builder; a part `x` of the
payload is shown as `part x`. -/
structure SetupSeen (part : Option Bytes → Option Bytes) (calls : List SetupCall) (g : SetupFrame) :
    Prop where
  version : g.getVersion = lastOr ⟨1, 0⟩ versionArg calls
  interval : g.getKeepaliveInterval.asMillis = (lastOr 30000#32 intervalArg calls).toNat % 2 ^ 31
  timeout : g.getKeepaliveTimeout.asMillis = (lastOr 60000#32 timeoutArg calls).toNat % 2 ^ 31
  token : g.getResumeToken = lastOr none tokenArg calls
  metadataMime : ∀ s : String, g.metadataMimetypeStr = some s ↔
    (∀ x ∈ lastOr defaultMime metadataMimeArg calls, x.toNat < 128) ∧
      s.toList.map Char.toNat = (lastOr defaultMime metadataMimeArg calls).map BitVec.toNat
  dataMime : ∀ s : String, g.dataMimetypeStr = some s ↔
    (∀ x ∈ lastOr defaultMime dataMimeArg calls, x.toNat < 128) ∧
      s.toList.map Char.toNat = (lastOr defaultMime dataMimeArg calls).map BitVec.toNat
  metadata : g.getMetadata = part (lastOr none metadataArg calls)
  data : g.getData = part (lastOr none dataArg calls)
  payload : g.getPayload = ⟨g.getMetadata, g.getData⟩
  isResume : g.isResume = calls.any setsResume
  isLease : g.isLease = calls.any setsLease

end Binate.Spec
