import Verif.Spec.Buf
import Verif.Spec.Need
import Verif.Spec.Small

/-! # Calling `X::decode(buf, stream_id, flags)` of a single frame type

The trait `Decode` (binate/src/frame/decode.rs:6-18) is public, and so are its 14 implementations:
a caller may pass any stream id and flags. -/

namespace Binate.Spec

/-- The call `X::decode(buf, stream_id, flags)` with `X` named by its frame type. There is none for
`EXT`. -/
def directDecode {β : Type} [Buf β] (frameType : FrameType) (streamId : U32) (flags : Flags) :
    Dec β Frame :=
  match frameType with
  | .SETUP => do return Frame.setup (← SetupFrame.decode streamId flags)
  | .ERROR => do return Frame.error (← ErrorFrame.decode streamId flags)
  | .LEASE => do return Frame.lease (← LeaseFrame.decode streamId flags)
  | .KEEPALIVE => do return Frame.keepalive (← KeepaliveFrame.decode streamId flags)
  | .REQUEST_RESPONSE => do
    return Frame.requestResponse (← RequestResponseFrame.decode streamId flags)
  | .REQUEST_FNF => do return Frame.requestFnf (← RequestFnfFrame.decode streamId flags)
  | .REQUEST_STREAM => do
    return Frame.requestStream (← RequestStreamFrame.decode streamId flags)
  | .REQUEST_CHANNEL => do
    return Frame.requestChannel (← RequestChannelFrame.decode streamId flags)
  | .REQUEST_N => do return Frame.requestN (← RequestNFrame.decode streamId flags)
  | .CANCEL => do return Frame.cancel (← CancelFrame.decode streamId flags)
  | .PAYLOAD => do return Frame.payload (← PayloadFrame.decode streamId flags)
  | .METADATA_PUSH => do return Frame.metadataPush (← MetadataPushFrame.decode streamId flags)
  | .RESUME => do return Frame.resume (← ResumeFrame.decode streamId flags)
  | .RESUME_OK => do return Frame.resumeOk (← ResumeOkFrame.decode streamId flags)
  | .EXT => Dec.panic "no such frame"

/-- The stream id a frame stores, if its kind has one. -/
def storedId : Frame → Option U32
  | .requestResponse v => some v.streamId
  | .requestFnf v => some v.streamId
  | .requestStream v => some v.streamId
  | .requestChannel v => some v.streamId
  | .requestN v => some v.streamId
  | .cancel v => some v.streamId
  | .payload v => some v.streamId
  | .error v => some v.streamId
  | _ => none

/-- The flags a frame stores, if its kind does. -/
def storedFlags : Frame → Option Flags
  | .setup v => some v.flags
  | .requestResponse v => some v.flags
  | .requestFnf v => some v.flags
  | .requestStream v => some v.flags
  | .requestChannel v => some v.flags
  | .payload v => some v.flags
  | _ => none

/-- The frame types whose own decoder checks that the stream id is 0. -/
def ChecksId : FrameType → Prop
  | .LEASE | .KEEPALIVE => True
  | _ => False

end Binate.Spec
