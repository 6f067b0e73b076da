import Verif.Model.Codec

/-! # The `Frame` enum (binate/src/frame/mod.rs) -/

namespace Binate

/-- binate/src/frame/mod.rs:34-63 `Frame`. -/
inductive Frame where
  | setup (v : SetupFrame)
  | error (v : ErrorFrame)
  | lease (v : LeaseFrame)
  | keepalive (v : KeepaliveFrame)
  | requestResponse (v : RequestResponseFrame)
  | requestFnf (v : RequestFnfFrame)
  | requestStream (v : RequestStreamFrame)
  | requestChannel (v : RequestChannelFrame)
  | requestN (v : RequestNFrame)
  | cancel (v : CancelFrame)
  | payload (v : PayloadFrame)
  | metadataPush (v : MetadataPushFrame)
  | resume (v : ResumeFrame)
  | resumeOk (v : ResumeOkFrame)
deriving DecidableEq, Repr

namespace Frame

/-- frame/mod.rs:66-83 `Encode::encode`. -/
def encode : Frame → Bytes → Outcome Bytes
  | .setup v, buf => v.encode buf
  | .error v, buf => v.encode buf
  | .lease v, buf => v.encode buf
  | .keepalive v, buf => v.encode buf
  | .requestResponse v, buf => v.encode buf
  | .requestFnf v, buf => v.encode buf
  | .requestStream v, buf => v.encode buf
  | .requestChannel v, buf => v.encode buf
  | .requestN v, buf => v.encode buf
  | .cancel v, buf => v.encode buf
  | .payload v, buf => v.encode buf
  | .metadataPush v, buf => v.encode buf
  | .resume v, buf => v.encode buf
  | .resumeOk v, buf => v.encode buf

/-- frame/mod.rs:85-102 `Encode::len`. -/
def len : Frame → Nat
  | .setup v => v.len
  | .error v => v.len
  | .lease v => v.len
  | .keepalive v => v.len
  | .requestResponse v => v.len
  | .requestFnf v => v.len
  | .requestStream v => v.len
  | .requestChannel v => v.len
  | .requestN v => v.len
  | .cancel v => v.len
  | .payload v => v.len
  | .metadataPush v => v.len
  | .resume v => v.len
  | .resumeOk v => v.len

/-- binate/src/frame/encode.rs:12-14 `is_empty`, not overridden for frames. -/
def isEmpty (f : Frame) : Bool := f.len == 0

/-- binate/src/frame/encode.rs:20-24 `to_bytes`: encode into a fresh buffer. The requested
capacity `self.len()` has no effect on the contents (`BytesMut` grows on demand). -/
def toBytes (f : Frame) : Outcome Bytes := f.encode []

/-- frame/mod.rs:107-177 `Frame::decode`. -/
def decode {β : Type} [Buf β] : Dec β Frame := do
  let rem ← remainingD
  if rem < 6 then Dec.fail .inComplete
  else
    let streamId ← eatStreamId
    let (frameType, flags) ← eatFlags
    -- lines 113-128
    let connectionLevel : Bool := match frameType with
      | .SETUP | .LEASE | .KEEPALIVE | .METADATA_PUSH | .RESUME | .RESUME_OK => true
      | _ => false
    if connectionLevel && streamId != 0#32 then Dec.fail (.invalidStreamId "0" streamId)
    else
      -- lines 130-176
      match frameType with
      | .SETUP => do return Frame.setup (← SetupFrame.decode streamId flags)
      | .ERROR => do return Frame.error (← ErrorFrame.decode streamId flags)
      | .LEASE => do return Frame.lease (← LeaseFrame.decode streamId flags)
      | .KEEPALIVE => do return Frame.keepalive (← KeepaliveFrame.decode streamId flags)
      | .REQUEST_RESPONSE => do
        return Frame.requestResponse (← RequestResponseFrame.decode streamId flags)
      | .REQUEST_FNF => do return Frame.requestFnf (← RequestFnfFrame.decode streamId flags)
      | .REQUEST_STREAM => do
        return Frame.requestStream (← RequestStreamFrame.decode streamId flags)
      | .REQUEST_CHANNEL => do
        return Frame.requestChannel (← RequestChannelFrame.decode streamId flags)
      | .REQUEST_N => do return Frame.requestN (← RequestNFrame.decode streamId flags)
      | .CANCEL => do return Frame.cancel (← CancelFrame.decode streamId flags)
      | .PAYLOAD => do return Frame.payload (← PayloadFrame.decode streamId flags)
      | .METADATA_PUSH => do return Frame.metadataPush (← MetadataPushFrame.decode streamId flags)
      | .RESUME => do return Frame.resume (← ResumeFrame.decode streamId flags)
      | .RESUME_OK => do return Frame.resumeOk (← ResumeOkFrame.decode streamId flags)
      | .EXT => Dec.panic "not implemented"

end Frame

end Binate
