import Verif.Spec.Wire

/-! # The requirements on received frames that the documentation states

Every sentence with "MUST" in the doc comments of binate/src/frame/codec/*.rs that is about the
contents of one frame, as a predicate on the bytes received and the frame they were read as. -/

namespace Binate.Spec

/-- The documented requirements. -/
inductive Rule where
  /-- lease.rs:36, keepalive.rs:32, metadata_push.rs:29, resume.rs:40, resume_ok.rs:29,
  setup.rs:51: frames that pertain to the connection use stream id 0. -/
  | connectionStream
  /-- request_response.rs:33, request_fnf.rs:33, request_stream.rs:36, request_channel.rs:36,
  request_n.rs:33, cancel.rs:30, payload.rs:33, error.rs:111: stream ids have 31 bits. -/
  | streamIdWidth
  /-- lease.rs:42, request_stream.rs:38, request_channel.rs:40, request_n.rs:34, setup.rs:271,
  285: counts and times have 31 bits. -/
  | countWidth
  /-- keepalive.rs:40, resume.rs:46, resume_ok.rs:34: positions have 63 bits. -/
  | positionWidth
  /-- resume.rs:45: the token has at most 65,535 bytes. -/
  | tokenLength
  /-- error.rs:46-95: the stream id that goes with an error code. -/
  | errorStream
  /-- error.rs:111: error codes have 31 bits. -/
  | errorCodeWidth
  /-- request_n.rs:34: the number of items is not 0. -/
  | requestN
  /-- request_stream.rs:38, request_channel.rs:40: the initial number of items is not 0. -/
  | initialRequestN
  /-- setup.rs:271: the time between keepalive frames is not 0. -/
  | keepaliveInterval
  /-- setup.rs:285: the time after which the connection is given up is not 0. -/
  | keepaliveTimeout
  /-- payload.rs:40: a payload frame has the COMPLETE or the NEXT flag. -/
  | payloadKind
deriving DecidableEq, Repr

/-- The bytes `b`, received as the frame `f`, meet the requirement. -/
def Rule.Holds (b : Bytes) (f : Frame) : Rule → Prop
  | .connectionStream => match f with
    | .setup _ | .lease _ | .keepalive _ | .metadataPush _ | .resume _ | .resumeOk _ =>
      beVal (b.take 4) % 2 ^ 31 = 0
    | _ => True
  | .streamIdWidth => match f with
    | .requestResponse v => v.streamId.toNat < 2 ^ 31
    | .requestFnf v => v.streamId.toNat < 2 ^ 31
    | .requestStream v => v.streamId.toNat < 2 ^ 31
    | .requestChannel v => v.streamId.toNat < 2 ^ 31
    | .requestN v => v.streamId.toNat < 2 ^ 31
    | .cancel v => v.streamId.toNat < 2 ^ 31
    | .payload v => v.streamId.toNat < 2 ^ 31
    | .error v => v.streamId.toNat < 2 ^ 31
    | _ => True
  | .countWidth => match f with
    | .setup v => v.keepaliveInterval.toNat < 2 ^ 31 ∧ v.keepaliveTimeout.toNat < 2 ^ 31
    | .lease v => v.ttl.toNat < 2 ^ 31 ∧ v.numberOfRequests.toNat < 2 ^ 31
    | .requestStream v => v.initialRequestN.toNat < 2 ^ 31
    | .requestChannel v => v.initialRequestN.toNat < 2 ^ 31
    | .requestN v => v.requestN.toNat < 2 ^ 31
    | _ => True
  | .positionWidth => match f with
    | .keepalive v => v.lastReceivedPosition.toNat < 2 ^ 63
    | .resume v => v.lastReceivedServerPosition.toNat < 2 ^ 63 ∧
      v.firstAvailableClientPosition.toNat < 2 ^ 63
    | .resumeOk v => v.lastReceivedClientPosition.toNat < 2 ^ 63
    | _ => True
  | .tokenLength => match f with
    | .setup v => ∀ t, v.resumeToken = some t → t.length ≤ 65535
    | .resume v => v.resumeToken.length ≤ 65535
    | _ => True
  | .errorStream => match f with
    | .error v => (ConnectionCode v.code.toNat → v.streamId.toNat = 0) ∧
      (StreamCode v.code.toNat → 0 < v.streamId.toNat)
    | _ => True
  | .errorCodeWidth => match f with
    | .error v => v.code.toNat < 2 ^ 31
    | _ => True
  | .requestN => match f with
    | .requestN v => 0 < v.requestN.toNat
    | _ => True
  | .initialRequestN => match f with
    | .requestStream v => 0 < v.initialRequestN.toNat
    | .requestChannel v => 0 < v.initialRequestN.toNat
    | _ => True
  | .keepaliveInterval => match f with
    | .setup v => 0 < v.keepaliveInterval.toNat
    | _ => True
  | .keepaliveTimeout => match f with
    | .setup v => 0 < v.keepaliveTimeout.toNat
    | _ => True
  | .payloadKind => match f with
    | .payload v => v.flags.bits.toNat.testBit 5 ∨ v.flags.bits.toNat.testBit 4
    | _ => True

end Binate.Spec
