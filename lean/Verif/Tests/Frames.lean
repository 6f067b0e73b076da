import Verif.Model.Access
import Verif.Model.Frame

/-! # The crate's own unit tests, run on the model: frames

These are tests of the model, not proofs of properties: each `#[test]` of the crate that does not
only concern Rust's type system is repeated on the model's definitions. The tests are run in a
debug build, as `cargo test` does. -/

namespace Binate.Tests

/-- The bytes of an ASCII string. -/
def str (s : String) : Bytes := s.toList.map fun c => BitVec.ofNat 8 c.toNat

/-- The common part of all `test_codec` functions: encode, check the length, eat stream id and
flags, check the frame type and the flags, decode, compare. -/
def testCodec {F : Type} [DecidableEq F] (new : Outcome F) (encode : F → Bytes → Outcome Bytes)
    (len : F → Nat) (decode : U32 → Flags → Dec Bytes F) (bufLen : Nat) (type : FrameType)
    (flags : Flags) : Bool :=
  match new with
  | .ok f =>
    match encode f [] with
    | .ok buf =>
      buf.length == bufLen &&
      match (eatStreamId : Dec Bytes U32) buf with
      | .ok sid buf =>
        match (eatFlags : Dec Bytes (FrameType × Flags)) buf with
        | .ok (ty, fl) buf =>
          ty == type && fl == flags &&
          match decode sid fl buf with
          | .ok g _ => decide (g = f) && len f == bufLen && len g == bufLen
          | _ => false
        | _ => false
      | _ => false
    | _ => false
  | _ => false

/-- `Payload::builder().set_metadata("metadata").set_data("data").build()` -/
def samplePayload : Payload :=
  PayloadBuilder.build [.setMetadata (str "metadata"), .setData (str "data")]

/-- cancel.rs:73-96 -/
example : testCodec (CancelFrame.new true 1#32) CancelFrame.encode CancelFrame.len
    CancelFrame.decode (4 + 2) .CANCEL .empty = true := by rfl

/-- keepalive.rs:127-129 -/
example : KeepaliveFrame.STREAM_ID = 0#32 := rfl

/-- keepalive.rs:132-159 -/
example : testCodec (KeepaliveFrame.new true 1#64 (some (str "data")) true) KeepaliveFrame.encode
    KeepaliveFrame.len KeepaliveFrame.decode (4 + 2 + 8 + 4) .KEEPALIVE Flags.RESPOND = true := by
  rfl

/-- lease.rs:127-129 -/
example : LeaseFrame.STREAM_ID = 0#32 := rfl

/-- lease.rs:132-159 -/
example : testCodec (LeaseFrame.new true 10#32 20#32 (some (str "metadata"))) LeaseFrame.encode
    LeaseFrame.len LeaseFrame.decode (4 + 2 + 4 + 4 + 8) .LEASE Flags.METADATA = true := by rfl

/-- metadata_push.rs:79-104 -/
example : testCodec (.ok (MetadataPushFrame.new (str "metadata"))) MetadataPushFrame.encode
    MetadataPushFrame.len MetadataPushFrame.decode (4 + 2 + 8) .METADATA_PUSH Flags.METADATA =
    true := by rfl

/-- payload.rs:129-163 -/
example : testCodec (PayloadFrame.new true 1#32 (Flags.FOLLOWS.union Flags.NEXT) samplePayload)
    PayloadFrame.encode PayloadFrame.len PayloadFrame.decode (4 + 2 + 3 + 8 + 4) .PAYLOAD
    ((Flags.METADATA.union Flags.FOLLOWS).union Flags.NEXT) = true := by rfl

/-- request_channel.rs:148-185 -/
example : testCodec (RequestChannelFrame.new true 1#32 true true 2#32 samplePayload)
    RequestChannelFrame.encode RequestChannelFrame.len RequestChannelFrame.decode
    (4 + 2 + 4 + 3 + 8 + 4) .REQUEST_CHANNEL
    ((Flags.METADATA.union Flags.FOLLOWS).union Flags.COMPLETE) = true := by rfl

/-- request_fnf.rs:113-147 -/
example : testCodec (RequestFnfFrame.new true 1#32 true samplePayload)
    RequestFnfFrame.encode RequestFnfFrame.len RequestFnfFrame.decode (4 + 2 + 3 + 8 + 4)
    .REQUEST_FNF (Flags.METADATA.union Flags.FOLLOWS) = true := by rfl

/-- request_n.rs:88-113 -/
example : testCodec (RequestNFrame.new true 1#32 2#32) RequestNFrame.encode RequestNFrame.len
    RequestNFrame.decode (4 + 2 + 4) .REQUEST_N .empty = true := by rfl

/-- request_response.rs:113-147 -/
example : testCodec (RequestResponseFrame.new true 1#32 true samplePayload)
    RequestResponseFrame.encode RequestResponseFrame.len RequestResponseFrame.decode
    (4 + 2 + 3 + 8 + 4) .REQUEST_RESPONSE (Flags.METADATA.union Flags.FOLLOWS) = true := by rfl

/-- request_stream.rs:132-168 -/
example : testCodec (RequestStreamFrame.new true 1#32 true 2#32 samplePayload)
    RequestStreamFrame.encode RequestStreamFrame.len RequestStreamFrame.decode
    (4 + 2 + 4 + 3 + 8 + 4) .REQUEST_STREAM (Flags.METADATA.union Flags.FOLLOWS) = true := by rfl

/-- resume.rs:140-173 -/
example : testCodec (ResumeFrame.new true (Version.new 1#16 0#16) (str "resume token") 1#64 2#64)
    ResumeFrame.encode ResumeFrame.len ResumeFrame.decode (4 + 2 + 4 + 2 + 12 + 8 + 8) .RESUME
    .empty = true := by rfl

/-- resume_ok.rs:81-106 -/
example : testCodec (ResumeOkFrame.new true 1#64) ResumeOkFrame.encode ResumeOkFrame.len
    ResumeOkFrame.decode (4 + 2 + 8) .RESUME_OK .empty = true := by rfl

/-- setup.rs:379-381 -/
example : SetupFrame.STREAM_ID = 0#32 := rfl

/-- setup.rs:384-434 -/
example : testCodec (SetupFrameBuilder.build true [
      .setVersion 1#16 0#16, .setKeepaliveInterval 1000#32, .setKeepaliveTimeout 2000#32,
      .setResumeFlag, .setLeaseFlag, .setResumeToken (str "resume token"),
      .setMetadataMimetype (str "application/json"), .setDataMimetype (str "application/binary"),
      .setMetadata (str "metadata"), .setData (str "data")])
    SetupFrame.encode SetupFrame.len SetupFrame.decode
    (4 + 2 + 4 + 4 + 4 + 2 + 12 + 1 + 16 + 1 + 18 + 3 + 8 + 4) .SETUP
    ((Flags.METADATA.union Flags.RESUME).union Flags.LEASE) = true := by rfl

/-- frame/mod.rs:186-188 -/
example : MAX_U31 = BitVec.allOnes 32 >>> 1 := by decide

/-- frame/mod.rs:191-193 -/
example : MAX_U63 = BitVec.allOnes 64 >>> 1 := by decide

/-- frame/mod.rs:196-212 -/
example : ∃ f buf, RequestFnfFrame.new true 1#32 true samplePayload = .ok f ∧
    f.encode [] = .ok buf ∧ (Frame.decode : Dec Bytes Frame) buf = .ok (.requestFnf f) [] :=
  ⟨_, _, rfl, rfl, rfl⟩

/-- flags.rs:223-255 -/
example : FrameType.fromValue 0x01#16 = some .SETUP ∧ FrameType.fromValue 0x02#16 = some .LEASE ∧
    FrameType.fromValue 0x03#16 = some .KEEPALIVE ∧
    FrameType.fromValue 0x04#16 = some .REQUEST_RESPONSE ∧
    FrameType.fromValue 0x05#16 = some .REQUEST_FNF ∧
    FrameType.fromValue 0x06#16 = some .REQUEST_STREAM ∧
    FrameType.fromValue 0x07#16 = some .REQUEST_CHANNEL ∧
    FrameType.fromValue 0x08#16 = some .REQUEST_N ∧ FrameType.fromValue 0x09#16 = some .CANCEL ∧
    FrameType.fromValue 0x0A#16 = some .PAYLOAD ∧ FrameType.fromValue 0x0B#16 = some .ERROR ∧
    FrameType.fromValue 0x0C#16 = some .METADATA_PUSH ∧
    FrameType.fromValue 0x0D#16 = some .RESUME ∧ FrameType.fromValue 0x0E#16 = some .RESUME_OK ∧
    FrameType.fromValue 0x3F#16 = some .EXT ∧ FrameType.fromValue 0x00#16 = none := by decide

/-- flags.rs:258-317 -/
example : FrameType.fromBits (0x01#16 <<< 10) = some .SETUP ∧
    FrameType.fromBits (0x02#16 <<< 10) = some .LEASE ∧
    FrameType.fromBits (0x03#16 <<< 10) = some .KEEPALIVE ∧
    FrameType.fromBits (0x04#16 <<< 10) = some .REQUEST_RESPONSE ∧
    FrameType.fromBits (0x05#16 <<< 10) = some .REQUEST_FNF ∧
    FrameType.fromBits (0x06#16 <<< 10) = some .REQUEST_STREAM ∧
    FrameType.fromBits (0x07#16 <<< 10) = some .REQUEST_CHANNEL ∧
    FrameType.fromBits (0x08#16 <<< 10) = some .REQUEST_N ∧
    FrameType.fromBits (0x09#16 <<< 10) = some .CANCEL ∧
    FrameType.fromBits (0x0A#16 <<< 10) = some .PAYLOAD ∧
    FrameType.fromBits (0x0B#16 <<< 10) = some .ERROR ∧
    FrameType.fromBits (0x0C#16 <<< 10) = some .METADATA_PUSH ∧
    FrameType.fromBits (0x0D#16 <<< 10) = some .RESUME ∧
    FrameType.fromBits (0x0E#16 <<< 10) = some .RESUME_OK ∧
    FrameType.fromBits (0x3F#16 <<< 10) = some .EXT ∧ FrameType.fromBits 0x00#16 = none := by decide

/-- flags.rs:320-322 -/
example : FrameType.SETUP.value = 0x01#16 := rfl

/-- flags.rs:325-327 -/
example : FrameType.SETUP.bits = 0b0000010000000000#16 := by decide

/-- u24.rs:68-75 -/
example : U24.MIN = 0#32 ∧ U24.MAX = 16777215#32 := by decide

/-- u24.rs:78-88 -/
example : (∃ u, U24.fromU32 U24.MAX = .ok u ∧ u.intoU32 = U24.MAX) ∧
    ∃ u, U24.fromUsize U24.MAX.toNat = .ok u ∧ u.intoUsize = U24.MAX.toNat :=
  ⟨⟨_, rfl, by decide⟩, _, rfl, by decide⟩

/-- u24.rs:90-100, should_panic -/
example : (∃ m, U24.fromU32 (U24.MAX + 1#32) = .panic m) ∧
    ∃ m, U24.fromUsize (U24.MAX.toNat + 1) = .panic m := ⟨⟨_, rfl⟩, _, rfl⟩

/-- visit.rs:122-152 -/
example :
    (eatFlags : Dec Bytes (FrameType × Flags))
      (putU16 [] ((0x2F#16 <<< 10) ||| Flags.METADATA.bits ||| Flags.IGNORE.bits |||
        Flags.RESUME.bits)) = .err (.unrecognizedFrameType 0x2F#16) [] ∧
    (eatFlags : Dec Bytes (FrameType × Flags))
      (putU16 [] (FrameType.SETUP.bits ||| Flags.METADATA.bits ||| Flags.IGNORE.bits |||
        Flags.RESUME.bits ||| 0b01#16 ||| 0b10#16)) =
      .ok (.SETUP, (Flags.METADATA.union Flags.IGNORE).union Flags.RESUME) [] := ⟨by rfl, by rfl⟩

end Binate.Tests
