import Verif.Model.Frame

/-! # The trait `Encode` (binate/src/frame/encode.rs) and everything that implements it -/

namespace Binate

/-- binate/src/frame/encode.rs:4-9: the two methods that an implementation has to give. `encode` appends
to the buffer it is given; it may panic. -/
class Encode (α : Type) where
  encode : α → Bytes → Outcome Bytes
  len : α → Nat

namespace Encode

/-- encode.rs:12-14 `is_empty`, which nothing in the crate overrides. -/
def isEmpty {α : Type} [Encode α] (v : α) : Bool := len v == 0

/-- encode.rs:20-24 `to_bytes`, which nothing in the crate overrides; see Model/Capacity.lean for the
capacity of the buffer. -/
def toBytes {α : Type} [Encode α] (v : α) : Outcome Bytes := encode v []

end Encode

/-- binate/src/frame/u24.rs:52-61. -/
instance : Encode U24 := ⟨fun v buf => .ok (v.encode buf), U24.len⟩

/-- binate/src/frame/version.rs:30-39. -/
instance : Encode Version := ⟨fun v buf => .ok (v.encode buf), Version.len⟩

/-- binate/src/payload.rs:166-187. -/
instance : Encode Payload := ⟨fun v buf => .ok (v.encode buf), Payload.len⟩

/-- binate/src/frame/mod.rs:65-103. -/
instance : Encode Frame := ⟨Frame.encode, Frame.len⟩

/-- binate/src/frame/codec/setup.rs:141-190. -/
instance : Encode SetupFrame := ⟨SetupFrame.encode, SetupFrame.len⟩

/-- binate/src/frame/codec/error.rs:145-168. -/
instance : Encode ErrorFrame := ⟨ErrorFrame.encode, ErrorFrame.len⟩

/-- binate/src/frame/codec/lease.rs:68-96. -/
instance : Encode LeaseFrame := ⟨LeaseFrame.encode, LeaseFrame.len⟩

/-- binate/src/frame/codec/keepalive.rs:70-96. -/
instance : Encode KeepaliveFrame := ⟨KeepaliveFrame.encode, KeepaliveFrame.len⟩

/-- binate/src/frame/codec/request_response.rs:74-93. -/
instance : Encode RequestResponseFrame := ⟨RequestResponseFrame.encode, RequestResponseFrame.len⟩

/-- binate/src/frame/codec/request_fnf.rs:74-93. -/
instance : Encode RequestFnfFrame := ⟨RequestFnfFrame.encode, RequestFnfFrame.len⟩

/-- binate/src/frame/codec/request_stream.rs:90-111. -/
instance : Encode RequestStreamFrame := ⟨RequestStreamFrame.encode, RequestStreamFrame.len⟩

/-- binate/src/frame/codec/request_channel.rs:101-122. -/
instance : Encode RequestChannelFrame := ⟨RequestChannelFrame.encode, RequestChannelFrame.len⟩

/-- binate/src/frame/codec/request_n.rs:55-68. -/
instance : Encode RequestNFrame := ⟨RequestNFrame.encode, RequestNFrame.len⟩

/-- binate/src/frame/codec/cancel.rs:43-54. -/
instance : Encode CancelFrame := ⟨CancelFrame.encode, CancelFrame.len⟩

/-- binate/src/frame/codec/payload.rs:90-109. -/
instance : Encode PayloadFrame := ⟨PayloadFrame.encode, PayloadFrame.len⟩

/-- binate/src/frame/codec/metadata_push.rs:46-59. -/
instance : Encode MetadataPushFrame := ⟨MetadataPushFrame.encode, MetadataPushFrame.len⟩

/-- binate/src/frame/codec/resume.rs:90-111. -/
instance : Encode ResumeFrame := ⟨ResumeFrame.encode, ResumeFrame.len⟩

/-- binate/src/frame/codec/resume_ok.rs:48-61. -/
instance : Encode ResumeOkFrame := ⟨ResumeOkFrame.encode, ResumeOkFrame.len⟩

end Binate
