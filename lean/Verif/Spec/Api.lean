import Verif.Spec.WellFormed

/-! # Frames that the public API can build -/

namespace Binate.Spec

/-- `f` is the result of a public constructor call (or builder chain) that did not panic, in the
build profile `dbg`. -/
inductive Built (dbg : Bool) : Frame → Prop
  | setup {calls v} : SetupFrameBuilder.build dbg calls = .ok v → Built dbg (.setup v)
  | lease {ttl n m v} : LeaseFrame.new dbg ttl n m = .ok v → Built dbg (.lease v)
  | keepalive {p d r v} : KeepaliveFrame.new dbg p d r = .ok v → Built dbg (.keepalive v)
  | requestResponse {s fo p v} :
      RequestResponseFrame.new dbg s fo p = .ok v → Built dbg (.requestResponse v)
  | requestFnf {s fo p v} : RequestFnfFrame.new dbg s fo p = .ok v → Built dbg (.requestFnf v)
  | requestStream {s fo n p v} :
      RequestStreamFrame.new dbg s fo n p = .ok v → Built dbg (.requestStream v)
  | requestChannel {s fo c n p v} :
      RequestChannelFrame.new dbg s fo c n p = .ok v → Built dbg (.requestChannel v)
  | requestN {s n v} : RequestNFrame.new dbg s n = .ok v → Built dbg (.requestN v)
  | cancel {s v} : CancelFrame.new dbg s = .ok v → Built dbg (.cancel v)
  | payload {s fl p v} : FlagsOk fl → PayloadFrame.new dbg s fl p = .ok v → Built dbg (.payload v)
  | error {s c d v} : ErrorFrame.new dbg s c d = .ok v → Built dbg (.error v)
  | metadataPush {m} : Built dbg (.metadataPush (MetadataPushFrame.new m))
  | resume {ver t p q v} : ResumeFrame.new dbg ver t p q = .ok v → Built dbg (.resume v)
  | resumeOk {p v} : ResumeOkFrame.new dbg p = .ok v → Built dbg (.resumeOk v)

/-- The conditions for sending a frame that the constructors do not enforce: lengths fit their
length fields, the RESUME flag of SETUP agrees with the token, LEASE numbers have 31 bits, and the
stream id of ERROR agrees with its code. -/
def Sendable : Frame → Prop
  | .setup f =>
    f.resumeToken.isSome = f.flags.bits.toNat.testBit 6 ∧
    f.metadataMimetype.length ≤ 255 ∧ f.dataMimetype.length ≤ 255 ∧
    (optBytes f.payload.metadata).length < 2 ^ 24
  | .lease f => f.ttl.toNat < 2 ^ 31 ∧ f.numberOfRequests.toNat < 2 ^ 31
  | .error f =>
    (ConnectionCode f.code.toNat → f.streamId.toNat = 0) ∧
    (StreamCode f.code.toNat → f.streamId.toNat ≠ 0)
  | .resume f => f.resumeToken.length ≤ 65535
  | f => metaLen f < 2 ^ 24

end Binate.Spec
