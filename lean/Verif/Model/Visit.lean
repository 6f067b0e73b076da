import Verif.Model.Buf
import Verif.Model.Types

/-! # Decoding primitives (binate/src/frame/visit.rs) -/

namespace Binate

variable {β : Type} [Buf β]

/-- visit.rs:6-12 `incomplete_if_less_than!`. -/
def incompleteIfLessThan (len : Nat) : Dec β Unit := fun b =>
  if BufCore.remaining b < len then .err .inComplete b else .ok () b

/-- `buf.remaining()` inside a decoder. As in visit.rs:9, 96. -/
def remainingD : Dec β Nat := fun b => .ok (BufCore.remaining b) b

/-- visit.rs:14-19 `eat_stream_id`. -/
def eatStreamId : Dec β U32 := do
  incompleteIfLessThan 4
  let streamId ← Dec.lift BufCore.getU32
  return streamId &&& MAX_U31

/-- visit.rs:21-33 `eat_flags`. -/
def eatFlags : Dec β (FrameType × Flags) := do
  incompleteIfLessThan 2
  let flags ← Dec.lift BufCore.getU16
  let ft := flags >>> 10
  match FrameType.fromBits flags with
  | none => Dec.fail (.unrecognizedFrameType ft)
  | some frameType => return (frameType, Flags.fromBitsTruncate flags)

/-- visit.rs:35-41 `eat_version`. -/
def eatVersion : Dec β Version := do
  incompleteIfLessThan 4
  let major ← Dec.lift BufCore.getU16
  let minor ← Dec.lift BufCore.getU16
  return Version.new major minor

/-- visit.rs:43-47 `eat_u8` (the code really requires two remaining bytes). -/
def eatU8 : Dec β U8 := do
  incompleteIfLessThan 2
  Dec.lift BufCore.getU8

/-- visit.rs:49-53 `eat_u16`. -/
def eatU16 : Dec β U16 := do
  incompleteIfLessThan 2
  Dec.lift BufCore.getU16

/-- visit.rs:55-59 `eat_u24`. -/
def eatU24 : Dec β U24 := do
  let high ← eatU8
  let low ← eatU16
  return U24.new high low

/-- visit.rs:61-65 `eat_u31`. -/
def eatU31 : Dec β U32 := do
  incompleteIfLessThan 4
  let x ← Dec.lift BufCore.getU32
  return x &&& MAX_U31

/-- visit.rs:67-71 `eat_u32`. -/
def eatU32 : Dec β U32 := do
  incompleteIfLessThan 4
  Dec.lift BufCore.getU32

/-- visit.rs:73-77 `eat_u63`. -/
def eatU63 : Dec β U64 := do
  incompleteIfLessThan 8
  let x ← Dec.lift BufCore.getU64
  return x &&& MAX_U63

/-- visit.rs:79-83 `eat_bytes`. -/
def eatBytes (len : Nat) : Dec β Bytes := do
  incompleteIfLessThan len
  Dec.lift (fun b => Buf.copyToBytes b len)

/-- The recurring `match buf.remaining() { 0 => None, len => Some(eat_bytes(buf, len)?) }`
(visit.rs:96-99, lease.rs:114-117, keepalive.rs:114-117, codec/error.rs:180-183). -/
def eatRest : Dec β (Option Bytes) := do
  let len ← remainingD
  match len with
  | 0 => return none
  | len => return some (← eatBytes len)

/-- visit.rs:89-90: the metadata length field of `eat_payload`. -/
def eatMetadataLen (canHaveData : Bool) : Dec β Nat :=
  if canHaveData then do
    let u ← eatU24
    return u.intoUsize
  else return 0

/-- visit.rs:91-95: the metadata field of `eat_payload`. -/
def eatMetadata (metadataLen : Nat) : Dec β (Option Bytes) :=
  if metadataLen > 0 then do
    let m ← eatBytes metadataLen
    return some m
  else return none

/-- visit.rs:85-101 `eat_payload`. -/
def eatPayload (canHaveData : Bool) : Dec β Payload := do
  let metadataLen ← eatMetadataLen canHaveData
  let metadata ← eatMetadata metadataLen
  let data ← eatRest
  return Payload.new metadata data

/-- visit.rs:103-114 `eat_resume_token`. -/
def eatResumeToken (flags : Flags) : Dec β (Option Bytes) := do
  if flags.contains Flags.RESUME then do
    let tokenLen ← eatU16
    let t ← eatBytes tokenLen.toNat
    return some t
  else return none

end Binate
