import Verif.Spec.Access
import Verif.Lemmas.Ctor
import Verif.Lemmas.Builder
import Verif.Lemmas.Peer

/-! # Helper lemmas on the accessors -/

namespace Binate

open Spec

theorem millis_exact (x : U32) : (Duration.fromMillis (x.setWidth 64)).asMillis = x.toNat := by
  have hx := x.isLt
  have h1 : (x.setWidth 64).toNat = x.toNat := by
    rw [BitVec.toNat_setWidth]
    omega
  have h2 : (x.setWidth 64 / 1000#64).toNat = x.toNat / 1000 := by
    rw [BitVec.toNat_udiv, h1]
    rfl
  have h3 : (x.setWidth 64 % 1000#64).toNat = x.toNat % 1000 := by
    rw [BitVec.toNat_umod, h1]
    rfl
  have h4 : ((x.setWidth 64 % 1000#64).setWidth 32 * 1000000#32).toNat =
      x.toNat % 1000 * 1000000 := by
    rw [BitVec.toNat_mul, BitVec.toNat_setWidth, h3]
    show x.toNat % 1000 % 2 ^ 32 * 1000000 % 2 ^ 32 = _
    omega
  show (x.setWidth 64 / 1000#64).toNat * 1000 +
    ((x.setWidth 64 % 1000#64).setWidth 32 * 1000000#32).toNat / 1000000 = x.toNat
  rw [h2, h4]
  omega

theorem map_mod_id {l : List Nat} {n : Nat} (h : ∀ a ∈ l, a < n) : l.map (· % n) = l := by
  conv => rhs; rw [← List.map_id l]
  exact List.map_congr_left fun a ha => Nat.mod_eq_of_lt (h a ha)

/-- What the accessors show of a frame that has just been built. -/
theorem seen_new {dbg : Bool} {c : NewCall} {f : Frame} (h : c.run dbg = .ok f)
    (h31 : ∀ a ∈ c.args31, a < 2 ^ 31) (h63 : ∀ a ∈ c.args63, a < 2 ^ 63) (x : Field) :
    seen f x = c.given x := by
  have st := run_stores h
  have v31 : values31 f = c.args31 := by
    rw [st.v31]
    cases c.isLease
    · exact map_mod_id h31
    · exact List.map_id _
  have v63 : values63 f = c.args63 := by rw [st.v63, map_mod_id h63]
  have bl := st.blobs
  have ty := st.type
  clear st h h31 h63
  cases c <;> cases f <;> first
    | (cases ty; done)
    | (simp only [values31, NewCall.args31, values63, NewCall.args63, blobsOf, NewCall.blobs,
        List.cons.injEq, and_true, Prod.mk.injEq, Option.some.injEq] at v31 v63 bl
       cases x <;> simp_all [seen, NewCall.given, millis_exact, LeaseFrame.getTtl,
        LeaseFrame.getNumberOfRequests, LeaseFrame.getMetadata,
        KeepaliveFrame.getLastReceivedPosition, KeepaliveFrame.getData,
        RequestResponseFrame.getStreamId, RequestResponseFrame.getMetadata,
        RequestResponseFrame.getData, RequestResponseFrame.getPayload,
        RequestFnfFrame.getStreamId, RequestFnfFrame.getMetadata,
        RequestFnfFrame.getRequestData, RequestFnfFrame.getPayload,
        RequestStreamFrame.getStreamId, RequestStreamFrame.getMetadata,
        RequestStreamFrame.getData, RequestStreamFrame.getPayload,
        RequestStreamFrame.getInitialRequestN,
        RequestChannelFrame.getStreamId, RequestChannelFrame.getMetadata,
        RequestChannelFrame.getData, RequestChannelFrame.getPayload,
        RequestChannelFrame.getInitialRequestN,
        RequestNFrame.getStreamId, RequestNFrame.getRequestN, CancelFrame.getStreamId,
        PayloadFrame.getStreamId, PayloadFrame.getMetadata,
        PayloadFrame.getData, PayloadFrame.getPayload,
        ErrorFrame.getStreamId, ErrorFrame.getErrorCode, ErrorFrame.getData,
        MetadataPushFrame.getMetadata, ResumeFrame.getVersion, ResumeFrame.getResumeToken,
        ResumeFrame.getLastReceivedServerPosition, ResumeFrame.getFirstAvailableClientPosition,
        ResumeOkFrame.getLastReceivedServerPosition])

/-- The frame is a METADATA_PUSH. -/
def isPushFrame : Frame → Bool
  | .metadataPush _ => true
  | _ => false

/-- Sending and receiving changes the accessors' results by `received` only. -/
theorem seen_normalize (f : Frame) (x : Field) :
    seen (normalize f) x = (seen f x).map (received x (isPushFrame f)) := by
  cases f <;> cases x <;> rfl

end Binate
