import Verif.Lemmas.Constructors

/-! # `encode` appends, its length, and its panics -/

namespace Binate

open Spec

/-- What `encode` does for arbitrary frames: nothing but append, or panic independently of the
buffer. -/
theorem encodePayload_append (p : Payload) (h buf : Bytes) :
    encodePayloadWithLen p (buf ++ h) =
      (encodePayloadWithLen p h >>= fun b => .ok (buf ++ b)) := by
  by_cases hm : (optBytes p.metadata).length < 2 ^ 24
  · rw [encodePayloadWithLen_ok hm, encodePayloadWithLen_ok hm]; simp
  · obtain ⟨m, h1⟩ := fromUsize_panic (Nat.not_lt.1 hm)
    simp only [encodePayloadWithLen, metadataLen_eq, h1]
    rfl

theorem putU8_append (b x : Bytes) (v : U8) : putU8 (b ++ x) v = b ++ putU8 x v := by
  simp [putU8]
theorem putU16_append (b x : Bytes) (v : U16) : putU16 (b ++ x) v = b ++ putU16 x v := by
  simp [putU16]
theorem putU32_append (b x : Bytes) (v : U32) : putU32 (b ++ x) v = b ++ putU32 x v := by
  simp [putU32]
theorem putU64_append (b x : Bytes) (v : U64) : putU64 (b ++ x) v = b ++ putU64 x v := by
  simp [putU64]
theorem putSlice_append (b x : Bytes) (v : Bytes) : putSlice (b ++ x) v = b ++ putSlice x v := by
  simp [putSlice]
theorem putOpt_append (b x : Bytes) (v : Option Bytes) :
    putOpt (b ++ x) v = b ++ putOpt x v := by
  cases v <;> simp [putOpt, putSlice]

theorem encode_append' (f : Frame) (buf x : Bytes) :
    f.encode (buf ++ x) = (f.encode x >>= fun b => .ok (buf ++ b)) := by
  cases f with
  | setup v =>
    show SetupFrame.encode v _ = (SetupFrame.encode v _ >>= _)
    rcases v with ⟨fl, ver, ki, kt, tok, mm, dm, p⟩
    cases tok <;>
    simp only [SetupFrame.encode, Version.encode, putU16_append, putU32_append, putU8_append,
      putSlice_append, encodePayload_append]
  | error v =>
    simp only [Frame.encode, ErrorFrame.encode, putU16_append, putU32_append, putOpt_append,
      Outcome.ok_bind]
  | lease v =>
    simp only [Frame.encode, LeaseFrame.encode]
    split <;>
    simp only [putU16_append, putU32_append, putOpt_append, Outcome.ok_bind]
  | keepalive v =>
    simp only [Frame.encode, KeepaliveFrame.encode]
    split <;>
    simp only [putU16_append, putU32_append, putU64_append, putOpt_append, Outcome.ok_bind]
  | requestResponse v =>
    simp only [Frame.encode, RequestResponseFrame.encode, putU16_append, putU32_append,
      encodePayload_append]
  | requestFnf v =>
    simp only [Frame.encode, RequestFnfFrame.encode, putU16_append, putU32_append,
      encodePayload_append]
  | requestStream v =>
    simp only [Frame.encode, RequestStreamFrame.encode, putU16_append, putU32_append,
      encodePayload_append]
  | requestChannel v =>
    simp only [Frame.encode, RequestChannelFrame.encode, putU16_append, putU32_append,
      encodePayload_append]
  | requestN v =>
    simp only [Frame.encode, RequestNFrame.encode, putU16_append, putU32_append, Outcome.ok_bind]
  | cancel v =>
    simp only [Frame.encode, CancelFrame.encode, putU16_append, putU32_append, Outcome.ok_bind]
  | payload v =>
    simp only [Frame.encode, PayloadFrame.encode, putU16_append, putU32_append,
      encodePayload_append]
  | metadataPush v =>
    simp only [Frame.encode, MetadataPushFrame.encode, putU16_append, putU32_append,
      putSlice_append, Outcome.ok_bind]
  | resume v =>
    simp only [Frame.encode, ResumeFrame.encode, Version.encode, putU16_append, putU32_append,
      putU64_append, putSlice_append, Outcome.ok_bind]
  | resumeOk v =>
    simp only [Frame.encode, ResumeOkFrame.encode, putU16_append, putU32_append,
      putU64_append, Outcome.ok_bind]

theorem encode_append (f : Frame) (buf : Bytes) :
    f.encode buf = (f.encode [] >>= fun b => .ok (buf ++ b)) := by
  have := encode_append' f buf []
  rwa [List.append_nil] at this

theorem putU8_length (b : Bytes) (v : U8) : (putU8 b v).length = b.length + 1 := by
  simp [putU8]
theorem putU16_length (b : Bytes) (v : U16) : (putU16 b v).length = b.length + 2 := by
  simp [putU16]
theorem putU32_length (b : Bytes) (v : U32) : (putU32 b v).length = b.length + 4 := by
  simp [putU32]
theorem putU64_length (b : Bytes) (v : U64) : (putU64 b v).length = b.length + 8 := by
  simp [putU64]
theorem putSlice_length (b v : Bytes) : (putSlice b v).length = b.length + v.length := by
  simp [putSlice]
theorem putOpt_length (b : Bytes) (v : Option Bytes) :
    (putOpt b v).length = b.length + optLen v := by
  cases v <;> simp [putOpt, putSlice, optLen]

theorem encodePayload_length {p : Payload} {x b : Bytes} (h : encodePayloadWithLen p x = .ok b) :
    b.length = x.length + 3 + p.len := by
  by_cases hm : (optBytes p.metadata).length < 2 ^ 24
  · rw [encodePayloadWithLen_ok hm] at h
    cases h
    rw [payload_len_eq, payloadBytes]
    simp [be_length]; omega
  · obtain ⟨m, h1⟩ := encodePayloadWithLen_panic (Nat.not_lt.1 hm) x
    rw [h1] at h; cases h

/-- The error of `len` for SETUP. -/
def lenExcess : Frame → Nat
  | .setup f => if f.resumeToken = none then 2 else 0
  | _ => 0

theorem encode_length {f : Frame} {b : Bytes} (h : f.encode [] = .ok b) :
    f.len = b.length + lenExcess f := by
  cases f with
  | setup v =>
    have h' : SetupFrame.encode v [] = .ok b := h
    show SetupFrame.len v = _
    rcases v with ⟨fl, ver, ki, kt, tok, mm, dm, p⟩
    cases tok <;>
    · simp only [SetupFrame.encode] at h'
      have := encodePayload_length h'
      simp only [Version.encode, putU16_length, putU32_length, putU8_length, putSlice_length,
        List.length_nil] at this
      simp only [SetupFrame.len, lenExcess, if_true, reduceCtorEq, if_false]
      omega
  | error v =>
    cases h
    simp only [Frame.len, ErrorFrame.len, putU16_length, putU32_length, putOpt_length,
      List.length_nil, lenExcess]
    omega
  | lease v =>
    have h' : LeaseFrame.encode v [] = .ok b := h
    unfold LeaseFrame.encode at h'
    cases hm : v.metadata.isSome <;> simp only [hm] at h' <;> cases h' <;>
    simp only [Frame.len, LeaseFrame.len, putU16_length, putU32_length, putOpt_length,
      List.length_nil, lenExcess, if_true, if_false, Bool.false_eq_true] <;> omega
  | keepalive v =>
    have h' : KeepaliveFrame.encode v [] = .ok b := h
    unfold KeepaliveFrame.encode at h'
    cases hm : v.respond <;> simp only [hm] at h' <;> cases h' <;>
    simp only [Frame.len, KeepaliveFrame.len, putU16_length, putU32_length, putU64_length,
      putOpt_length, List.length_nil, lenExcess, if_true, if_false, Bool.false_eq_true] <;> omega
  | requestResponse v =>
    have h' : RequestResponseFrame.encode v [] = .ok b := h
    have := encodePayload_length h'
    simp only [putU16_length, putU32_length, List.length_nil] at this
    simp only [Frame.len, RequestResponseFrame.len, lenExcess]; omega
  | requestFnf v =>
    have h' : RequestFnfFrame.encode v [] = .ok b := h
    have := encodePayload_length h'
    simp only [putU16_length, putU32_length, List.length_nil] at this
    simp only [Frame.len, RequestFnfFrame.len, lenExcess]; omega
  | requestStream v =>
    have h' : RequestStreamFrame.encode v [] = .ok b := h
    have := encodePayload_length h'
    simp only [putU16_length, putU32_length, List.length_nil] at this
    simp only [Frame.len, RequestStreamFrame.len, lenExcess]; omega
  | requestChannel v =>
    have h' : RequestChannelFrame.encode v [] = .ok b := h
    have := encodePayload_length h'
    simp only [putU16_length, putU32_length, List.length_nil] at this
    simp only [Frame.len, RequestChannelFrame.len, lenExcess]; omega
  | payload v =>
    have h' : PayloadFrame.encode v [] = .ok b := h
    have := encodePayload_length h'
    simp only [putU16_length, putU32_length, List.length_nil] at this
    simp only [Frame.len, PayloadFrame.len, lenExcess]; omega
  | requestN v => cases h; rfl
  | cancel v => cases h; rfl
  | metadataPush v =>
    cases h
    simp only [Frame.len, MetadataPushFrame.len, putU16_length, putU32_length, putSlice_length,
      List.length_nil, lenExcess]
    omega
  | resume v =>
    cases h
    simp only [Frame.len, ResumeFrame.len, Version.encode, putU16_length, putU32_length,
      putU64_length, putSlice_length, List.length_nil, lenExcess]
  | resumeOk v => cases h; rfl

theorem encode_panic_iff (f : Frame) (buf : Bytes) :
    (∃ m, f.encode buf = .panic m) ↔ 2 ^ 24 ≤ metaLen f := by
  have key : ∀ {p : Payload} {x : Bytes},
      (∃ m, encodePayloadWithLen p x = .panic m) ↔ 2 ^ 24 ≤ (optBytes p.metadata).length := by
    intro p x
    by_cases hm : (optBytes p.metadata).length < 2 ^ 24
    · rw [encodePayloadWithLen_ok hm]
      constructor
      · rintro ⟨m, h⟩; cases h
      · intro h; omega
    · exact ⟨fun _ => Nat.not_lt.1 hm, fun h => encodePayloadWithLen_panic h x⟩
  have no : ∀ {b : Bytes}, (∃ m, Outcome.ok b = .panic m) ↔ 2 ^ 24 ≤ 0 := by
    intro b; constructor
    · rintro ⟨m, h⟩; cases h
    · intro h; omega
  cases f with
  | setup v => exact key
  | requestResponse v => exact key
  | requestFnf v => exact key
  | requestStream v => exact key
  | requestChannel v => exact key
  | payload v => exact key
  | error v => exact no
  | lease v => exact no
  | keepalive v => exact no
  | requestN v => exact no
  | cancel v => exact no
  | metadataPush v => exact no
  | resume v => exact no
  | resumeOk v => exact no

end Binate
