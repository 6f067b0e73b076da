import Verif.Lemmas.Grammar
import Verif.Spec.WellFormed

/-! # `encode` writes the layout, and the layout parses -/

namespace Binate

open Spec

theorem be_one (v : Nat) : be 1 v = [BitVec.ofNat 8 v] := by simp [be]

theorem putU8_eq (buf : Bytes) (x : U8) : putU8 buf x = buf ++ be 1 x.toNat := by
  simp [putU8, be_one]

theorem putU16_eq (buf : Bytes) (x : U16) : putU16 buf x = buf ++ be 2 x.toNat := by
  unfold putU16 be
  congr 1
  simp only [be, List.cons.injEq, and_true]
  constructor <;> apply BitVec.eq_of_toNat_eq <;>
    simp [BitVec.extractLsb'_toNat, Nat.shiftRight_eq_div_pow]

theorem putU32_eq (buf : Bytes) (x : U32) : putU32 buf x = buf ++ be 4 x.toNat := by
  unfold putU32
  congr 1
  simp only [be, List.cons.injEq, and_true]
  refine ⟨?_, ?_, ?_, ?_⟩ <;> apply BitVec.eq_of_toNat_eq <;>
    simp [BitVec.extractLsb'_toNat, Nat.shiftRight_eq_div_pow]

theorem putU64_eq (buf : Bytes) (x : U64) : putU64 buf x = buf ++ be 8 x.toNat := by
  unfold putU64
  congr 1
  simp only [be, List.cons.injEq, and_true]
  refine ⟨?_, ?_, ?_, ?_, ?_, ?_, ?_, ?_⟩ <;> apply BitVec.eq_of_toNat_eq <;>
    simp [BitVec.extractLsb'_toNat, Nat.shiftRight_eq_div_pow]

/-- `be k` only looks at the value modulo `256 ^ k`. -/
theorem be_mod (k v : Nat) : be k (v % 256 ^ k) = be k v := by
  apply beVal_inj (by rw [be_length, be_length])
  rw [beVal_be, beVal_be, Nat.mod_mod]

theorem be_ofNat8 (n : Nat) : be 1 (BitVec.ofNat 8 n).toNat = be 1 n := by
  rw [BitVec.toNat_ofNat]; exact be_mod 1 n

theorem be_ofNat16 (n : Nat) : be 2 (BitVec.ofNat 16 n).toNat = be 2 n := by
  rw [BitVec.toNat_ofNat]; exact be_mod 2 n

theorem typeBits (t : FrameType) : t.bits.toNat = typeNo t * 1024 := by cases t <;> decide

theorem typeNo_lt (t : FrameType) : typeNo t < 64 := by cases t <;> decide

theorem type_or_flags (t : FrameType) (w : U16) (h : w.toNat < 1024) :
    (t.bits ||| w).toNat = typeNo t * 1024 + w.toNat := by
  rw [BitVec.toNat_or, typeBits, Nat.mul_comm, ← Nat.two_pow_add_eq_or_of_lt (i := 10) h]

theorem flagsOf_16 {fl : Flags} (h : FlagsOk fl) : flagsOf 16 fl = fl.bits.toNat := by
  obtain ⟨h1, h2⟩ := h
  have e : ∀ i, fl.bits.getLsbD i = fl.bits.toNat.testBit i := fun i => rfl
  unfold flagsOf flagsValue
  simp only [e]
  generalize fl.bits.toNat = n at *
  simp only [Nat.testBit_eq_decide_div_mod_eq]
  have d : ∀ k, (decide (k % 2 = 1)).toNat = k % 2 := by
    intro k
    rcases Nat.mod_two_eq_zero_or_one k with h | h <;> simp [h]
  simp only [d]
  omega

theorem optLen_eq (o : Option Bytes) : optLen o = (optBytes o).length := by
  cases o <;> rfl

theorem putOpt_eq (buf : Bytes) (o : Option Bytes) : putOpt buf o = buf ++ optBytes o := by
  cases o <;> simp [putOpt, putSlice, optBytes]

theorem payload_encode_eq (p : Payload) (buf : Bytes) :
    p.encode buf = buf ++ optBytes p.metadata ++ optBytes p.data := by
  rcases p with ⟨m, d⟩
  cases m <;> cases d <;> simp [Payload.encode, putSlice, optBytes]

theorem payload_len_eq (p : Payload) :
    p.len = (optBytes p.metadata).length + (optBytes p.data).length := by
  rcases p with ⟨m, d⟩
  cases m <;> cases d <;> simp [Payload.len, optBytes]

theorem metadataLen_eq (p : Payload) : p.metadataLen = (optBytes p.metadata).length := by
  rcases p with ⟨m, d⟩
  cases m <;> simp [Payload.metadataLen, optBytes]

theorem u24_max : U24.MAX.toNat = 16777215 := by decide

theorem fromUsize_ok {n : Nat} (h : n < 2 ^ 24) :
    U24.fromUsize n = .ok ⟨BitVec.ofNat 8 (n / 65536), BitVec.ofNat 16 n⟩ := by
  have : (decide (n ≤ U24.MAX.toNat)) = true := by rw [u24_max]; simp; omega
  rw [U24.fromUsize, this]
  simp only [Outcome.assert_true, Outcome.ok_bind]
  congr 2
  · apply BitVec.eq_of_toNat_eq
    simp [BitVec.toNat_setWidth, Nat.shiftRight_eq_div_pow]
    omega
  · apply BitVec.eq_of_toNat_eq
    simp

theorem fromUsize_panic {n : Nat} (h : 2 ^ 24 ≤ n) : ∃ m, U24.fromUsize n = .panic m := by
  have : (decide (n ≤ U24.MAX.toNat)) = false := by rw [u24_max]; simp; omega
  rw [U24.fromUsize, this]
  exact ⟨_, rfl⟩

theorem be_three (n : Nat) : be 3 n = be 1 (n / 65536) ++ be 2 n := by
  simp [be]

theorem encodePayloadWithLen_ok {p : Payload} (h : (optBytes p.metadata).length < 2 ^ 24)
    (buf : Bytes) : encodePayloadWithLen p buf = .ok (buf ++ payloadBytes p) := by
  simp only [encodePayloadWithLen, metadataLen_eq, fromUsize_ok h, Outcome.ok_bind,
    payload_encode_eq, putU16_eq, putU8_eq, be_ofNat8, be_ofNat16, payloadBytes, be_three]
  simp

theorem encodePayloadWithLen_panic {p : Payload} (h : 2 ^ 24 ≤ (optBytes p.metadata).length)
    (buf : Bytes) : ∃ m, encodePayloadWithLen p buf = .panic m := by
  obtain ⟨m, hm⟩ := fromUsize_panic h
  rw [encodePayloadWithLen, metadataLen_eq, hm]
  exact ⟨m, rfl⟩

theorem header_flags {t : FrameType} {fl : Flags} (h : FlagsOk fl) (sid : U32) (buf : Bytes) :
    putU16 (putU32 buf sid) (t.bits ||| fl.bits) =
      buf ++ header sid.toNat (typeNo t) (flagsOf 16 fl) := by
  rw [putU16_eq, putU32_eq, type_or_flags t fl.bits (by have := h.2; omega), flagsOf_16 h, header]
  simp

theorem header_none {t : FrameType} (sid : U32) (buf : Bytes) :
    putU16 (putU32 buf sid) t.bits = buf ++ header sid.toNat (typeNo t) 0 := by
  rw [putU16_eq, putU32_eq, typeBits, header]
  simp

theorem header_one {t : FrameType} {w : U16} (h : w.toNat < 1024) (sid : U32) (buf : Bytes) :
    putU16 (putU32 buf sid) (t.bits ||| w) = buf ++ header sid.toNat (typeNo t) w.toNat := by
  rw [putU16_eq, putU32_eq, type_or_flags t w h, header]
  simp

/-- `encode` appends the documented layout with flag unit 16. -/
theorem encode_layout {f : Frame} (hf : FrameFlagsOk f) (hm : metaLen f < 2 ^ 24) (buf : Bytes) :
    f.encode buf = .ok (buf ++ layout 16 f) := by
  cases f with
  | setup v =>
    have h1 := hf v.flags rfl
    show SetupFrame.encode v buf = _
    rw [SetupFrame.encode, header_flags h1]
    rcases v with ⟨fl, ver, ki, kt, tok, mm, dm, p⟩
    cases tok <;>
    simp only [Version.encode, putU16_eq, putU32_eq, putU8_eq, putSlice, be_ofNat8, be_ofNat16] <;>
    rw [encodePayloadWithLen_ok hm] <;>
    simp [layout, typeNo]
  | error v =>
    show ErrorFrame.encode v buf = _
    simp only [ErrorFrame.encode, header_none, putU32_eq _ v.code, putOpt_eq, layout, typeNo]
    simp
  | lease v =>
    show LeaseFrame.encode v buf = _
    unfold LeaseFrame.encode
    rcases v with ⟨t, n, _ | m⟩
    · simp only [Option.isSome_none, Bool.false_eq_true, if_false, header_none, putOpt_eq,
        putU32_eq _ t, putU32_eq _ n, layout, typeNo]
      simp [flagsValue]
    · simp only [Option.isSome_some, if_true,
        header_one (w := Flags.METADATA.bits) (by decide), putOpt_eq, putU32_eq _ t,
        putU32_eq _ n, layout, typeNo]
      simp [flagsValue, Flags.METADATA]
  | keepalive v =>
    show KeepaliveFrame.encode v buf = _
    unfold KeepaliveFrame.encode
    rcases v with ⟨_ | _, n, d⟩
    · simp only [Bool.false_eq_true, if_false, header_none, putOpt_eq, putU64_eq, layout, typeNo]
      simp [flagsValue]
    · simp only [if_true, header_one (w := Flags.RESPOND.bits) (by decide), putOpt_eq, putU64_eq,
        layout, typeNo]
      simp [flagsValue, Flags.RESPOND]
  | requestResponse v =>
    show RequestResponseFrame.encode v buf = _
    rw [RequestResponseFrame.encode, header_flags (hf v.flags rfl), encodePayloadWithLen_ok hm]
    simp [layout, typeNo]
  | requestFnf v =>
    show RequestFnfFrame.encode v buf = _
    rw [RequestFnfFrame.encode, header_flags (hf v.flags rfl), encodePayloadWithLen_ok hm]
    simp [layout, typeNo]
  | requestStream v =>
    show RequestStreamFrame.encode v buf = _
    rw [RequestStreamFrame.encode, header_flags (hf v.flags rfl), encodePayloadWithLen_ok hm,
      putU32_eq]
    simp [layout, typeNo]
  | requestChannel v =>
    show RequestChannelFrame.encode v buf = _
    rw [RequestChannelFrame.encode, header_flags (hf v.flags rfl), encodePayloadWithLen_ok hm,
      putU32_eq]
    simp [layout, typeNo]
  | requestN v =>
    show RequestNFrame.encode v buf = _
    simp only [RequestNFrame.encode, header_none, putU32_eq _ v.requestN, layout, typeNo]
    simp
  | cancel v =>
    show CancelFrame.encode v buf = _
    simp only [CancelFrame.encode, header_none, layout, typeNo]
  | payload v =>
    show PayloadFrame.encode v buf = _
    rw [PayloadFrame.encode, header_flags (hf v.flags rfl), encodePayloadWithLen_ok hm]
    simp [layout, typeNo]
  | metadataPush v =>
    show MetadataPushFrame.encode v buf = _
    simp only [MetadataPushFrame.encode, header_one (w := Flags.METADATA.bits) (by decide),
      putSlice, layout, typeNo]
    simp [flagsValue, Flags.METADATA]
  | resume v =>
    show ResumeFrame.encode v buf = _
    simp only [ResumeFrame.encode, header_none, Version.encode, putU16_eq _ v.version.major,
      putU16_eq _ v.version.minor, putU16_eq _ (BitVec.ofNat 16 _), be_ofNat16, putSlice,
      putU64_eq, layout, typeNo]
    simp
  | resumeOk v =>
    show ResumeOkFrame.encode v buf = _
    simp only [ResumeOkFrame.encode, header_none, putU64_eq, layout, typeNo]
    simp

end Binate
