import Verif.Model.Access
import Verif.Model.Error
import Verif.Props.Codec
import Verif.Spec.Ctor

/-! # Properties of the error code constants

C68. -/

namespace Binate

open Spec

/-- **C68**, the values of the constants, as in the RSocket protocol. -/
theorem C68_values :
    [ErrorFrame.INVALID_SETUP, ErrorFrame.UNSUPPORTED_SETUP, ErrorFrame.REJECTED_SETUP,
      ErrorFrame.REJECTED_RESUME, ErrorFrame.CONNECTION_ERROR, ErrorFrame.CONNECTION_CLOSE,
      ErrorFrame.APPLICATION_ERROR, ErrorFrame.REJECTED, ErrorFrame.CANCELED,
      ErrorFrame.INVALID].map BitVec.toNat =
      [1, 2, 3, 4, 0x101, 0x102, 0x201, 0x202, 0x203, 0x204] ∧
    ErrorFrame.MIN_APPLICATION_ERROR_CODE.toNat = 0x301 ∧
    ErrorFrame.MAX_APPLICATION_ERROR_CODE.toNat = 2 ^ 32 - 2 := by decide

/-- **C68**, the range of application codes is disjoint from the codes of the protocol. -/
theorem C68_disjoint (c : Code) : c.toU32 < ErrorFrame.MIN_APPLICATION_ERROR_CODE := by
  cases c <;> decide

/-- **C68**: an ERROR frame with a code of the application range is accepted on every stream,
including stream 0, and keeps its code; also above 0x7FFFFFFF, and also the last code, which is reserved. -/
theorem C68_received (sid code : U32) (data : Bytes) (hs : sid.toNat < 2 ^ 31)
    (hmin : ErrorFrame.MIN_APPLICATION_ERROR_CODE ≤ code) :
    ∃ f, decode (be 4 sid.toNat ++ [0x2C#8, 0#8] ++ be 4 code.toNat ++ data) =
        .ok (.error f) [] ∧
      f.getErrorCode = code ∧ f.getStreamId = sid ∧ f.getData.getD [] = data := by
  have hc : 0x301 ≤ code.toNat := hmin
  have hw : WellFormed (.error ⟨sid, code, some data⟩) := by
    refine ⟨hs, fun h => ?_, fun h => ?_⟩
    · simp only [ConnectionCode] at h
      omega
    · simp only [StreamCode] at h
      omega
  refine ⟨_, decode_layout hw, rfl, rfl, ?_⟩
  show (normOpt (some data)).getD [] = data
  cases data <;> rfl

/-- **C68**, converse: a code that is accepted both on stream 0 and on some other stream is none of
the ten protocol codes. -/
theorem C68_anywhere_iff (code : U32) :
    (∀ sid : U32, sid.toNat < 2 ^ 31 → ∃ f,
      decode (be 4 sid.toNat ++ [0x2C#8, 0#8] ++ be 4 code.toNat) = .ok (.error f) []) ↔
    code.toNat ∉ [1, 2, 3, 4, 0x101, 0x102, 0x201, 0x202, 0x203, 0x204] := by
  have split : code.toNat ∈ [1, 2, 3, 4, 0x101, 0x102, 0x201, 0x202, 0x203, 0x204] ↔
      ConnectionCode code.toNat ∨ StreamCode code.toNat := by
    simp only [List.mem_cons, List.not_mem_nil, or_false, ConnectionCode, StreamCode]
    omega
  have enc : ∀ sid : U32, be 4 sid.toNat ++ [0x2C#8, 0#8] ++ be 4 code.toNat =
      layout 16 (.error ⟨sid, code, none⟩) := fun sid => by
    show _ = be 4 sid.toNat ++ [0x2C#8, 0#8] ++ be 4 code.toNat ++ []
    rw [List.append_nil]
  rw [split]
  constructor
  · have hcode : ∀ s : U32, codeOf (be 4 s.toNat ++ [0x2C#8, 0#8] ++ be 4 code.toNat) =
        code.toNat := fun s => by
      have := code.isLt
      simp [codeOf, byteAt, be]
      omega
    have hty : ∀ s : U32, typeOf (be 4 s.toNat ++ [0x2C#8, 0#8] ++ be 4 code.toNat) = 11 :=
      fun s => by simp [typeOf, byteAt, be]
    rintro h (hc | hc)
    · obtain ⟨f, hf⟩ := h 1#32 (by decide)
      have := (C11_error_rejected _ (by simp [be]) (hty 1#32)).1 (by rw [hcode]; exact hc)
        (by simp [streamIdOf, byteAt, be])
      rw [this] at hf
      cases hf
    · obtain ⟨f, hf⟩ := h 0#32 (by decide)
      have := (C11_error_rejected _ (by simp [be]) (hty 0#32)).2.1 (by rw [hcode]; exact hc)
        (by simp [streamIdOf, byteAt, be])
      rw [this] at hf
      cases hf
  · intro h sid hs
    rw [enc]
    have hw : WellFormed (.error ⟨sid, code, none⟩) :=
      ⟨hs, fun h' => absurd (.inl h') h, fun h' => absurd (.inr h') h⟩
    exact ⟨_, decode_layout hw⟩

example : ∃ f, decode (be 4 0 ++ [0x2C#8, 0#8] ++ be 4 0x90000000 ++ [7]) = .ok (.error f) [] ∧
    f.getErrorCode = 0x90000000#32 ∧ f.getStreamId = 0#32 ∧ f.getData.getD [] = [7] :=
  C68_received 0#32 0x90000000#32 [7] (by decide) (by decide)

end Binate
