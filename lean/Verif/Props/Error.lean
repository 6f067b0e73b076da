import Verif.Lemmas.Text

/-! # Properties of errors (C47–C49) -/

namespace Binate

open Spec

/-! ## C47 -/

/-- **C47.** Every error is exactly one of a decode error, a protocol error and an I/O error. -/
theorem C47_partition (e : Error) :
    holding [e.isDecode, e.isProtocol, decide (e.kind = .io)] = 1 := by
  obtain ⟨k, s⟩ := e
  cases k <;> rfl

/-- **C47**: exactly one of the ten specific predicates holds for a protocol error, none for any
other error; and `is_setup` errors are protocol errors. -/
theorem C47_specific (e : Error) :
    holding [e.isInvalidSetup, e.isUnsupportedSetup, e.isRejectedSetup, e.isRejectedResume,
      e.isConnectionError, e.isConnectionClose, e.isApplicationError, e.isRejected, e.isCancel,
      e.isInvalid] = (if e.isProtocol then 1 else 0) ∧
    (e.isSetup = true → e.isProtocol = true) := by
  obtain ⟨k, s⟩ := e
  cases k <;> first | exact ⟨rfl, fun _ => rfl⟩ | exact ⟨rfl, fun h => (nomatch h)⟩

/-- **C47**: each predicate answers for the kind that it names. -/
theorem C47_names (e : Error) :
    (e.isDecode = true ↔ ∃ d, e.kind = .decode d) ∧
    (e.isInvalidSetup = true ↔ e.kind = .invalidSetup) ∧
    (e.isUnsupportedSetup = true ↔ e.kind = .unsupportedSetup) ∧
    (e.isRejectedSetup = true ↔ e.kind = .rejectedSetup) ∧
    (e.isRejectedResume = true ↔ e.kind = .rejectedResume) ∧
    (e.isConnectionError = true ↔ e.kind = .connectionError) ∧
    (e.isConnectionClose = true ↔ e.kind = .connectionClose) ∧
    (e.isApplicationError = true ↔ e.kind = .applicationError) ∧
    (e.isRejected = true ↔ e.kind = .rejected) ∧
    (e.isCancel = true ↔ e.kind = .canceled) ∧
    (e.isInvalid = true ↔ e.kind = .invalid) ∧
    (e.isSetup = true ↔
      e.isInvalidSetup = true ∨ e.isUnsupportedSetup = true ∨ e.isRejectedSetup = true) := by
  obtain ⟨k, s⟩ := e
  cases k <;> simp [Error.isDecode, Error.isInvalidSetup, Error.isUnsupportedSetup,
    Error.isRejectedSetup, Error.isRejectedResume, Error.isConnectionError,
    Error.isConnectionClose, Error.isApplicationError, Error.isRejected, Error.isCancel,
    Error.isInvalid, Error.isSetup]

example : (Error.new .canceled none).isCancel = true ∧
    (Error.new .canceled none).isProtocol = true := by decide

/-! ## C48 -/

/-- **C48**, refuted: the message of a REJECTED error shows the name CONNECTION_ERROR. -/
theorem C48_names_code_false : ¬ ∀ (e : Error) (name : String) (code : Nat),
    protocolCode e.kind = some (name, code) →
    e.description = name ++ " (" ++ hex8 code ++ ")" := by
  intro h
  exact absurd (h ⟨.rejected, none⟩ "REJECTED" 0x202 rfl) (by decide)

/-- **C48**, all kinds but REJECTED (*missing*: REJECTED, for which it is false): the message is
the protocol name and the code in hexadecimal. -/
theorem C48_names_code_partial (e : Error) (h : e.kind ≠ .rejected) {name : String} {code : Nat}
    (hp : protocolCode e.kind = some (name, code)) :
    e.description = name ++ " (" ++ hex8 code ++ ")" := by
  obtain ⟨k, s⟩ := e
  cases k <;> first
    | exact absurd rfl h
    | (cases hp; done)
    | (cases hp; simp only [Error.description]; decide)

/-- **C48**: for REJECTED, the code shown is right and the name is that of CONNECTION_ERROR. -/
theorem C48_rejected (s : Option String) : (Error.mk .rejected s).description =
    "CONNECTION_ERROR" ++ " (" ++ hex8 0x202 ++ ")" := by
  show "CONNECTION_ERROR (0x00000202)" = _
  decide

/-- **C48**: kinds of errors with the same message are equal (decode errors counting as one). -/
theorem C48_distinct (e e' : Error) (h : e.description = e'.description) :
    e.kind = e'.kind ∨ (e.isDecode = true ∧ e'.isDecode = true) := by
  obtain ⟨k, s⟩ := e
  obtain ⟨k', s'⟩ := e'
  cases k <;> cases k' <;> first
    | exact .inl rfl
    | exact .inr ⟨rfl, rfl⟩
    | exact absurd h (by simp [Error.description])

/-- **C48**: the full message is the description, followed by the source if there is one. -/
theorem C48_display (e : Error) : e.display =
    e.description ++ (match e.source with | some s => ": " ++ s | none => "") := by
  obtain ⟨k, s⟩ := e
  cases s with
  | none => exact String.append_empty.symm
  | some s => exact String.append_assoc ..

/-- **C48**: `Code` has the codes of the protocol, and they are the constants of `ErrorFrame`. -/
theorem C48_codes : (∀ (k : Kind) (c : Code), kindCode k = some c →
      ∃ name, protocolCode k = some (name, c.toU32.toNat)) ∧
    Code.invalidSetup.toU32 = ErrorFrame.INVALID_SETUP ∧
    Code.unsupportedSetup.toU32 = ErrorFrame.UNSUPPORTED_SETUP ∧
    Code.rejectedSetup.toU32 = ErrorFrame.REJECTED_SETUP ∧
    Code.rejectedResume.toU32 = ErrorFrame.REJECTED_RESUME ∧
    Code.connectionError.toU32 = ErrorFrame.CONNECTION_ERROR ∧
    Code.connectionClose.toU32 = ErrorFrame.CONNECTION_CLOSE ∧
    Code.applicationError.toU32 = ErrorFrame.APPLICATION_ERROR ∧
    Code.rejected.toU32 = ErrorFrame.REJECTED ∧
    Code.canceled.toU32 = ErrorFrame.CANCELED ∧
    Code.invalid.toU32 = ErrorFrame.INVALID ∧
    (∀ c c' : Code, c.toU32 = c'.toU32 → c = c') := by
  refine ⟨?_, rfl, rfl, rfl, rfl, rfl, rfl, rfl, rfl, rfl, rfl, ?_⟩
  · intro k c h
    cases k <;> cases h <;> exact ⟨_, rfl⟩
  · intro c c' h
    cases c <;> cases c' <;> first | rfl | exact absurd h (by decide)

example : (Error.new .canceled (some "late")).display = "CANCELED (0x00000203): late" := by decide

/-! ## C49 -/

/-- **C49.** The error made from a decode error is a decode error and nothing else, keeps it, and
shows its text. -/
theorem C49_conversion (d : DecodeError) :
    (Error.ofDecodeError d).kind = .decode d ∧
    (Error.ofDecodeError d).isDecode = true ∧
    holding [(Error.ofDecodeError d).isProtocol, (Error.ofDecodeError d).isSetup,
      (Error.ofDecodeError d).isInvalidSetup, (Error.ofDecodeError d).isUnsupportedSetup,
      (Error.ofDecodeError d).isRejectedSetup, (Error.ofDecodeError d).isRejectedResume,
      (Error.ofDecodeError d).isConnectionError, (Error.ofDecodeError d).isConnectionClose,
      (Error.ofDecodeError d).isApplicationError, (Error.ofDecodeError d).isRejected,
      (Error.ofDecodeError d).isCancel, (Error.ofDecodeError d).isInvalid] = 0 ∧
    (Error.ofDecodeError d).source = some d.display ∧
    (Error.ofDecodeError d).display = "error decoding frame: " ++ d.display := by
  refine ⟨rfl, rfl, rfl, rfl, ?_⟩
  show "error decoding frame" ++ ": " ++ d.display = _
  rfl

/-- **C49**: different decode errors show different texts, before and after the conversion. -/
theorem C49_distinct (d d' : DecodeError) :
    (d.display = d'.display ↔ d = d') ∧
    ((Error.ofDecodeError d).display = (Error.ofDecodeError d').display ↔ d = d') := by
  refine ⟨⟨display_inj, fun h => by rw [h]⟩, fun h => ?_, fun h => by rw [h]⟩
  rw [(C49_conversion d).2.2.2.2, (C49_conversion d').2.2.2.2] at h
  exact display_inj (String.append_right_inj _ |>.1 h)

/-- **C49**: the texts show the frame type as a hexadecimal number and the stream id as a decimal
number, together with what was expected. -/
theorem C49_texts :
    DecodeError.inComplete.display = "incomplete frame" ∧
    (∀ v, ∃ digits, (DecodeError.unrecognizedFrameType v).display =
        "unrecognized frame type 0x" ++ String.ofList digits ∧ digits ≠ [] ∧
        readNumber 16 digits 0 = some v.toNat) ∧
    (∀ expected v, ∃ digits, (DecodeError.invalidStreamId expected v).display =
        "invalid stream ID (expected " ++ expected ++ ", found " ++ String.ofList digits ++ ")" ∧
        digits ≠ [] ∧ readNumber 10 digits 0 = some v.toNat) := by
  refine ⟨rfl, fun v => ⟨Nat.toDigits 16 v.toNat, ?_, Nat.toDigits_ne_nil,
    readNumber_toDigits (by decide) (by decide) _⟩,
    fun expected v => ⟨Nat.toDigits 10 v.toNat, rfl, Nat.toDigits_ne_nil,
      readNumber_toDigits (by decide) (by decide) _⟩⟩
  show "unrecognized frame type " ++ ("0x" ++ String.ofList (Nat.toDigits 16 v.toNat)) = _
  rw [← String.append_assoc]
  rfl

/-- **C49**: an I/O error is converted to an I/O error that shows its text. -/
theorem C49_io (text : String) :
    (Error.ofIoError text).kind = .io ∧ (Error.ofIoError text).isDecode = false ∧
    (Error.ofIoError text).isProtocol = false ∧
    (Error.ofIoError text).display = "I/O error: " ++ text := ⟨rfl, rfl, rfl, rfl⟩

example : (Error.ofDecodeError (.unrecognizedFrameType 0x0FC0)).display =
    "error decoding frame: unrecognized frame type 0xfc0" := by decide

end Binate
