import Verif.Lemmas.Debug
import Verif.Lemmas.Ctor
import Verif.Spec.Debug

/-! # Lemmas for the texts of `Debug` -/

namespace Binate

open Spec

theorem shown_byte (b : U8) : String.ofList (debugByte b) = shownByte b.toNat := by
  have key : ∀ n < 256, String.ofList (debugByte (BitVec.ofNat 8 n)) = shownByte n := by
    decide +kernel
  have := key b.toNat b.isLt
  rwa [BitVec.ofNat_toNat, BitVec.setWidth_eq] at this

theorem toString_text (s : String) : toString s = s := rfl

theorem debug_nat (n : Nat) : debugNat n = (toString n).toList := by
  show _ = (String.ofList _).toList
  rw [String.toList_ofList]
  rfl

theorem debug_bool (b : Bool) : debugBool b = (toString b).toList := by
  cases b <;> decide +kernel

theorem debug_bytes (b : Bytes) : debugBytes b = (shownBytes b).toList := by
  have h : debugByte = fun x : U8 => (shownByte x.toNat).toList := by
    funext x
    rw [← shown_byte, String.toList_ofList]
  unfold shownBytes debugBytes
  rw [h]
  simp only [toString_text, String.toList_append, String.toList_join, List.flatMap_map]
  simp only [String.reduceToList]

theorem debug_option (b : Option Bytes) :
    debugOption debugBytes b = (shownOption b).toList := by
  cases b with
  | none => rfl
  | some b =>
    show "Some(".toList ++ debugBytes b ++ ")".toList =
      (toString "Some(" ++ toString (shownBytes b) ++ toString ")").toList
    rw [debug_bytes]
    generalize shownBytes b = x
    simp only [toString_text, String.toList_append]

theorem bits_other (n : Nat) (h : n < 2 ^ 16) : n &&& 0xFE0F = n % 16 + n / 512 * 512 := by
  have mask : ∀ j, (0xFE0F).testBit j = decide (j < 4 ∨ 9 ≤ j ∧ j < 16) := by
    intro j
    by_cases hj : j < 16
    · have : ∀ j < 16, (0xFE0F).testBit j = decide (j < 4 ∨ 9 ≤ j ∧ j < 16) := by decide
      exact this j hj
    · rw [Nat.testBit_lt_two_pow (Nat.lt_of_lt_of_le (show 0xFE0F < 2 ^ 16 by decide)
        (Nat.pow_le_pow_right (by decide) (by omega)))]
      exact (decide_eq_false (by omega)).symm
  apply Nat.eq_of_testBit_eq
  intro j
  rw [show n % 16 + n / 512 * 512 = 2 ^ 9 * (n / 512) + n % 16 by omega,
    Nat.testBit_two_pow_mul_add _ (by omega), Nat.testBit_and, mask]
  by_cases h9 : j < 9
  · rw [if_pos h9, show (16 : Nat) = 2 ^ 4 from rfl, Nat.testBit_mod_two_pow]
    by_cases h4 : j < 4
    · simp [h4]
    · simp [h4]
      omega
  · rw [if_neg h9, show (512 : Nat) = 2 ^ 9 from rfl, Nat.testBit_div_two_pow,
      show j - 9 + 9 = j by omega]
    by_cases h16 : j < 16
    · simp [h16, show 9 ≤ j by omega]
    · rw [Nat.testBit_lt_two_pow (Nat.lt_of_lt_of_le h
        (Nat.pow_le_pow_right (by decide) (by omega))), Bool.false_and]

theorem debug_names (f : Flags) :
    (Flags.declared.filter fun d => f.contains d.2).map (·.1) =
      (shownNames f.bits.toNat).map String.toList := by
  have h6 : f.contains Flags.RESUME = f.bits.toNat.testBit 6 := contains_follows f
  have h6' : f.contains Flags.RESPOND = f.bits.toNat.testBit 6 := contains_follows f
  have h5 : f.contains Flags.LEASE = f.bits.toNat.testBit 5 := contains_complete f
  unfold Flags.declared shownNames flagNames
  simp only [List.filter, List.filterMap, contains_ignore, contains_metadata, contains_follows, h6, h6',
    contains_complete, h5, contains_next]
  generalize f.bits.toNat.testBit 8 = b8
  generalize f.bits.toNat.testBit 7 = b7
  generalize f.bits.toNat.testBit 6 = b6
  generalize f.bits.toNat.testBit 5 = b5
  generalize f.bits.toNat.testBit 4 = b4
  cases b8 <;> cases b7 <;> cases b6 <;> cases b5 <;> cases b4 <;> rfl

theorem debug_parts (f : Flags) :
    f.debugParts = (shownNames f.bits.toNat ++
      if f.bits.toNat % 16 + f.bits.toNat / 512 * 512 = 0 then []
      else ["0x" ++ String.ofList
        (Nat.toDigits 16 (f.bits.toNat % 16 + f.bits.toNat / 512 * 512))]).map String.toList := by
  have e : (f.bits &&& ~~~ Flags.all.bits).toNat =
      f.bits.toNat % 16 + f.bits.toNat / 512 * 512 := by
    rw [← bits_other _ f.bits.isLt, show ~~~ Flags.all.bits = 0xFE0F#16 by decide, BitVec.toNat_and]
    rfl
  unfold Flags.debugParts
  rw [List.map_append, debug_names]
  congr 1
  simp only
  by_cases h : f.bits.toNat % 16 + f.bits.toNat / 512 * 512 = 0
  · rw [if_pos h, if_pos (BitVec.eq_of_toNat_eq (by rw [e, h]; rfl))]
    rfl
  · rw [if_neg h, if_neg (fun hb => h (by rw [← e, hb]; rfl)), e]
    simp only [List.map_cons, List.map_nil, String.toList_append, String.toList_ofList]

theorem join_text (l : List String) :
    List.intercalate " | ".toList (l.map String.toList) = (" | ".intercalate l).toList := by
  rw [String.toList_intercalate]

theorem debug_flags (f : Flags) : f.debugText = (shownFlags f.bits.toNat).toList := by
  unfold Flags.debugText shownFlags
  simp only
  by_cases h0 : f.bits.toNat = 0
  · rw [if_pos h0]
    have : f.debugParts = [] := by
      rw [debug_parts, h0]
      rfl
    rw [this]
  · rw [if_neg h0, ← join_text, ← debug_parts]
    have : f.debugParts ≠ [] := by
      intro h
      have h1 : f = ⟨0#16⟩ := flags_of_parts (h.trans (by decide))
      exact h0 (by rw [h1]; rfl)
    generalize f.debugParts = l at this
    cases l with
    | nil => exact absurd rfl this
    | cons x l => rfl

theorem debug_version (f : Version) :
    f.debugText = (shownVersion f).toList := by
  unfold shownVersion Version.debugText
  simp only [debugStruct, debugFields, debug_nat]
  generalize toString f.major.toNat = x0
  generalize toString f.minor.toNat = x1
  simp only [toString_text, String.toList_append]
  simp only [String.reduceToList]
  simp only [List.append_assoc, List.cons_append, List.nil_append]

theorem debug_payload (f : Payload) :
    f.debugText = (shownPayload f).toList := by
  unfold shownPayload Payload.debugText
  simp only [debugStruct, debugFields, debug_option]
  generalize shownOption f.metadata = x0
  generalize shownOption f.data = x1
  simp only [toString_text, String.toList_append]
  simp only [String.reduceToList]
  simp only [List.append_assoc, List.cons_append, List.nil_append]

theorem debug_SetupFrame (f : SetupFrame) :
    (Frame.setup f).debugText = (shownFrame (.setup f)).toList := by
  unfold Frame.debugText SetupFrame.debugText shownFrame debugVariant
  simp only [debugStruct, debugFields, debug_option, debug_bytes, debug_flags, debug_payload, debug_version, debug_nat]
  generalize shownFlags f.flags.bits.toNat = x0
  generalize shownVersion f.version = x1
  generalize toString f.keepaliveInterval.toNat = x2
  generalize toString f.keepaliveTimeout.toNat = x3
  generalize shownOption f.resumeToken = x4
  generalize shownBytes f.metadataMimetype = x5
  generalize shownBytes f.dataMimetype = x6
  generalize shownPayload f.payload = x7
  simp only [toString_text, String.toList_append]
  simp only [String.reduceToList]
  simp only [List.append_assoc, List.cons_append, List.nil_append]

theorem debug_ErrorFrame (f : ErrorFrame) :
    (Frame.error f).debugText = (shownFrame (.error f)).toList := by
  unfold Frame.debugText ErrorFrame.debugText shownFrame debugVariant
  simp only [debugStruct, debugFields, debug_option, debug_nat]
  generalize toString f.streamId.toNat = x0
  generalize toString f.code.toNat = x1
  generalize shownOption f.data = x2
  simp only [toString_text, String.toList_append]
  simp only [String.reduceToList]
  simp only [List.append_assoc, List.cons_append, List.nil_append]

theorem debug_LeaseFrame (f : LeaseFrame) :
    (Frame.lease f).debugText = (shownFrame (.lease f)).toList := by
  unfold Frame.debugText LeaseFrame.debugText shownFrame debugVariant
  simp only [debugStruct, debugFields, debug_option, debug_nat]
  generalize toString f.ttl.toNat = x0
  generalize toString f.numberOfRequests.toNat = x1
  generalize shownOption f.metadata = x2
  simp only [toString_text, String.toList_append]
  simp only [String.reduceToList]
  simp only [List.append_assoc, List.cons_append, List.nil_append]

theorem debug_KeepaliveFrame (f : KeepaliveFrame) :
    (Frame.keepalive f).debugText = (shownFrame (.keepalive f)).toList := by
  unfold Frame.debugText KeepaliveFrame.debugText shownFrame debugVariant
  simp only [debugStruct, debugFields, debug_bool, debug_option, debug_nat]
  generalize toString f.respond = x0
  generalize toString f.lastReceivedPosition.toNat = x1
  generalize shownOption f.data = x2
  simp only [toString_text, String.toList_append]
  simp only [String.reduceToList]
  simp only [List.append_assoc, List.cons_append, List.nil_append]

theorem debug_RequestResponseFrame (f : RequestResponseFrame) :
    (Frame.requestResponse f).debugText = (shownFrame (.requestResponse f)).toList := by
  unfold Frame.debugText RequestResponseFrame.debugText shownFrame debugVariant
  simp only [debugStruct, debugFields, debug_flags, debug_payload, debug_nat]
  generalize toString f.streamId.toNat = x0
  generalize shownFlags f.flags.bits.toNat = x1
  generalize shownPayload f.payload = x2
  simp only [toString_text, String.toList_append]
  simp only [String.reduceToList]
  simp only [List.append_assoc, List.cons_append, List.nil_append]

theorem debug_RequestFnfFrame (f : RequestFnfFrame) :
    (Frame.requestFnf f).debugText = (shownFrame (.requestFnf f)).toList := by
  unfold Frame.debugText RequestFnfFrame.debugText shownFrame debugVariant
  simp only [debugStruct, debugFields, debug_flags, debug_payload, debug_nat]
  generalize toString f.streamId.toNat = x0
  generalize shownFlags f.flags.bits.toNat = x1
  generalize shownPayload f.payload = x2
  simp only [toString_text, String.toList_append]
  simp only [String.reduceToList]
  simp only [List.append_assoc, List.cons_append, List.nil_append]

theorem debug_RequestStreamFrame (f : RequestStreamFrame) :
    (Frame.requestStream f).debugText = (shownFrame (.requestStream f)).toList := by
  unfold Frame.debugText RequestStreamFrame.debugText shownFrame debugVariant
  simp only [debugStruct, debugFields, debug_flags, debug_payload, debug_nat]
  generalize toString f.streamId.toNat = x0
  generalize shownFlags f.flags.bits.toNat = x1
  generalize toString f.initialRequestN.toNat = x2
  generalize shownPayload f.payload = x3
  simp only [toString_text, String.toList_append]
  simp only [String.reduceToList]
  simp only [List.append_assoc, List.cons_append, List.nil_append]

theorem debug_RequestChannelFrame (f : RequestChannelFrame) :
    (Frame.requestChannel f).debugText = (shownFrame (.requestChannel f)).toList := by
  unfold Frame.debugText RequestChannelFrame.debugText shownFrame debugVariant
  simp only [debugStruct, debugFields, debug_flags, debug_payload, debug_nat]
  generalize toString f.streamId.toNat = x0
  generalize shownFlags f.flags.bits.toNat = x1
  generalize toString f.initialRequestN.toNat = x2
  generalize shownPayload f.payload = x3
  simp only [toString_text, String.toList_append]
  simp only [String.reduceToList]
  simp only [List.append_assoc, List.cons_append, List.nil_append]

theorem debug_RequestNFrame (f : RequestNFrame) :
    (Frame.requestN f).debugText = (shownFrame (.requestN f)).toList := by
  unfold Frame.debugText RequestNFrame.debugText shownFrame debugVariant
  simp only [debugStruct, debugFields, debug_nat]
  generalize toString f.streamId.toNat = x0
  generalize toString f.requestN.toNat = x1
  simp only [toString_text, String.toList_append]
  simp only [String.reduceToList]
  simp only [List.append_assoc, List.cons_append, List.nil_append]

theorem debug_CancelFrame (f : CancelFrame) :
    (Frame.cancel f).debugText = (shownFrame (.cancel f)).toList := by
  unfold Frame.debugText CancelFrame.debugText shownFrame debugVariant
  simp only [debugStruct, debugFields, debug_nat]
  generalize toString f.streamId.toNat = x0
  simp only [toString_text, String.toList_append]
  simp only [String.reduceToList]
  simp only [List.append_assoc, List.cons_append, List.nil_append]

theorem debug_PayloadFrame (f : PayloadFrame) :
    (Frame.payload f).debugText = (shownFrame (.payload f)).toList := by
  unfold Frame.debugText PayloadFrame.debugText shownFrame debugVariant
  simp only [debugStruct, debugFields, debug_flags, debug_payload, debug_nat]
  generalize toString f.streamId.toNat = x0
  generalize shownFlags f.flags.bits.toNat = x1
  generalize shownPayload f.payload = x2
  simp only [toString_text, String.toList_append]
  simp only [String.reduceToList]
  simp only [List.append_assoc, List.cons_append, List.nil_append]

theorem debug_MetadataPushFrame (f : MetadataPushFrame) :
    (Frame.metadataPush f).debugText = (shownFrame (.metadataPush f)).toList := by
  unfold Frame.debugText MetadataPushFrame.debugText shownFrame debugVariant
  simp only [debugStruct, debugFields, debug_bytes]
  generalize shownBytes f.metadata = x0
  simp only [toString_text, String.toList_append]
  simp only [String.reduceToList]
  simp only [List.append_assoc, List.cons_append, List.nil_append]

theorem debug_ResumeFrame (f : ResumeFrame) :
    (Frame.resume f).debugText = (shownFrame (.resume f)).toList := by
  unfold Frame.debugText ResumeFrame.debugText shownFrame debugVariant
  simp only [debugStruct, debugFields, debug_bytes, debug_version, debug_nat]
  generalize shownVersion f.version = x0
  generalize shownBytes f.resumeToken = x1
  generalize toString f.lastReceivedServerPosition.toNat = x2
  generalize toString f.firstAvailableClientPosition.toNat = x3
  simp only [toString_text, String.toList_append]
  simp only [String.reduceToList]
  simp only [List.append_assoc, List.cons_append, List.nil_append]

theorem debug_ResumeOkFrame (f : ResumeOkFrame) :
    (Frame.resumeOk f).debugText = (shownFrame (.resumeOk f)).toList := by
  unfold Frame.debugText ResumeOkFrame.debugText shownFrame debugVariant
  simp only [debugStruct, debugFields, debug_nat]
  generalize toString f.lastReceivedClientPosition.toNat = x0
  simp only [toString_text, String.toList_append]
  simp only [String.reduceToList]
  simp only [List.append_assoc, List.cons_append, List.nil_append]

theorem literal_byte (b : U8) {s : List Char} {l : List Nat} (h : LiteralRest s l) :
    LiteralRest (debugByte b ++ s) (b.toNat :: l) := by
  unfold debugByte
  split
  · next e => subst e; exact .newline h
  split
  · next e => subst e; exact .carriageReturn h
  split
  · next e => subst e; exact .tab h
  split
  · next e =>
    rcases e with rfl | rfl
    · exact .backslash h
    · exact .quote h
  split
  · next e => subst e; exact .zero h
  split
  · next h1 h2 h3 h4 h5 h6 =>
    have h4' : b.toNat ≠ 92 ∧ b.toNat ≠ 34 :=
      ⟨fun e => h4 (.inl (BitVec.eq_of_toNat_eq e)), fun e => h4 (.inr (BitVec.eq_of_toNat_eq e))⟩
    have h7 : b.toNat < 127 := BitVec.lt_def.1 h6.2
    have key : ∀ n < 128, (Char.ofNat n).toNat = n := by decide
    have e : (Char.ofNat b.toNat).toNat = b.toNat := key _ (by omega)
    refine .plain e ?_ (by omega) h
    intro hc
    rcases hc with hc | hc <;> rw [hc] at e
    · exact h4'.2 e.symm
    · exact h4'.1 e.symm
  · have hb := b.isLt
    have hd : ∀ i < 16, "0123456789abcdef".toList[i]? = some (Nat.digitChar i) := by decide
    have := LiteralRest.hex (hd (b.toNat / 16) (by omega)) (hd (b.toNat % 16) (by omega)) h
    rwa [show 16 * (b.toNat / 16) + b.toNat % 16 = b.toNat by omega] at this

theorem literal_bytes (b : Bytes) : Literal (debugBytes b) (b.map (·.toNat)) := by
  have : LiteralRest (b.flatMap debugByte ++ ['"']) (b.map (·.toNat)) := by
    induction b with
    | nil => exact .stop
    | cons x b ih =>
      rw [List.flatMap_cons, List.append_assoc]
      exact literal_byte x ih
  exact .intro this

theorem hexDigit_unique {i j : Nat} {a : Char} (hi : "0123456789abcdef".toList[i]? = some a)
    (hj : "0123456789abcdef".toList[j]? = some a) : i = j := by
  have key : ∀ i < 16, ∀ j < 16, "0123456789abcdef".toList[i]? = "0123456789abcdef".toList[j]? →
      i = j := by decide
  exact key i (List.getElem?_eq_some_iff.1 hi).1 j (List.getElem?_eq_some_iff.1 hj).1
    (hi.trans hj.symm)

theorem literalRest_unique {s : List Char} {l m : List Nat} (h : LiteralRest s l)
    (h' : LiteralRest s m) : l = m := by
  induction h generalizing m with
  | stop =>
    cases h' with
    | stop => rfl
    | plain e hc => exact absurd (.inl rfl) hc
  | newline _ ih =>
    cases h' with
    | newline h => rw [ih h]
    | plain e hc => exact absurd (.inr rfl) hc
  | carriageReturn _ ih =>
    cases h' with
    | carriageReturn h => rw [ih h]
    | plain e hc => exact absurd (.inr rfl) hc
  | tab _ ih =>
    cases h' with
    | tab h => rw [ih h]
    | plain e hc => exact absurd (.inr rfl) hc
  | zero _ ih =>
    cases h' with
    | zero h => rw [ih h]
    | plain e hc => exact absurd (.inr rfl) hc
  | backslash _ ih =>
    cases h' with
    | backslash h => rw [ih h]
    | plain e hc => exact absurd (.inr rfl) hc
  | quote _ ih =>
    cases h' with
    | quote h => rw [ih h]
    | plain e hc => exact absurd (.inr rfl) hc
  | hex h1 h2 _ ih =>
    cases h' with
    | hex h1' h2' h => rw [ih h, hexDigit_unique h1 h1', hexDigit_unique h2 h2']
    | plain e hc => exact absurd (.inr rfl) hc
  | plain e hc _ _ ih =>
    cases h' with
    | plain e' _ _ h => rw [ih h, ← e, ← e']
    | stop => exact absurd (.inl rfl) hc
    | _ => exact absurd (.inr rfl) hc

theorem literal_unique {s : List Char} {l m : List Nat} (h : Literal s l) (h' : Literal s m) :
    l = m := by
  cases h with
  | intro h =>
    cases h' with
    | intro h' => exact literalRest_unique h h'

theorem debug_frame (f : Frame) : f.debugText = (shownFrame f).toList := by
  cases f with
  | setup f => exact debug_SetupFrame f
  | error f => exact debug_ErrorFrame f
  | lease f => exact debug_LeaseFrame f
  | keepalive f => exact debug_KeepaliveFrame f
  | requestResponse f => exact debug_RequestResponseFrame f
  | requestFnf f => exact debug_RequestFnfFrame f
  | requestStream f => exact debug_RequestStreamFrame f
  | requestChannel f => exact debug_RequestChannelFrame f
  | requestN f => exact debug_RequestNFrame f
  | cancel f => exact debug_CancelFrame f
  | payload f => exact debug_PayloadFrame f
  | metadataPush f => exact debug_MetadataPushFrame f
  | resume f => exact debug_ResumeFrame f
  | resumeOk f => exact debug_ResumeOkFrame f

end Binate
