import Verif.Lemmas.Canonical
import Verif.Lemmas.RoundTrip
import Verif.Spec.Interop

/-! # Lemmas for C131 -/

namespace Binate

open Spec

theorem flagsValue_scale (u : Nat) (i m f c n : Bool) :
    flagsValue u i m f c n = u * flagsValue 1 i m f c n := by
  simp [flagsValue]

theorem flagsOf_scale (u : Nat) (fl : Flags) : flagsOf u fl = u * flagsOf 1 fl :=
  flagsValue_scale _ _ _ _ _ _

theorem flagsValue_lt_one (i m f c n : Bool) : flagsValue 1 i m f c n < 32 := by
  cases i <;> cases m <;> cases f <;> cases c <;> cases n <;> decide

theorem flagsOf_lt (fl : Flags) : flagsOf 1 fl < 32 := flagsValue_lt_one _ _ _ _ _

theorem flagNumber_lt (f : Frame) : flagNumber f < 32 := by
  cases f <;> unfold flagNumber
  case lease => exact flagsValue_lt_one _ _ _ _ _
  case keepalive => exact flagsValue_lt_one _ _ _ _ _
  case metadataPush => exact flagsValue_lt_one _ _ _ _ _
  case requestN => exact Nat.zero_lt_succ _
  case cancel => exact Nat.zero_lt_succ _
  case error => exact Nat.zero_lt_succ _
  case resume => exact Nat.zero_lt_succ _
  case resumeOk => exact Nat.zero_lt_succ _
  all_goals exact flagsOf_lt _

theorem flagsOf_raised (fl : Flags) : flagsOf 1 (raised fl) = 2 * flagsOf 1 fl % 32 := by
  have h := flagsOf_lt fl
  have key : ∀ n < 32, flagsOf 1 ⟨BitVec.ofNat 16 (16 * (2 * n % 32))⟩ = 2 * n % 32 := by decide
  exact key _ h

theorem raised_ok (fl : Flags) : FlagsOk (raised fl) := by
  have h := flagsOf_lt fl
  have key : ∀ n < 32, FlagsOk ⟨BitVec.ofNat 16 (16 * (2 * n % 32))⟩ := by decide
  exact key _ h

theorem raised_resume (fl : Flags) :
    (raised fl).bits.toNat.testBit 6 = fl.bits.getLsbD 5 := by
  unfold raised flagsOf
  generalize fl.bits.getLsbD 8 = i
  generalize fl.bits.getLsbD 7 = m
  generalize fl.bits.getLsbD 6 = f
  generalize fl.bits.getLsbD 5 = c
  generalize fl.bits.getLsbD 4 = n
  revert i m f c n
  decide

theorem header_drop (sid ty fl : Nat) (x : Bytes) : (header sid ty fl ++ x).drop 6 = x := rfl

/-- The stream id in the header. -/
def headerSid : Frame → Nat
  | .requestResponse f => f.streamId.toNat
  | .requestFnf f => f.streamId.toNat
  | .requestStream f => f.streamId.toNat
  | .requestChannel f => f.streamId.toNat
  | .requestN f => f.streamId.toNat
  | .cancel f => f.streamId.toNat
  | .payload f => f.streamId.toNat
  | .error f => f.streamId.toNat
  | _ => 0

/-- A frame is a header and a body, and the flags only concern the header. -/
theorem layout_split (u : Nat) (f : Frame) :
    layout u f = header (headerSid f) (typeNumber f) (u * flagNumber f) ++ (layout 0 f).drop 6 := by
  cases f <;>
    simp only [layout, flagNumber, typeNumber, headerSid, flagsOf_scale u, flagsValue_scale u,
      List.append_assoc, Nat.mul_zero, header_drop]
  show _ = header _ _ _ ++ []
  rw [List.append_nil]

theorem layout_split_asRead (u : Nat) (f : Frame) :
    layout u (asRead f) =
      header (headerSid f) (typeNumber f) (u * flagNumber (asRead f)) ++ (layout 0 f).drop 6 := by
  rw [layout_split]
  cases f <;> first | rfl | simp only [asRead, headerSid, typeNumber, layout, List.append_assoc, header_drop]

theorem header_bytes (sid ty fl : Nat) (x : Bytes) : header sid ty fl ++ x =
    be 4 sid ++ BitVec.ofNat 8 ((ty * 1024 + fl) / 256 ^ 1) ::
      BitVec.ofNat 8 ((ty * 1024 + fl) / 256 ^ 0) :: x := rfl

theorem header_four (sid ty fl : Nat) (x : Bytes) :
    (header sid ty fl ++ x).getD 4 0#8 = BitVec.ofNat 8 ((ty * 1024 + fl) / 256) := rfl

theorem header_five (sid ty fl : Nat) (x : Bytes) :
    (header sid ty fl ++ x).getD 5 0#8 = BitVec.ofNat 8 (ty * 1024 + fl) := by
  show BitVec.ofNat 8 ((ty * 1024 + fl) / 1) = _
  rw [Nat.div_one]

theorem header_other {i : Nat} (h4 : i ≠ 4) (h5 : i ≠ 5) (sid ty fl fl' : Nat) (x : Bytes) :
    (header sid ty fl ++ x).getD i 0#8 = (header sid ty fl' ++ x).getD i 0#8 := by
  match i, h4, h5 with
  | 0, _, _ => rfl
  | 1, _, _ => rfl
  | 2, _, _ => rfl
  | 3, _, _ => rfl
  | i + 6, _, _ => rfl

theorem header_agree {m : Nat → U8} {sid ty fl fl' : Nat} {x : Bytes} :
    Agree m (header sid ty fl ++ x) (header sid ty fl' ++ x) ↔
      BitVec.ofNat 8 ((ty * 1024 + fl) / 256) ||| m 4 =
        BitVec.ofNat 8 ((ty * 1024 + fl') / 256) ||| m 4 ∧
      BitVec.ofNat 8 (ty * 1024 + fl) ||| m 5 = BitVec.ofNat 8 (ty * 1024 + fl') ||| m 5 := by
  constructor
  · intro h
    have h4 := h.2 4
    have h5 := h.2 5
    rw [header_four, header_four] at h4
    rw [header_five, header_five] at h5
    exact ⟨h4, h5⟩
  · intro h
    refine ⟨rfl, fun i => ?_⟩
    by_cases h4 : i = 4
    · subst h4; rw [header_four, header_four]; exact h.1
    · by_cases h5 : i = 5
      · subst h5; rw [header_five, header_five]; exact h.2
      · rw [header_other h4 h5 sid ty fl fl' x]

theorem header_typeOf {sid ty fl : Nat} {x : Bytes} (ht : ty < 64) (hf : fl < 1024) :
    typeOf (header sid ty fl ++ x) = ty := by
  unfold typeOf byteAt
  rw [header_four, BitVec.toNat_ofNat]
  omega

theorem header_word {sid ty fl : Nat} {x : Bytes} (ht : ty < 64) (hf : fl < 1024) :
    u16At (header sid ty fl ++ x) 4 = ty * 1024 + fl := by
  unfold u16At byteAt
  rw [header_four, header_five, BitVec.toNat_ofNat, BitVec.toNat_ofNat]
  omega

theorem typeNumber_lt_all (f : Frame) : typeNumber f < 64 := by cases f <;> (simp only [typeNumber]; omega)

/-- The two flag words of a type whose flags the receiver keeps look the same to it. -/
theorem kept_agree {ty n : Nat} (h : keepsFlags ty = true) (ht : ty < 64) (hn : n < 32) (tok : Nat) :
    BitVec.ofNat 8 ((ty * 1024 + 16 * (2 * n % 32)) / 256) ||| ignoredMask ty tok 4 =
      BitVec.ofNat 8 ((ty * 1024 + 32 * n) / 256) ||| ignoredMask ty tok 4 ∧
    BitVec.ofNat 8 (ty * 1024 + 16 * (2 * n % 32)) ||| ignoredMask ty tok 5 =
      BitVec.ofNat 8 (ty * 1024 + 32 * n) ||| ignoredMask ty tok 5 := by
  simp only [ignoredMask, h, if_true, Nat.reduceEqDiff, if_false]
  have key : ∀ ty < 64, keepsFlags ty = true → ∀ n < 32,
      BitVec.ofNat 8 ((ty * 1024 + 16 * (2 * n % 32)) / 256) ||| 0x02#8 =
        BitVec.ofNat 8 ((ty * 1024 + 32 * n) / 256) ||| 0x02#8 ∧
      BitVec.ofNat 8 (ty * 1024 + 16 * (2 * n % 32)) ||| 0x0F#8 =
        BitVec.ofNat 8 (ty * 1024 + 32 * n) ||| 0x0F#8 := by decide +kernel
  exact key ty ht h n hn

theorem kept_agree_zero {ty n : Nat} (h : keepsFlags ty = true) (ht : ty < 64) (hn : n < 32)
    (tok : Nat) (h4 : BitVec.ofNat 8 ((ty * 1024 + 16 * n) / 256) ||| ignoredMask ty tok 4 =
      BitVec.ofNat 8 ((ty * 1024 + 32 * n) / 256) ||| ignoredMask ty tok 4)
    (h5 : BitVec.ofNat 8 (ty * 1024 + 16 * n) ||| ignoredMask ty tok 5 =
      BitVec.ofNat 8 (ty * 1024 + 32 * n) ||| ignoredMask ty tok 5) : n = 0 := by
  simp only [ignoredMask, h, if_true, Nat.reduceEqDiff, if_false] at h4 h5
  have key : ∀ ty < 64, keepsFlags ty = true → ∀ n < 32,
      BitVec.ofNat 8 ((ty * 1024 + 16 * n) / 256) ||| 0x02#8 =
        BitVec.ofNat 8 ((ty * 1024 + 32 * n) / 256) ||| 0x02#8 →
      BitVec.ofNat 8 (ty * 1024 + 16 * n) ||| 0x0F#8 =
        BitVec.ofNat 8 (ty * 1024 + 32 * n) ||| 0x0F#8 → n = 0 := by decide +kernel
  exact key ty ht h n hn h4 h5

/-- The flag words of the other types but KEEPALIVE look all the same. -/
theorem loose_agree {ty a b : Nat} (h : keepsFlags ty = false) (h3 : ty ≠ 3) (ht : ty < 64)
    (ha : a < 1024) (hb : b < 1024) (tok : Nat) :
    BitVec.ofNat 8 ((ty * 1024 + a) / 256) ||| ignoredMask ty tok 4 =
      BitVec.ofNat 8 ((ty * 1024 + b) / 256) ||| ignoredMask ty tok 4 ∧
    BitVec.ofNat 8 (ty * 1024 + a) ||| ignoredMask ty tok 5 =
      BitVec.ofNat 8 (ty * 1024 + b) ||| ignoredMask ty tok 5 := by
  simp only [ignoredMask, h, if_true, Nat.reduceEqDiff, if_false, h3, Bool.false_eq_true]
  have key : ∀ ty < 64, ∀ q < 4, BitVec.ofNat 8 (ty * 4 + q) ||| 0x03#8 =
      BitVec.ofNat 8 (ty * 4) ||| 0x03#8 := by decide +kernel
  have e1 : (ty * 1024 + a) / 256 = ty * 4 + a / 256 := by omega
  have e2 : (ty * 1024 + b) / 256 = ty * 4 + b / 256 := by omega
  have full : ∀ x : U8, x ||| 0xFF#8 = 0xFF#8 := fun x => BitVec.or_allOnes
  rw [e1, e2, key ty ht _ (by omega), key ty ht _ (by omega), full, full]
  exact ⟨rfl, rfl⟩

/-- The flag words of KEEPALIVE. -/
theorem keepalive_agree (n tok : Nat) (hn : n < 32) :
    (BitVec.ofNat 8 ((3 * 1024 + 16 * n) / 256) ||| ignoredMask 3 tok 4 =
      BitVec.ofNat 8 ((3 * 1024 + 32 * 4) / 256) ||| ignoredMask 3 tok 4 ∧
    BitVec.ofNat 8 (3 * 1024 + 16 * n) ||| ignoredMask 3 tok 5 =
      BitVec.ofNat 8 (3 * 1024 + 32 * 4) ||| ignoredMask 3 tok 5) ↔ n / 4 % 2 = 0 := by
  have k : keepsFlags 3 = false := rfl
  simp only [ignoredMask, k, if_true, Nat.reduceEqDiff, if_false, Bool.false_eq_true]
  revert n
  decide +kernel

theorem asRead_number {f : Frame} (h : keepsFlags (typeNumber f) = true) :
    flagNumber (asRead f) = 2 * flagNumber f % 32 := by
  cases f <;> first | exact flagsOf_raised _ | exact absurd h Bool.false_ne_true

theorem number_mul_lt (f : Frame) : 16 * flagNumber f < 1024 := by
  have := flagNumber_lt f; omega

/-- What a peer that follows the diagrams writes is, but for ignored bits, what this side would
write for the frame with the flags raised. -/
theorem asRead_agree (f : Frame) : AgreeExceptIgnored (layout 16 (asRead f)) (layout 32 f) := by
  have hn := flagNumber_lt f
  have ht := typeNumber_lt_all f
  unfold AgreeExceptIgnored
  rw [layout_split_asRead 16, layout_split 32, header_agree,
    header_typeOf ht (number_mul_lt (asRead f))]
  generalize u16At _ 10 = tok
  by_cases hk : keepsFlags (typeNumber f) = true
  · rw [asRead_number hk]
    exact kept_agree hk ht hn tok
  · by_cases h3 : typeNumber f = 3
    · cases f with
      | keepalive v =>
        cases v with
        | mk r p d =>
          cases r with
          | false => exact ⟨rfl, rfl⟩
          | true => exact (keepalive_agree 0 tok (by omega)).2 rfl
      | _ => cases h3
    · exact loose_agree (Bool.eq_false_iff.2 hk) h3 ht (number_mul_lt _) (by omega) tok

theorem unflagged_iff {f : Frame} (h : keepsFlags (typeNumber f) = true) :
    Unflagged f ↔ flagNumber f = 0 := by
  cases f <;> first | exact Iff.rfl | exact absurd h Bool.false_ne_true

/-- The two layouts of a frame look the same to the receiver exactly when no flag that it keeps is
set. -/
theorem layouts_agree_iff (f : Frame) :
    AgreeExceptIgnored (layout 16 f) (layout 32 f) ↔ Unflagged f := by
  have hn := flagNumber_lt f
  have ht := typeNumber_lt_all f
  unfold AgreeExceptIgnored
  rw [layout_split 16, layout_split 32, header_agree, header_typeOf ht (number_mul_lt f)]
  generalize u16At _ 10 = tok
  by_cases hk : keepsFlags (typeNumber f) = true
  · rw [unflagged_iff hk]
    constructor
    · intro h
      exact kept_agree_zero hk ht hn tok h.1 h.2
    · intro h
      rw [h]
      exact ⟨rfl, rfl⟩
  · by_cases h3 : typeNumber f = 3
    · cases f with
      | keepalive v =>
        cases v with
        | mk r p d =>
          cases r with
          | false => exact ⟨fun _ => rfl, fun _ => ⟨rfl, rfl⟩⟩
          | true =>
            refine ⟨fun h => ?_, fun h => ?_⟩
            · exact absurd ((keepalive_agree 4 tok (by omega)).1 h) (by decide)
            · exact absurd (show 4 = 0 from h) (by decide)
      | _ => cases h3
    · refine ⟨fun _ => ?_, fun _ => ?_⟩
      · cases f <;> first | exact trivial | rfl | exact absurd rfl hk | exact absurd rfl h3
      · exact loose_agree (Bool.eq_false_iff.2 hk) h3 ht (number_mul_lt _) (by omega) tok

theorem getLsbD_testBit (x : U16) (i : Nat) : x.toNat.testBit i = x.getLsbD i :=
  BitVec.testBit_toNat x

theorem asRead_wellFormed {f : Frame} (h : WellFormed f) (hl : TokenLegible f) :
    WellFormed (asRead f) := by
  cases f with
  | setup v =>
    refine ⟨raised_ok _, h.2.1, h.2.2.1, ?_, h.2.2.2.2⟩
    show v.resumeToken.isSome = (raised v.flags).bits.toNat.testBit 6
    rw [raised_resume, h.2.2.2.1, getLsbD_testBit]
    exact hl.symm
  | requestResponse v => exact ⟨h.1, raised_ok _, h.2.2⟩
  | requestFnf v => exact ⟨h.1, raised_ok _, h.2.2⟩
  | requestStream v => exact ⟨h.1, raised_ok _, h.2.2⟩
  | requestChannel v => exact ⟨h.1, raised_ok _, h.2.2⟩
  | payload v => exact ⟨h.1, raised_ok _, h.2.2⟩
  | _ => exact h

theorem agree_symm {b b' : Bytes} (ht : typeOf b = typeOf b') (hu : u16At b 10 = u16At b' 10)
    (h : AgreeExceptIgnored b b') : AgreeExceptIgnored b' b := by
  unfold AgreeExceptIgnored at h ⊢
  rw [← ht, ← hu]
  exact ⟨h.1.symm, fun i => (h.2 i).symm⟩

end Binate
