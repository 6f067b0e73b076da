import Verif.Lemmas.Monad
import Verif.Model.Frame

/-! # Decoding primitives on a contiguous buffer

Each primitive is either given its first bytes explicitly or finds the buffer too short. -/

namespace Binate

variable {α : Type}

theorem flat_remaining (b : Bytes) : BufCore.remaining b = b.length := rfl

theorem flat_advance {b : Bytes} {n : Nat} (h : n ≤ b.length) :
    BufCore.advance b n = .ok (b.drop n) := by
  show (Outcome.assert (decide (n ≤ b.length)) _ >>= fun _ => _) = _
  simp [h]

theorem flat_copyToBytes {b : Bytes} {n : Nat} (h : n ≤ b.length) :
    Buf.copyToBytes b n = .ok (b.take n, b.drop n) := by
  show (if n = b.length then Outcome.ok (b, []) else _) = _
  split
  · subst n; simp
  · simp [h]

theorem flat_getArray {b : Bytes} {n : Nat} (h : n ≤ b.length) :
    BufCore.getArray n b = .ok (b.take n, b.drop n) := by
  have h' : n ≤ (BufCore.chunk b).length := h
  rw [BufCore.getArray, if_pos h', flat_advance h]; rfl

section
variable (b0 b1 b2 b3 b4 b5 b6 b7 : U8) (r : Bytes)

theorem flat_getU8 : BufCore.getU8 (b0 :: r : Bytes) = .ok (b0, r) := by
  have h1 : (decide (1 ≤ BufCore.remaining (b0 :: r : Bytes))) = true := by
    simp [flat_remaining]
  rw [BufCore.getU8, h1]
  simp only [Outcome.assert_true, Outcome.ok_bind]
  show (BufCore.advance (b0 :: r : Bytes) 1 >>= _) = _
  rw [flat_advance (by simp)]; rfl

theorem flat_getU16 : BufCore.getU16 (b0 :: b1 :: r : Bytes) = .ok (b0 ++ b1, r) := by
  rw [BufCore.getU16, flat_getArray (by simp)]; rfl

theorem flat_getU32 :
    BufCore.getU32 (b0 :: b1 :: b2 :: b3 :: r : Bytes) = .ok (b0 ++ b1 ++ b2 ++ b3, r) := by
  rw [BufCore.getU32, flat_getArray (by simp)]; rfl

theorem flat_getU64 :
    BufCore.getU64 (b0 :: b1 :: b2 :: b3 :: b4 :: b5 :: b6 :: b7 :: r : Bytes)
      = .ok (b0 ++ b1 ++ b2 ++ b3 ++ b4 ++ b5 ++ b6 ++ b7, r) := by
  rw [BufCore.getU64, flat_getArray (by simp)]; rfl

theorem incomplete_ok {b : Bytes} {n : Nat} (h : n ≤ b.length) :
    (incompleteIfLessThan n : Dec Bytes Unit) b = .ok () b := by
  simp [incompleteIfLessThan, flat_remaining, Nat.not_lt.2 h]

theorem incomplete_err {b : Bytes} {n : Nat} (h : b.length < n) :
    (incompleteIfLessThan n : Dec Bytes Unit) b = .err .inComplete b := by
  simp [incompleteIfLessThan, flat_remaining, h]

theorem lift_ok {β : Type} {f : β → Outcome (α × β)} {s s' : β} {a : α} (h : f s = .ok (a, s')) :
    Dec.lift f s = .ok a s' := by simp [Dec.lift, h]

theorem eatStreamId_cons : (eatStreamId : Dec Bytes U32) (b0 :: b1 :: b2 :: b3 :: r)
    = .ok ((b0 ++ b1 ++ b2 ++ b3) &&& MAX_U31) r := by
  rw [eatStreamId, Dec.bind_ok (incomplete_ok (by simp)), Dec.bind_ok (lift_ok (flat_getU32 ..))]
  rfl

theorem eatU31_cons : (eatU31 : Dec Bytes U32) (b0 :: b1 :: b2 :: b3 :: r)
    = .ok ((b0 ++ b1 ++ b2 ++ b3) &&& MAX_U31) r := by
  rw [eatU31, Dec.bind_ok (incomplete_ok (by simp)), Dec.bind_ok (lift_ok (flat_getU32 ..))]
  rfl

theorem eatU32_cons : (eatU32 : Dec Bytes U32) (b0 :: b1 :: b2 :: b3 :: r)
    = .ok (b0 ++ b1 ++ b2 ++ b3) r := by
  rw [eatU32, Dec.bind_ok (incomplete_ok (by simp)), lift_ok (flat_getU32 ..)]

theorem eatU63_cons :
    (eatU63 : Dec Bytes U64) (b0 :: b1 :: b2 :: b3 :: b4 :: b5 :: b6 :: b7 :: r)
    = .ok ((b0 ++ b1 ++ b2 ++ b3 ++ b4 ++ b5 ++ b6 ++ b7) &&& MAX_U63) r := by
  rw [eatU63, Dec.bind_ok (incomplete_ok (by simp)), Dec.bind_ok (lift_ok (flat_getU64 ..))]
  rfl

theorem eatU16_cons : (eatU16 : Dec Bytes U16) (b0 :: b1 :: r) = .ok (b0 ++ b1) r := by
  rw [eatU16, Dec.bind_ok (incomplete_ok (by simp)), lift_ok (flat_getU16 ..)]

theorem eatU8_cons : (eatU8 : Dec Bytes U8) (b0 :: b1 :: r) = .ok b0 (b1 :: r) := by
  rw [eatU8, Dec.bind_ok (incomplete_ok (by simp)), lift_ok (flat_getU8 ..)]

theorem eatVersion_cons : (eatVersion : Dec Bytes Version) (b0 :: b1 :: b2 :: b3 :: r)
    = .ok ⟨b0 ++ b1, b2 ++ b3⟩ r := by
  rw [eatVersion, Dec.bind_ok (incomplete_ok (by simp)), Dec.bind_ok (lift_ok (flat_getU16 ..)),
    Dec.bind_ok (lift_ok (flat_getU16 ..))]
  rfl

end

section short
variable {b : Bytes}

theorem eatStreamId_short (h : b.length < 4) :
    (eatStreamId : Dec Bytes U32) b = .err .inComplete b := by
  rw [eatStreamId, Dec.bind_err (incomplete_err h)]

theorem eatU31_short (h : b.length < 4) : (eatU31 : Dec Bytes U32) b = .err .inComplete b := by
  rw [eatU31, Dec.bind_err (incomplete_err h)]

theorem eatU32_short (h : b.length < 4) : (eatU32 : Dec Bytes U32) b = .err .inComplete b := by
  rw [eatU32, Dec.bind_err (incomplete_err h)]

theorem eatU63_short (h : b.length < 8) : (eatU63 : Dec Bytes U64) b = .err .inComplete b := by
  rw [eatU63, Dec.bind_err (incomplete_err h)]

theorem eatU16_short (h : b.length < 2) : (eatU16 : Dec Bytes U16) b = .err .inComplete b := by
  rw [eatU16, Dec.bind_err (incomplete_err h)]

theorem eatU8_short (h : b.length < 2) : (eatU8 : Dec Bytes U8) b = .err .inComplete b := by
  rw [eatU8, Dec.bind_err (incomplete_err h)]

theorem eatVersion_short (h : b.length < 4) :
    (eatVersion : Dec Bytes Version) b = .err .inComplete b := by
  rw [eatVersion, Dec.bind_err (incomplete_err h)]

theorem eatBytes_short {n : Nat} (h : b.length < n) :
    (eatBytes n : Dec Bytes Bytes) b = .err .inComplete b := by
  rw [eatBytes, Dec.bind_err (incomplete_err h)]

end short

theorem eatBytes_ok {b : Bytes} {n : Nat} (h : n ≤ b.length) :
    (eatBytes n : Dec Bytes Bytes) b = .ok (b.take n) (b.drop n) := by
  rw [eatBytes, Dec.bind_ok (incomplete_ok h), lift_ok (flat_copyToBytes h)]

/-- A byte string as an optional field: the empty string is absent. -/
def optOf (b : Bytes) : Option Bytes := if b = [] then none else some b

theorem eatRest_flat (b : Bytes) : (eatRest : Dec Bytes (Option Bytes)) b = .ok (optOf b) [] := by
  cases b with
  | nil => rfl
  | cons x xs =>
    show (remainingD >>= _ : Dec Bytes _) (x :: xs) = _
    rw [Dec.bind_ok (show (remainingD : Dec Bytes Nat) (x :: xs) = .ok (xs.length + 1) (x :: xs)
      from rfl)]
    show (eatBytes (xs.length + 1) >>= _ : Dec Bytes _) (x :: xs) = _
    rw [Dec.bind_ok (eatBytes_ok (by simp))]
    simp [optOf]

theorem eatU24_cons (b0 b1 b2 : U8) (r : Bytes) :
    (eatU24 : Dec Bytes U24) (b0 :: b1 :: b2 :: r) = .ok ⟨b0, b1 ++ b2⟩ r := by
  rw [eatU24, Dec.bind_ok (eatU8_cons ..), Dec.bind_ok (eatU16_cons ..)]; rfl

theorem eatU24_two (b0 b1 : U8) :
    (eatU24 : Dec Bytes U24) [b0, b1] = .err .inComplete [b1] := by
  rw [eatU24, Dec.bind_ok (eatU8_cons ..), Dec.bind_err (eatU16_short (by simp))]

theorem eatU24_short {b : Bytes} (h : b.length < 2) :
    (eatU24 : Dec Bytes U24) b = .err .inComplete b := by
  rw [eatU24, Dec.bind_err (eatU8_short h)]

/-- The 24-bit length of three bytes. -/
def len24 (b0 b1 b2 : U8) : Nat := b0.toNat * 65536 + b1.toNat * 256 + b2.toNat

theorem toNat_append8 {w : Nat} (a : BitVec w) (b : U8) :
    (a ++ b).toNat = a.toNat * 256 + b.toNat := by
  rw [BitVec.toNat_append, ← Nat.shiftLeft_add_eq_or_of_lt b.isLt, Nat.shiftLeft_eq]

theorem intoUsize_eq (b0 b1 b2 : U8) : (U24.intoUsize ⟨b0, b1 ++ b2⟩) = len24 b0 b1 b2 := by
  have h0 := b0.isLt; have h1 := b1.isLt; have h2 := b2.isLt
  have h3 := toNat_append8 b1 b2
  simp only [U24.intoUsize, BitVec.toNat_or, BitVec.toNat_shiftLeft, BitVec.toNat_setWidth, h3]
  rw [Nat.mod_eq_of_lt (a := b0.toNat) (by omega), Nat.mod_eq_of_lt (a := _ + _) (by omega),
    Nat.mod_eq_of_lt (by rw [Nat.shiftLeft_eq]; omega),
    ← Nat.shiftLeft_add_eq_or_of_lt (by omega), Nat.shiftLeft_eq, len24]
  omega

theorem eatMetadataLen_cons (b0 b1 b2 : U8) (r : Bytes) :
    (eatMetadataLen true : Dec Bytes Nat) (b0 :: b1 :: b2 :: r) = .ok (len24 b0 b1 b2) r := by
  rw [eatMetadataLen, if_pos rfl, Dec.bind_ok (eatU24_cons ..), intoUsize_eq]; rfl

theorem optOf_take {r : Bytes} {n : Nat} (h0 : 0 < n) (h : n ≤ r.length) :
    optOf (r.take n) = some (r.take n) := by
  rw [optOf, if_neg]
  intro h'
  have := congrArg List.length h'
  simp only [List.length_take, List.length_nil] at this
  omega

theorem eatMetadata_ok {r : Bytes} {n : Nat} (h : n ≤ r.length) :
    (eatMetadata n : Dec Bytes (Option Bytes)) r = .ok (optOf (r.take n)) (r.drop n) := by
  rw [eatMetadata]
  by_cases h0 : n = 0
  · subst h0; rfl
  · rw [if_pos (Nat.pos_of_ne_zero h0), Dec.bind_ok (eatBytes_ok h),
      optOf_take (Nat.pos_of_ne_zero h0) h]; rfl

theorem eatMetadata_short {r : Bytes} {n : Nat} (h : r.length < n) :
    (eatMetadata n : Dec Bytes (Option Bytes)) r = .err .inComplete r := by
  rw [eatMetadata, if_pos (by omega), Dec.bind_err (eatBytes_short h)]

/-- What `eatPayload true` does with the bytes after the length field. -/
theorem eatPayload_cons (b0 b1 b2 : U8) (r : Bytes) :
    (eatPayload true : Dec Bytes Payload) (b0 :: b1 :: b2 :: r) =
      if r.length < len24 b0 b1 b2 then .err .inComplete r
      else .ok ⟨optOf (r.take (len24 b0 b1 b2)), optOf (r.drop (len24 b0 b1 b2))⟩ [] := by
  rw [eatPayload, Dec.bind_ok (eatMetadataLen_cons ..)]
  split
  · next h => rw [Dec.bind_err (eatMetadata_short h)]
  · next h => rw [Dec.bind_ok (eatMetadata_ok (Nat.not_lt.1 h)), Dec.bind_ok (eatRest_flat _)]; rfl

theorem eatPayload_short {b : Bytes} (h : b.length < 3) :
    ∃ s, (eatPayload true : Dec Bytes Payload) b = .err .inComplete s ∧ s <:+ b := by
  have key : ∀ s, (eatU24 : Dec Bytes U24) b = .err .inComplete s →
      (eatPayload true : Dec Bytes Payload) b = .err .inComplete s := by
    intro s hs
    rw [eatPayload, Dec.bind_err (s' := s) (e := .inComplete)]
    rw [eatMetadataLen, if_pos rfl, Dec.bind_err hs]
  match b, h, key with
  | [], _, key => exact ⟨[], key _ (eatU24_short (by simp)), List.suffix_refl _⟩
  | [x], _, key => exact ⟨[x], key _ (eatU24_short (by simp)), List.suffix_refl _⟩
  | [x, y], _, key => exact ⟨[y], key _ (eatU24_two ..), ⟨[x], rfl⟩⟩
  | _ :: _ :: _ :: _, h, _ => simp at h; omega

end Binate
