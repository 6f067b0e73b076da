import Verif.Model.Capacity
import Verif.Lemmas.Encode

/-! # Lemmas about the buffer of `to_bytes` -/

namespace Binate

/-- Pieces that fit are just appended. -/
theorem foldl_fits (pieces : List Bytes) (b : BytesMut)
    (h : b.bytes.length + pieces.flatten.length ≤ b.capacity) :
    pieces.foldl BytesMut.extendFromSlice b = { b with bytes := b.bytes ++ pieces.flatten } := by
  induction pieces generalizing b with
  | nil => simp
  | cons p pieces ih =>
    rw [List.flatten_cons, List.length_append] at h
    have hp : b.extendFromSlice p = { b with bytes := b.bytes ++ p } := if_pos (by omega)
    rw [List.foldl_cons, hp, ih _ (by simp only [List.length_append]; omega)]
    simp

theorem allocated_mono (ps : List Bytes) (b : BytesMut) :
    b.allocated ≤ (ps.foldl BytesMut.extendFromSlice b).allocated := by
  induction ps generalizing b with
  | nil => exact Nat.le_refl _
  | cons p ps ih =>
    refine Nat.le_trans ?_ (ih (b.extendFromSlice p))
    unfold BytesMut.extendFromSlice
    split
    · exact Nat.le_refl _
    · exact Nat.le_succ _

/-- Pieces that do not fit make it grow. -/
theorem foldl_grows (ps : List Bytes) (b : BytesMut) (h1 : b.bytes.length ≤ b.capacity)
    (h2 : b.capacity < b.bytes.length + ps.flatten.length) :
    b.allocated < (ps.foldl BytesMut.extendFromSlice b).allocated := by
  induction ps generalizing b with
  | nil =>
    simp only [List.flatten_nil, List.length_nil] at h2
    omega
  | cons p ps ih =>
    rw [List.flatten_cons, List.length_append] at h2
    rw [List.foldl_cons]
    by_cases hp : p.length ≤ b.capacity - b.bytes.length
    · have he : b.extendFromSlice p = { b with bytes := b.bytes ++ p } := if_pos hp
      rw [he]
      refine ih { b with bytes := b.bytes ++ p } ?_ ?_ <;> simp only [List.length_append] <;> omega
    · refine Nat.lt_of_lt_of_le ?_ (allocated_mono ps _)
      have he : (b.extendFromSlice p).allocated = b.allocated + 1 := by
        unfold BytesMut.extendFromSlice
        rw [if_neg hp]
      omega

end Binate
