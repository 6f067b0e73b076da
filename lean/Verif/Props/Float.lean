import Verif.Lemmas.Nearest

/-! # What `PayloadChunks::len` computes, for all sizes (C98) -/

namespace Binate

open Spec PayloadChunks

/-- **C98.** After any number of calls of `next`, `len()` is exactly what the code says when every conversion
and the division round as IEEE-754 prescribes: for both parts, the bytes left and the chunk size are rounded
to binary32, the quotient is rounded again, the result is the ceiling, saturated to 64 bits, and the larger
of the two is returned. Lengths and chunk size are any `usize`. -/
theorem C98_len {p : Payload} {size : Nat} {c : PayloadChunks} (hc : p.chunks size = .ok c)
    (hs : size < 2 ^ 64) (hm : (p.metadata.getD []).length < 2 ^ 64)
    (hd : (p.data.getD []).length < 2 ^ 64) (n k : Nat) :
    (afterNext n c).len = k ↔
      ∃ i j, CeilQuotient ((p.metadata.getD []).length - n * size) size i ∧
        CeilQuotient ((p.data.getD []).length - n * size) size j ∧ k = max i j := by
  obtain ⟨h0, rfl⟩ := chunks_eq_ok hc
  obtain ⟨l1, l2, l3⟩ := afterNext_left n ⟨size, p.metadata, p.data⟩
  rw [len_left, l1, l2, l3]
  constructor
  · rintro rfl
    exact ⟨_, _, (lenPart_iff (by omega) hs h0).2 rfl, (lenPart_iff (by omega) hs h0).2 rfl, rfl⟩
  · rintro ⟨i, j, hi, hj, rfl⟩
    rw [← (lenPart_iff (by omega) hs h0).1 hi, ← (lenPart_iff (by omega) hs h0).1 hj]

/-- **C98**, the value above is well defined: rounding a `usize` or the quotient of two rounded ones gives
exactly one number of the format. -/
theorem C98_rounding :
    (∀ n : Nat, n < 2 ^ 64 → ∃! x, Rounds n x) ∧
    (∀ (n m : Nat) (a b : ℚ), n < 2 ^ 64 → 0 < m → m < 2 ^ 64 → Rounds n a → Rounds m b →
      ∃! x, Rounds (a / b) x) := by
  refine ⟨fun n h => ⟨_, round_rounds (usize_range h), fun y hy => (round_iff (usize_range h)).1 hy⟩, ?_⟩
  intro n m a b hn h0 hm ha hb
  rw [(round_iff (usize_range hn)).1 ha, (round_iff (usize_range hm)).1 hb]
  exact ⟨_, round_rounds (quotient_range hn hm h0),
    fun y hy => (round_iff (quotient_range hn hm h0)).1 hy⟩

/-- **C98**, `len()` never grows while the iterator is used. -/
theorem C98_never_grows {p : Payload} {size : Nat} {c : PayloadChunks} (hc : p.chunks size = .ok c)
    (hs : size < 2 ^ 64) (hm : (p.metadata.getD []).length < 2 ^ 64)
    (hd : (p.data.getD []).length < 2 ^ 64) {n m : Nat} (h : n ≤ m) :
    (afterNext m c).len ≤ (afterNext n c).len := by
  obtain ⟨h0, rfl⟩ := chunks_eq_ok hc
  obtain ⟨l1, l2, l3⟩ := afterNext_left n ⟨size, p.metadata, p.data⟩
  obtain ⟨k1, k2, k3⟩ := afterNext_left m ⟨size, p.metadata, p.data⟩
  have hmul : n * size ≤ m * size := Nat.mul_le_mul_right _ h
  rw [len_left, len_left, l1, l2, l3, k1, k2, k3]
  exact max_le_max (lenPart_mono (by show _ - m * size ≤ _ - n * size; omega)
    (Nat.lt_of_le_of_lt (Nat.sub_le ..) hm) hs h0)
    (lenPart_mono (by show _ - m * size ≤ _ - n * size; omega)
      (Nat.lt_of_le_of_lt (Nat.sub_le ..) hd) hs h0)

/-- **C98**, `len()` is zero exactly when no byte is left. -/
theorem C98_zero {p : Payload} {size : Nat} {c : PayloadChunks} (hc : p.chunks size = .ok c) (n : Nat) :
    (afterNext n c).len = 0 ↔
      (p.metadata.getD []).length ≤ n * size ∧ (p.data.getD []).length ≤ n * size := by
  obtain ⟨h0, rfl⟩ := chunks_eq_ok hc
  obtain ⟨l1, l2, l3⟩ := afterNext_left n ⟨size, p.metadata, p.data⟩
  rw [len_left, l1, l2, l3, Nat.max_eq_zero_iff, lenPart_eq_zero h0, lenPart_eq_zero h0]
  show (p.metadata.getD []).length - n * size = 0 ∧ (p.data.getD []).length - n * size = 0 ↔ _
  omega

/-- 2^24 + 1 is halfway between two numbers of the format; the even one is 2^24. -/
example : Rounds ((2 ^ 24 + 1 : ℕ) : ℚ) (2 ^ 24) ∧ ¬ Rounds ((2 ^ 24 + 1 : ℕ) : ℚ) (2 ^ 24 + 2) := by
  have r : F32.round ((2 ^ 24 + 1 : ℕ) : ℚ) = 2 ^ 24 := by
    have : Int.log 2 ((2 ^ 24 + 1 : ℕ) : ℚ) = 24 := by
      rw [Int.log_natCast]
      exact congrArg _ (Nat.log_eq_of_pow_le_of_lt_pow (by norm_num) (by norm_num) : Nat.log 2 _ = 24)
    unfold F32.round F32.ulp
    rw [this]
    have f : ⌊((2 ^ 24 + 1 : ℕ) : ℚ) / 2 ^ ((24 : ℤ) - 23)⌋ = 2 ^ 23 := by
      rw [Int.floor_eq_iff]
      norm_num
    unfold F32.roundHalfEven
    rw [f]
    norm_num
  have e := @round_iff ((2 ^ 24 + 1 : ℕ) : ℚ)
  refine ⟨(e (usize_range (by norm_num))).2 r.symm, fun h => ?_⟩
  have := (e (usize_range (by norm_num))).1 h
  rw [r] at this
  norm_num at this

example : ((Payload.mk none (some [1#8, 2#8, 3#8])).chunks 2) = .ok ⟨2, none, some [1#8, 2#8, 3#8]⟩ := rfl

end Binate
