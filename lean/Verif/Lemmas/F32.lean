import Verif.Model.F32
import Verif.Spec.Chunks
import Mathlib.Tactic.Linarith
import Mathlib.Tactic.NormNum
import Mathlib.Tactic.Positivity
import Mathlib.Tactic.FieldSimp
import Mathlib.Tactic.Ring

/-! # Facts about binary32 rounding -/

namespace Binate.F32

theorem roundHalfEven_int (n : ℤ) : roundHalfEven n = n := by
  unfold roundHalfEven
  simp

theorem roundHalfEven_le {x : ℚ} {n : ℤ} (h : x ≤ n) : roundHalfEven x ≤ n := by
  unfold roundHalfEven
  simp only
  have h1 : ⌊x⌋ ≤ n := by
    have := Int.floor_le x
    exact_mod_cast this.trans h
  by_cases hr : x - ⌊x⌋ < 1 / 2
  · rw [if_pos hr]; exact h1
  · have : ⌊x⌋ ≠ n := by
      intro he
      rw [he] at hr
      linarith
    have : ⌊x⌋ + 1 ≤ n := by omega
    rw [if_neg hr]
    split
    · exact this
    · split <;> omega

theorem le_roundHalfEven {x : ℚ} {n : ℤ} (h : (n : ℚ) ≤ x) : n ≤ roundHalfEven x := by
  have h1 : n ≤ ⌊x⌋ := Int.le_floor.2 h
  unfold roundHalfEven
  simp only
  split
  · exact h1
  · split
    · omega
    · split <;> omega

theorem sub_roundHalfEven_le (x : ℚ) : x - roundHalfEven x ≤ 1 / 2 := by
  have h2 := Int.lt_floor_add_one x
  unfold roundHalfEven
  simp only
  split
  · linarith
  · split
    · push_cast; linarith
    · split
      · linarith
      · push_cast; linarith

theorem roundHalfEven_sub_le (x : ℚ) : roundHalfEven x - x ≤ 1 / 2 := by
  have h2 := Int.floor_le x
  unfold roundHalfEven
  simp only
  split
  · linarith
  · rename_i h
    split
    · push_cast; linarith
    · split
      · linarith
      · push_cast; linarith

theorem ulp_pos (q : ℚ) : 0 < ulp q := by
  unfold ulp
  exact zpow_pos (by norm_num) _

theorem ulp_mul (q : ℚ) : ulp q * 2 ^ 23 = (2 : ℚ) ^ Int.log 2 q := by
  unfold ulp
  rw [zpow_sub₀ (by norm_num)]
  norm_num

/-- `2^23 ≤ q / ulp q < 2^24`. -/
theorem two_pow_le_div {q : ℚ} (h : 0 < q) : (2 : ℚ) ^ 23 ≤ q / ulp q := by
  rw [le_div_iff₀ (ulp_pos q), mul_comm, ulp_mul]
  have := Int.zpow_log_le_self (b := 2) (by norm_num) h
  exact_mod_cast this

theorem round_of_pos {q : ℚ} (h : 0 < q) : round q = roundHalfEven (q / ulp q) * ulp q := by
  unfold round
  rw [if_neg h.ne']

theorem round_ge_pow {q : ℚ} (h : 0 < q) : (2 : ℚ) ^ Int.log 2 q ≤ round q := by
  rw [round_of_pos h, ← ulp_mul, mul_comm (ulp q)]
  have : (2 ^ 23 : ℤ) ≤ roundHalfEven (q / ulp q) :=
    le_roundHalfEven (by push_cast; exact two_pow_le_div h)
  have h2 : ((2 ^ 23 : ℤ) : ℚ) ≤ roundHalfEven (q / ulp q) := by exact_mod_cast this
  push_cast at h2
  exact mul_le_mul_of_nonneg_right h2 (ulp_pos q).le

theorem round_pos {q : ℚ} (h : 0 < q) : 0 < round q :=
  lt_of_lt_of_le (zpow_pos (by norm_num) _) (round_ge_pow h)

theorem round_exact {q : ℚ} (h : 0 < q) {n : ℤ} (hn : q = n * ulp q) : round q = q := by
  rw [round_of_pos h]
  have : q / ulp q = n := by
    rw [div_eq_iff (ulp_pos q).ne']
    exact hn
  rw [this, roundHalfEven_int]
  exact hn.symm

theorem sub_round_le {q : ℚ} (h : 0 < q) : q - round q ≤ ulp q / 2 := by
  rw [round_of_pos h]
  have h1 := sub_roundHalfEven_le (q / ulp q)
  have h2 : q / ulp q * ulp q = q := div_mul_cancel₀ _ (ulp_pos q).ne'
  have := mul_le_mul_of_nonneg_right h1 (ulp_pos q).le
  rw [sub_mul, h2] at this
  linarith

theorem round_sub_le {q : ℚ} (h : 0 < q) : round q - q ≤ ulp q / 2 := by
  rw [round_of_pos h]
  have h1 := roundHalfEven_sub_le (q / ulp q)
  have h2 : q / ulp q * ulp q = q := div_mul_cancel₀ _ (ulp_pos q).ne'
  have := mul_le_mul_of_nonneg_right h1 (ulp_pos q).le
  rw [sub_mul, h2] at this
  linarith

theorem ulp_le (q : ℚ) (h : 0 < q) : ulp q * 2 ^ 23 ≤ q := by
  have := two_pow_le_div h
  rwa [le_div_iff₀ (ulp_pos q), mul_comm] at this

/-- Integers are multiples of `ulp q` when `q < 2^24`. -/
theorem int_mul_ulp {q : ℚ} (h0 : 0 < q) (h : q < 2 ^ 24) (m : ℤ) :
    ∃ n : ℤ, (m : ℚ) = n * ulp q := by
  have hl : Int.log 2 q < 24 := by
    have := (Int.lt_zpow_iff_log_lt (b := 2) (by norm_num) (x := 24) h0).1 (by exact_mod_cast h)
    exact this
  obtain ⟨k, hk⟩ : ∃ k : ℕ, Int.log 2 q - 23 = -(k : ℤ) := ⟨(23 - Int.log 2 q).toNat, by omega⟩
  refine ⟨m * 2 ^ k, ?_⟩
  unfold ulp
  rw [hk, zpow_neg, zpow_natCast]
  push_cast
  field_simp

theorem pow24_exact : round (2 ^ 24 : ℚ) = 2 ^ 24 := by
  have hl : Int.log 2 (2 ^ 24 : ℚ) = 24 := by
    have := Int.log_zpow (R := ℚ) (b := 2) (by norm_num) 24
    exact_mod_cast this
  apply round_exact (by positivity) (n := 2 ^ 23)
  unfold ulp
  rw [hl]
  norm_num

theorem round_le_int {q : ℚ} (h0 : 0 < q) {m : ℤ} (h : q ≤ m) (hm : (m : ℚ) ≤ 2 ^ 24) :
    round q ≤ m := by
  rcases lt_or_eq_of_le (h.trans hm) with hq | hq
  · obtain ⟨n, hn⟩ := int_mul_ulp h0 hq m
    rw [round_of_pos h0, hn]
    have : q / ulp q ≤ n := by rw [div_le_iff₀ (ulp_pos q), ← hn]; exact h
    have h2 : (roundHalfEven (q / ulp q) : ℚ) ≤ n := by exact_mod_cast roundHalfEven_le this
    exact mul_le_mul_of_nonneg_right h2 (ulp_pos q).le
  · rw [hq, pow24_exact, ← hq]
    exact h

theorem ofUsize_exact {n : Nat} (h : n ≤ 2 ^ 24) : ofUsize n = n := by
  unfold ofUsize
  rcases Nat.eq_zero_or_pos n with rfl | hp
  · unfold round; simp
  · have hp' : (0 : ℚ) < n := by exact_mod_cast hp
    rcases lt_or_eq_of_le h with hl | rfl
    · obtain ⟨k, hk⟩ := int_mul_ulp hp' (by exact_mod_cast hl) n
      exact round_exact hp' (n := k) (by exact_mod_cast hk)
    · push_cast; exact pow24_exact

theorem ofUsize_big {n : Nat} (h : 2 ^ 24 < n) : (2 : ℚ) ^ 24 ≤ ofUsize n := by
  have hp' : (0 : ℚ) < n := by exact_mod_cast (by omega : 0 < n)
  refine le_trans ?_ (round_ge_pow hp')
  have : 24 ≤ Int.log 2 (n : ℚ) :=
    (Int.zpow_le_iff_le_log (b := 2) (by norm_num) (x := 24) hp').1 (by exact_mod_cast h.le)
  have := zpow_le_zpow_right₀ (a := (2 : ℚ)) (by norm_num) this
  exact_mod_cast this

/-- The key fact: the rounded quotient of two exact operands has the right ceiling. -/
theorem ceil_round_div {a b : Nat} (ha : 0 < a) (ha' : a ≤ 2 ^ 24) (hb : 0 < b) :
    ⌈round ((a : ℚ) / b)⌉ = ⌈(a : ℚ) / b⌉ := by
  have haq : (0 : ℚ) < a := by exact_mod_cast ha
  have hbq : (0 : ℚ) < b := by exact_mod_cast hb
  have hb1 : (1 : ℚ) ≤ b := by exact_mod_cast hb
  have haq' : (a : ℚ) ≤ 2 ^ 24 := by exact_mod_cast ha'
  have hq0 : (0 : ℚ) < a / b := div_pos haq hbq
  set q : ℚ := a / b with hq
  have hqa : q ≤ 2 ^ 24 := by
    rw [hq, div_le_iff₀ hbq]
    nlinarith
  set m : ℤ := ⌈q⌉ with hm
  have hm1 : q ≤ m := Int.le_ceil q
  have hm2 : (m : ℚ) < q + 1 := Int.ceil_lt_add_one q
  have hm3 : (m : ℚ) ≤ 2 ^ 24 := by
    have : m ≤ (2 ^ 24 : ℤ) := Int.ceil_le.2 (by push_cast; exact hqa)
    exact_mod_cast this
  rw [Int.ceil_eq_iff]
  refine ⟨?_, round_le_int hq0 hm1 hm3⟩
  by_contra hc
  push Not at hc
  -- `q` exceeds the integer `m - 1` by at least `1 / b`
  have hgap : 1 / (b : ℚ) ≤ q - (m - 1) := by
    have h1 : (m - 1 : ℤ) * (b : ℤ) < a := by
      have : ((m : ℚ) - 1) * b < a := by
        have := (lt_div_iff₀ hbq).1 (show ((m : ℚ) - 1) < a / b by rw [← hq]; linarith)
        exact this
      exact_mod_cast this
    have h2 : (m - 1 : ℤ) * (b : ℤ) + 1 ≤ a := h1
    have h3 : ((m : ℚ) - 1) * b + 1 ≤ a := by exact_mod_cast h2
    have h4 : q * b = a := by rw [hq]; exact div_mul_cancel₀ _ hbq.ne'
    rw [div_le_iff₀ hbq]
    linarith
  have h1 := sub_round_le hq0
  have h2 := ulp_le q hq0
  have h3 : q / 2 ^ 24 ≤ 1 / b := by
    rw [div_le_div_iff₀ (by positivity) hbq]
    have h4 : q * b = a := by rw [hq]; exact div_mul_cancel₀ _ hbq.ne'
    linarith
  -- all inequalities are equalities
  have h5 : q = 2 ^ 23 * ulp q := by
    have : q / 2 ^ 24 * 2 ^ 24 = q := div_mul_cancel₀ _ (by positivity)
    nlinarith
  have h6 : round q = q := round_exact hq0 (n := 2 ^ 23) (by push_cast; exact h5)
  have : 0 < 1 / (b : ℚ) := by positivity
  linarith

theorem ceil_div_nat (a : Nat) {b : Nat} (hb : 0 < b) :
    ⌈(a : ℚ) / b⌉ = (Spec.ceilDiv a b : ℕ) := by
  have hbq : (0 : ℚ) < b := by exact_mod_cast hb
  rw [Int.ceil_eq_iff]
  unfold Spec.ceilDiv
  have e := Nat.div_add_mod (a + b - 1) b
  have l := Nat.mod_lt (a + b - 1) hb
  set k := (a + b - 1) / b
  constructor
  · rw [lt_div_iff₀ hbq]
    have : (k : ℤ) * b < a + b := by
      have : b * k < a + b := by omega
      rw [Nat.mul_comm] at this
      exact_mod_cast this
    have : (k : ℚ) * b < a + b := by exact_mod_cast this
    push_cast
    linarith
  · rw [div_le_iff₀ hbq]
    have : a ≤ b * k := by omega
    rw [Nat.mul_comm] at this
    exact_mod_cast this

end Binate.F32

namespace Binate.PayloadChunks

open F32

theorem lenPart_zero (b : Nat) : lenPart b 0 = 0 := by
  unfold lenPart F32.div F32.ofUsize F32.round F32.toUsize F32.ceil
  simp

theorem lenPart_exact {a b : Nat} (ha : a ≤ 2 ^ 24) (hb : 0 < b) :
    lenPart b a = Spec.ceilDiv a b := by
  rcases Nat.eq_zero_or_pos a with rfl | hp
  · rw [lenPart_zero, Spec.ceilDiv, Nat.zero_add, Nat.div_eq_of_lt (by omega)]
  · have hc : ∃ k : ℕ, k ≤ 2 ^ 24 ∧
        F32.ceil (F32.div (F32.ofUsize a) (F32.ofUsize b)) = k ∧ k = Spec.ceilDiv a b := by
      have hle : Spec.ceilDiv a b ≤ 2 ^ 24 := by
        refine le_trans ?_ ha
        unfold Spec.ceilDiv
        have : a + b - 1 ≤ a * b := by
          obtain ⟨c, rfl⟩ : ∃ c, b = c + 1 := ⟨b - 1, by omega⟩
          have : c * 1 ≤ c * a := Nat.mul_le_mul_left _ hp
          rw [Nat.mul_add, Nat.mul_comm a c]
          omega
        exact Nat.div_le_of_le_mul (by rw [Nat.mul_comm]; exact this)
      refine ⟨Spec.ceilDiv a b, hle, ?_, rfl⟩
      unfold F32.ceil F32.div
      rw [ofUsize_exact ha]
      by_cases hb' : b ≤ 2 ^ 24
      · rw [ofUsize_exact hb', ceil_round_div hp ha hb, ceil_div_nat a hb]
      · have hbig := ofUsize_big (Nat.lt_of_not_le hb')
        have haq : (0 : ℚ) < a := by exact_mod_cast hp
        have haq' : (a : ℚ) ≤ 2 ^ 24 := by exact_mod_cast ha
        have hfb : (0 : ℚ) < F32.ofUsize b := lt_of_lt_of_le (by positivity) hbig
        have hq0 : (0 : ℚ) < a / F32.ofUsize b := div_pos haq hfb
        have hq1 : (a : ℚ) / F32.ofUsize b ≤ (1 : ℤ) := by
          push_cast
          rw [div_le_one hfb]
          exact haq'.trans hbig
        have h1 : Spec.ceilDiv a b = 1 := by
          unfold Spec.ceilDiv
          rw [Nat.div_eq_iff (by omega)]
          omega
        rw [h1, Int.ceil_eq_iff]
        have r0 := round_pos hq0
        have r1 := round_le_int hq0 hq1 (by norm_num)
        constructor
        · push_cast; linarith
        · exact_mod_cast r1
    obtain ⟨k, h1, h2, h3⟩ := hc
    unfold lenPart F32.toUsize
    rw [h2, ← h3, Int.toNat_natCast]
    omega

/-- `2^24 + 1` is not representable: rounding drops the last chunk. -/
theorem lenPart_inexact : lenPart 1 (2 ^ 24 + 1) = 2 ^ 24 := by
  have hl : Int.log 2 ((2 ^ 24 + 1 : ℕ) : ℚ) = 24 := by
    rw [Int.log_natCast]
    have : Nat.log 2 (2 ^ 24 + 1) = 24 := by
      rw [Nat.log_eq_iff (by norm_num)]
      norm_num
    exact_mod_cast this
  have h1 : F32.ofUsize (2 ^ 24 + 1) = 2 ^ 24 := by
    unfold F32.ofUsize F32.round F32.ulp
    rw [hl, if_neg (by positivity)]
    have hf : ⌊((2 ^ 24 + 1 : ℕ) : ℚ) / 2 ^ ((24 : ℤ) - 23)⌋ = 2 ^ 23 := by
      rw [Int.floor_eq_iff]
      norm_num
    unfold F32.roundHalfEven
    simp only [hf]
    norm_num
  have h2 : F32.ofUsize 1 = 1 := by
    have := F32.ofUsize_exact (n := 1) (by norm_num)
    exact_mod_cast this
  unfold lenPart F32.div F32.ceil F32.toUsize
  rw [h1, h2, div_one, F32.pow24_exact]
  have : ⌈(2 ^ 24 : ℚ)⌉ = ((2 ^ 24 : ℕ) : ℤ) := by
    rw [Int.ceil_eq_iff]
    push_cast
    norm_num
  rw [this, Int.toNat_natCast]
  norm_num

/-! ## Error bound -/

theorem round_rel {q : ℚ} (h : 0 < q) : |F32.round q - q| * 2 ^ 24 ≤ q := by
  have h1 := sub_round_le h
  have h2 := round_sub_le h
  have h3 := ulp_le q h
  have : |F32.round q - q| ≤ ulp q / 2 := abs_le.2 ⟨by linarith, h2⟩
  linarith

/-- Two conversions and a division: the relative error is below 2^-22. -/
theorem div_rel {a b : ℚ} (ha : 0 < a) (hb : 0 < b) :
    F32.round (F32.round a / F32.round b) ≤ a / b * (1 + 1 / 2 ^ 22) ∧
    a / b * (1 - 1 / 2 ^ 22) ≤ F32.round (F32.round a / F32.round b) := by
  have ra := round_pos ha
  have rb := round_pos hb
  have hq : 0 < F32.round a / F32.round b := div_pos ra rb
  have ea := round_rel ha
  have eb := round_rel hb
  have er := round_rel hq
  rw [← le_div_iff₀ (by positivity)] at ea eb er
  have ea := abs_le.1 ea
  have eb := abs_le.1 eb
  have er := abs_le.1 er
  have hab : 0 < a / b := div_pos ha hb
  -- the exact quotient of the rounded values
  have up : F32.round a / F32.round b ≤ a / b * ((1 + 1 / 2 ^ 24) / (1 - 1 / 2 ^ 24)) := by
    rw [div_mul_div_comm, div_le_div_iff₀ rb (by norm_num; exact hb)]
    have h1 : F32.round a ≤ a * (1 + 1 / 2 ^ 24) := by linarith [ea.2]
    have h2 : b * (1 - 1 / 2 ^ 24) ≤ F32.round b := by linarith [eb.1]
    exact mul_le_mul h1 h2 (by norm_num; exact hb.le) (by positivity)
  have lo : a / b * ((1 - 1 / 2 ^ 24) / (1 + 1 / 2 ^ 24)) ≤ F32.round a / F32.round b := by
    rw [div_mul_div_comm, div_le_div_iff₀ (by positivity) rb]
    have h1 : a * (1 - 1 / 2 ^ 24) ≤ F32.round a := by linarith [ea.1]
    have h2 : F32.round b ≤ b * (1 + 1 / 2 ^ 24) := by linarith [eb.2]
    exact mul_le_mul h1 h2 rb.le ra.le
  generalize F32.round a / F32.round b = r at *
  generalize a / b = x at *
  constructor
  · have : F32.round r ≤ r * (1 + 1 / 2 ^ 24) := by linarith [er.2]
    calc F32.round r ≤ r * (1 + 1 / 2 ^ 24) := this
      _ ≤ x * ((1 + 1 / 2 ^ 24) / (1 - 1 / 2 ^ 24)) * (1 + 1 / 2 ^ 24) :=
        mul_le_mul_of_nonneg_right up (by norm_num)
      _ ≤ x * (1 + 1 / 2 ^ 22) := by
        rw [mul_assoc]
        exact mul_le_mul_of_nonneg_left (by norm_num) hab.le
  · have : r * (1 - 1 / 2 ^ 24) ≤ F32.round r := by linarith [er.1]
    have low : x * (1 - 1 / 2 ^ 22) ≤
        x * ((1 - 1 / 2 ^ 24) / (1 + 1 / 2 ^ 24)) * (1 - 1 / 2 ^ 24) := by
      rw [mul_assoc]
      exact mul_le_mul_of_nonneg_left (by norm_num) hab.le
    calc x * (1 - 1 / 2 ^ 22)
        ≤ x * ((1 - 1 / 2 ^ 24) / (1 + 1 / 2 ^ 24)) * (1 - 1 / 2 ^ 24) := low
      _ ≤ r * (1 - 1 / 2 ^ 24) := mul_le_mul_of_nonneg_right lo (by norm_num)
      _ ≤ F32.round r := this

theorem ceil_near {x y : ℚ} {n : ℕ} (h : x ≤ y + y / 2 ^ 22) (hy : y ≤ n) :
    ⌈x⌉ ≤ ((n + n / 2 ^ 22 + 1 : ℕ) : ℤ) := by
  rw [Int.ceil_le]
  have h1 : (n : ℚ) / 2 ^ 22 ≤ ((n / 2 ^ 22 : ℕ) : ℚ) + 1 := by
    rw [div_le_iff₀ (by positivity)]
    have : n ≤ (n / 2 ^ 22 + 1) * 2 ^ 22 := by
      have e := Nat.div_add_mod n (2 ^ 22)
      have l := Nat.mod_lt n (y := 2 ^ 22) (by norm_num)
      omega
    exact_mod_cast this
  have h2 : y / 2 ^ 22 ≤ n / 2 ^ 22 := div_le_div_of_nonneg_right hy (by positivity)
  rw [Nat.cast_add, Nat.cast_add, Int.cast_add, Int.cast_add, Int.cast_natCast, Int.cast_natCast,
    Nat.cast_one, Int.cast_one]
  linarith

theorem lenPart_bound {a b : Nat} (ha : a ≤ 2 ^ 63) (hb : 0 < b) :
    lenPart b a ≤ Spec.ceilDiv a b + Spec.ceilDiv a b / 2 ^ 22 + 1 ∧
    Spec.ceilDiv a b ≤ lenPart b a + Spec.ceilDiv a b / 2 ^ 22 + 1 := by
  rcases Nat.eq_zero_or_pos a with rfl | hp
  · rw [lenPart_zero, Spec.ceilDiv, Nat.zero_add, Nat.div_eq_of_lt (by omega)]
    omega
  have haq : (0 : ℚ) < a := by exact_mod_cast hp
  have hbq : (0 : ℚ) < b := by exact_mod_cast hb
  obtain ⟨h1, h2⟩ := div_rel haq hbq
  have hC := ceil_div_nat a hb
  have hle : (a : ℚ) / b ≤ (Spec.ceilDiv a b : ℕ) := by
    have := Int.le_ceil ((a : ℚ) / b)
    rw [hC] at this
    exact_mod_cast this
  have hCle : Spec.ceilDiv a b ≤ 2 ^ 63 := by
    refine le_trans ?_ ha
    unfold Spec.ceilDiv
    have : a + b - 1 ≤ a * b := by
      obtain ⟨c, rfl⟩ : ∃ c, b = c + 1 := ⟨b - 1, by omega⟩
      have : c * 1 ≤ c * a := Nat.mul_le_mul_left _ hp
      rw [Nat.mul_add, Nat.mul_comm a c]
      omega
    exact Nat.div_le_of_le_mul (by rw [Nat.mul_comm]; exact this)
  have hq0 : 0 < F32.round (F32.round (a : ℚ) / F32.round b) :=
    round_pos (div_pos (round_pos haq) (round_pos hbq))
  obtain ⟨k, hk⟩ : ∃ k : ℕ, ⌈F32.round (F32.round (a : ℚ) / F32.round b)⌉ = k :=
    ⟨⌈F32.round (F32.round (a : ℚ) / F32.round b)⌉.toNat, (Int.toNat_of_nonneg (Int.ceil_pos.2 hq0).le).symm⟩
  have up := ceil_near (x := F32.round (F32.round (a : ℚ) / F32.round b)) (y := (a : ℚ) / b) (by linarith) hle
  rw [hk] at up
  have up : k ≤ Spec.ceilDiv a b + Spec.ceilDiv a b / 2 ^ 22 + 1 := by exact_mod_cast up
  have hlen : lenPart b a = k := by
    unfold lenPart F32.toUsize F32.ceil F32.div F32.ofUsize
    rw [hk, Int.toNat_natCast]
    omega
  rw [hlen]
  refine ⟨up, ?_⟩
  have hk' : F32.round (F32.round (a : ℚ) / F32.round b) ≤ k := by
    have := Int.le_ceil (F32.round (F32.round (a : ℚ) / F32.round b))
    rw [hk] at this
    exact_mod_cast this
  have lo : ⌈(a : ℚ) / b⌉ ≤ ((k + Spec.ceilDiv a b / 2 ^ 22 + 1 : ℕ) : ℤ) := by
    rw [Int.ceil_le]
    generalize Spec.ceilDiv a b = C at *
    have h3 : (C : ℚ) / 2 ^ 22 ≤ ((C / 2 ^ 22 : ℕ) : ℚ) + 1 := by
      rw [div_le_iff₀ (by positivity)]
      have : C ≤ (C / 2 ^ 22 + 1) * 2 ^ 22 := by
        have e := Nat.div_add_mod C (2 ^ 22)
        have l := Nat.mod_lt C (y := 2 ^ 22) (by norm_num)
        omega
      exact_mod_cast this
    have h4 : (a : ℚ) / b / 2 ^ 22 ≤ C / 2 ^ 22 := div_le_div_of_nonneg_right hle (by positivity)
    rw [Nat.cast_add, Nat.cast_add, Int.cast_add, Int.cast_add, Int.cast_natCast, Int.cast_natCast,
      Nat.cast_one, Int.cast_one]
    linarith
  rw [hC] at lo
  exact_mod_cast lo

end Binate.PayloadChunks
