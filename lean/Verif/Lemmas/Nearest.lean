import Verif.Spec.Float
import Verif.Lemmas.F32
import Verif.Lemmas.Chunks
import Mathlib.Tactic.Linarith
import Mathlib.Tactic.Positivity
import Mathlib.Tactic.NormNum
import Mathlib.Tactic.FieldSimp
import Mathlib.Tactic.Ring

/-! # The model's rounding is the nearest number, ties to even -/

namespace Binate

open Spec F32

theorem two_zpow_pos (e : ℤ) : (0 : ℚ) < 2 ^ e := zpow_pos (by norm_num) e

theorem float_nonneg {x : ℚ} (h : IsFloat x) : 0 ≤ x := by
  obtain ⟨m, e, -, -, -, -, rfl⟩ := h
  exact mul_nonneg (Nat.cast_nonneg m) (two_zpow_pos e).le

/-- A number with a smaller exponent is below every number with a full significand. -/
theorem lt_of_exponent {m n : ℕ} {e d : ℤ} (hm : 2 ^ 23 ≤ m) (hn : n < 2 ^ 24) (h : d < e) :
    (n : ℚ) * (2 : ℚ) ^ d < m * (2 : ℚ) ^ e := by
  have e1 : (2 : ℚ) ^ e = 2 ^ (e - d) * 2 ^ d := by
    rw [← zpow_add₀ (by norm_num)]
    congr 1
    omega
  rw [e1, ← mul_assoc]
  have hd := two_zpow_pos d
  have h2 : (2 : ℚ) ≤ 2 ^ (e - d) := by
    have : (2 : ℚ) ^ (1 : ℤ) ≤ 2 ^ (e - d) := zpow_le_zpow_right₀ (by norm_num) (by omega)
    simpa using this
  have hm' : (2 ^ 23 : ℚ) ≤ m := by exact_mod_cast hm
  have hn' : (n : ℚ) < 2 ^ 24 := by exact_mod_cast hn
  exact mul_lt_mul_of_pos_right (by nlinarith) hd

/-- The representation of a number is unique. -/
theorem represents_unique {m n : ℕ} {e d : ℤ} {x : ℚ} (h : Represents m e x) (k : Represents n d x) :
    m = n ∧ e = d := by
  obtain ⟨h1, h2, -, h3, h4⟩ := h
  obtain ⟨k1, k2, -, k3, k4⟩ := k
  have he : e = d := by
    rcases lt_trichotomy e d with hlt | heq | hlt
    · have := lt_of_exponent (k3.resolve_right (by omega)) h1 hlt
      rw [← h4, ← k4] at this
      exact absurd this (lt_irrefl _)
    · exact heq
    · have := lt_of_exponent (h3.resolve_right (by omega)) k1 hlt
      rw [← h4, ← k4] at this
      exact absurd this (lt_irrefl _)
  subst he
  refine ⟨?_, rfl⟩
  have := mul_right_cancel₀ (two_zpow_pos e).ne' (h4.symm.trans k4)
  exact_mod_cast this

/-- Between two even numbers there is another one. -/
theorem between_even {x y : ℚ} (hx : EvenFloat x) (hy : EvenFloat y) (h : x < y) :
    ∃ z, IsFloat z ∧ x < z ∧ z < y := by
  obtain ⟨m, e, ⟨h1, h2, h2', h3, h4⟩, hm⟩ := hx
  obtain ⟨n, d, hn, hn'⟩ := hy
  have hlt : m + 1 < 2 ^ 24 := by
    obtain ⟨k, rfl⟩ := hm
    omega
  have hr : Represents (m + 1) e (((m + 1 : ℕ) : ℚ) * (2 : ℚ) ^ e) :=
    ⟨hlt, h2, h2', h3.imp_left (by omega), rfl⟩
  have hd := two_zpow_pos e
  have hxz : x < ((m + 1 : ℕ) : ℚ) * (2 : ℚ) ^ e := by
    rw [h4]
    push_cast
    linarith
  rcases lt_trichotomy (((m + 1 : ℕ) : ℚ) * (2 : ℚ) ^ e) y with hz | hz | hz
  · exact ⟨_, ⟨_, _, hr⟩, hxz, hz⟩
  · exfalso
    rw [hz] at hr
    obtain ⟨rfl, -⟩ := represents_unique hr hn
    obtain ⟨k, rfl⟩ := hm
    obtain ⟨j, hj⟩ := hn'
    omega
  · exfalso
    obtain ⟨n1, n2, -, n3, n4⟩ := hn
    rw [n4] at hz h
    rw [h4] at h
    rcases lt_or_ge d e with hde | hde
    · have := lt_of_exponent (h3.resolve_right (by omega)) n1 hde
      exact lt_irrefl _ (this.trans h)
    · -- n * 2^(d - e) would be an integer between m and m + 1
      obtain ⟨k, hk⟩ := Int.eq_ofNat_of_zero_le (sub_nonneg.2 hde)
      have e1 : (2 : ℚ) ^ d = ((2 ^ k : ℕ) : ℚ) * 2 ^ e := by
        have : d = (k : ℤ) + e := by omega
        rw [this, zpow_add₀ (by norm_num)]
        push_cast
        rw [zpow_natCast]
      rw [e1, ← mul_assoc] at hz h
      have i1 := lt_of_mul_lt_mul_right h hd.le
      have i2 := lt_of_mul_lt_mul_right hz hd.le
      have j1 : m < n * 2 ^ k := by exact_mod_cast i1
      have j2 : n * 2 ^ k < m + 1 := by exact_mod_cast i2
      omega

theorem rounds_unique {q x y : ℚ} (hx : Rounds q x) (hy : Rounds q y) : x = y := by
  by_contra hne
  have main : ∀ {x y : ℚ}, Rounds q x → Rounds q y → x < y → False := by
    intro x y hx hy hlt
    have h1 := hx.2 y hy.1 hlt.ne'
    have h2 := hy.2 x hx.1 hlt.ne
    have tie : |q - x| = |q - y| ∧ EvenFloat x ∧ EvenFloat y := by
      rcases h1 with h1 | ⟨e1, h1⟩
      · rcases h2 with h2 | ⟨e2, h2⟩
        · exact absurd (h1.trans h2) (lt_irrefl _)
        · exact absurd h1 (by rw [e2]; exact lt_irrefl _)
      · rcases h2 with h2 | ⟨e2, h2⟩
        · exact absurd h2 (by rw [e1]; exact lt_irrefl _)
        · exact ⟨e1, h1, h2⟩
    obtain ⟨e, ex, ey⟩ := tie
    obtain ⟨z, hz, z1, z2⟩ := between_even ex ey hlt
    have near : |q - z| < |q - x| := by
      have hq : q - x = y - q ∨ q - x = q - y := by
        rcases abs_eq_abs.1 e with h | h
        · exact .inr h
        · exact .inl (by linarith)
      rcases hq with hq | hq
      · have : |q - x| = (y - x) / 2 := by
          rw [abs_of_nonneg (by linarith)]
          linarith
        rw [this, abs_lt]
        constructor <;> linarith
      · exact absurd hq (by intro h; linarith)
    rcases hx.2 z hz z1.ne' with h | ⟨h, -⟩
    · exact lt_irrefl _ (h.trans near)
    · rw [h] at near
      exact lt_irrefl _ near
  rcases lt_or_gt_of_ne hne with h | h
  · exact main hx hy h
  · exact main hy hx h

/-- The nearest integer: no other one is as near, unless it is exactly as near and the result even. -/
theorem roundHalfEven_nearest (t : ℚ) (k : ℤ) (h : k ≠ roundHalfEven t) :
    |t - roundHalfEven t| < |t - k| ∨ (|t - roundHalfEven t| = |t - k| ∧ Even (roundHalfEven t)) := by
  have h1 := Int.floor_le t
  have h2 := Int.lt_floor_add_one t
  have far : k < ⌊t⌋ ∨ k = ⌊t⌋ ∨ k = ⌊t⌋ + 1 ∨ ⌊t⌋ + 1 < k := by omega
  have below : ∀ {n : ℤ}, (n : ℚ) ≤ t → |t - n| = t - n := fun h => abs_of_nonneg (by linarith)
  have above : ∀ {n : ℤ}, t ≤ (n : ℚ) → |t - n| = n - t := fun h => by
    rw [abs_sub_comm]
    exact abs_of_nonneg (by linarith)
  have hf1 : t ≤ ((⌊t⌋ + 1 : ℤ) : ℚ) := by push_cast; linarith
  have lo : k < ⌊t⌋ → (k : ℚ) + 1 ≤ ⌊t⌋ := fun h => by exact_mod_cast h
  have hi : ⌊t⌋ + 1 < k → ((⌊t⌋ : ℚ) + 1) + 1 ≤ k := fun h => by exact_mod_cast h
  unfold roundHalfEven at h ⊢
  simp only at h ⊢
  split at h
  · rename_i hr
    rw [if_pos hr]
    left
    rw [below h1]
    rcases far with hk | hk | hk | hk
    · have := lo hk
      rw [below (by linarith)]
      linarith
    · exact absurd hk h
    · subst hk
      rw [above hf1]
      push_cast
      linarith
    · have := hi hk
      rw [above (by linarith)]
      linarith
  · rename_i hr
    rw [if_neg hr]
    split at h
    · rename_i hr2
      rw [if_pos hr2]
      left
      rw [above hf1]
      push_cast
      rcases far with hk | hk | hk | hk
      · have := lo hk
        rw [below (by linarith)]
        linarith
      · subst hk
        rw [below h1]
        linarith
      · exact absurd hk h
      · have := hi hk
        rw [above (by linarith)]
        linarith
    · rename_i hr2
      rw [if_neg hr2]
      have hhalf : t - ⌊t⌋ = 1 / 2 := le_antisymm (not_lt.1 hr2) (not_lt.1 hr)
      split at h
      · rename_i he
        rw [if_pos he]
        rw [below h1]
        rcases far with hk | hk | hk | hk
        · have := lo hk
          left
          rw [below (by linarith)]
          linarith
        · exact absurd hk h
        · subst hk
          right
          rw [above hf1]
          push_cast
          exact ⟨by linarith, Int.even_iff.2 he⟩
        · have := hi hk
          left
          rw [above (by linarith)]
          linarith
      · rename_i he
        rw [if_neg he]
        rw [above hf1]
        push_cast
        rcases far with hk | hk | hk | hk
        · have := lo hk
          left
          rw [below (by linarith)]
          linarith
        · subst hk
          right
          rw [below h1]
          refine ⟨by linarith, Int.even_iff.2 (by omega)⟩
        · exact absurd hk h
        · have := hi hk
          left
          rw [above (by linarith)]
          linarith

/-- A number of the format that is not below `2^e` is a multiple of `2^(e - 23)`. -/
theorem float_multiple {y : ℚ} (h : IsFloat y) {e : ℤ} (hy : (2 : ℚ) ^ e ≤ y) :
    ∃ k : ℤ, y = k * (2 : ℚ) ^ (e - 23) := by
  · obtain ⟨m, d, h2, -, -, -, h3⟩ := h
    have hd : e - 23 ≤ d := by
      by_contra hlt
      push Not at hlt
      have hdd : (0 : ℚ) < 2 ^ d := two_zpow_pos d
      have hm : (m : ℚ) < 2 ^ 24 := by exact_mod_cast h2
      have : (2 : ℚ) ^ (24 + d) ≤ 2 ^ e := zpow_le_zpow_right₀ (by norm_num) (by omega)
      rw [zpow_add₀ (by norm_num)] at this
      have h24 : (2 : ℚ) ^ (24 : ℤ) = 2 ^ 24 := by norm_num
      rw [h24] at this
      rw [h3] at hy
      have := lt_of_lt_of_le (mul_lt_mul_of_pos_right hm hdd) this
      linarith
    obtain ⟨k, hk⟩ := Int.eq_ofNat_of_zero_le (sub_nonneg.2 hd)
    refine ⟨m * 2 ^ k, ?_⟩
    have : d = (k : ℤ) + (e - 23) := by omega
    rw [h3, this, zpow_add₀ (by norm_num), zpow_natCast]
    push_cast
    ring

/-- The model's `round` does what IEEE-754 says. -/
theorem round_rounds {q : ℚ} (h : q = 0 ∨ ((2 : ℚ) ^ (-126 : ℤ) ≤ q ∧ q < (2 : ℚ) ^ (127 : ℤ))) : Rounds q (F32.round q) := by
  rcases h with rfl | ⟨hlow, hhigh⟩
  · have e : F32.round 0 = 0 := by unfold F32.round; simp
    rw [e]
    refine ⟨⟨0, -149, by norm_num, le_rfl, by norm_num, .inr rfl, by simp⟩, fun y hy hne => .inl ?_⟩
    rw [sub_self, abs_zero]
    exact abs_pos.2 (by rw [zero_sub]; exact neg_ne_zero.2 hne)
  · have hq : 0 < q := (two_zpow_pos _).trans_le hlow
    set e := Int.log 2 q with he
    have elow : -126 ≤ e := (Int.zpow_le_iff_le_log (by norm_num) hq).1 (by exact_mod_cast hlow)
    have ehigh : e < 127 := (Int.lt_zpow_iff_log_lt (by norm_num) hq).1 (by exact_mod_cast hhigh)
    set u := ulp q with hu
    have hu' : u = (2 : ℚ) ^ (e - 23) := rfl
    have up : 0 < u := ulp_pos q
    set t := q / u with ht
    have htu : q = t * u := (div_mul_cancel₀ _ up.ne').symm
    set n := roundHalfEven t with hn
    have hr : F32.round q = n * u := round_of_pos hq
    have u23 : u * 2 ^ 23 = (2 : ℚ) ^ e := ulp_mul q
    have lo : (2 : ℚ) ^ 23 ≤ t := two_pow_le_div hq
    have hlt : q < (2 : ℚ) ^ (e + 1) := by
      have := Int.lt_zpow_succ_log_self (b := 2) (by norm_num) q
      exact_mod_cast this
    have u24 : u * 2 ^ 24 = (2 : ℚ) ^ (e + 1) := by
      rw [zpow_add₀ (by norm_num), ← u23]
      norm_num
      ring
    have hi : t < 2 ^ 24 := by
      rw [ht, div_lt_iff₀ up]
      linarith
    have n1 : (2 ^ 23 : ℤ) ≤ n := le_roundHalfEven (by push_cast; exact lo)
    have n2 : n ≤ 2 ^ 24 := roundHalfEven_le (by push_cast; exact hi.le)
    -- the representation of the result
    have rep : ∃ (m : ℕ) (d : ℤ), Represents m d (n * u) ∧ (Even n → Even m) := by
      obtain ⟨k, hk⟩ := Int.eq_ofNat_of_zero_le (by omega : 0 ≤ n)
      rcases lt_or_eq_of_le n2 with hn2 | hn2
      · refine ⟨k, e - 23, ⟨by omega, by omega, by omega, .inl (by omega), ?_⟩, fun h => ?_⟩
        · rw [hk, hu']
          rfl
        · rw [hk] at h
          exact (Int.even_coe_nat k).1 h
      · refine ⟨2 ^ 23, e + 1 - 23, ⟨by norm_num, by omega, by omega, .inl le_rfl, ?_⟩, fun _ => ⟨2 ^ 22, by norm_num⟩⟩
        have c : ((n : ℤ) : ℚ) = 2 ^ 24 := by
          rw [hn2]
          norm_num
        rw [c, mul_comm, u24, zpow_sub₀ (by norm_num)]
        norm_num
        ring
    obtain ⟨m, d, hrep, heven⟩ := rep
    rw [hr]
    refine ⟨⟨m, d, hrep⟩, fun y hy hne => ?_⟩
    -- distances in units
    have dist : ∀ k : ℤ, |q - k * u| = |t - k| * u := by
      intro k
      rw [htu, ← sub_mul, abs_mul, abs_of_pos up]
    rcases lt_or_ge y ((2 : ℚ) ^ e) with hy2 | hy2
    · -- below the binade: 2^23 is nearer
      left
      rw [dist n]
      have hge : |t - n| ≤ |t - ((2 ^ 23 : ℤ) : ℚ)| := by
        by_cases hk : (2 ^ 23 : ℤ) = n
        · rw [hk]
        · rcases roundHalfEven_nearest t (2 ^ 23) hk with h | ⟨h, -⟩
          · exact h.le
          · exact h.le
      have e23 : |t - ((2 ^ 23 : ℤ) : ℚ)| = t - 2 ^ 23 := by
        push_cast
        exact abs_of_nonneg (by linarith)
      have hq2 : (2 : ℚ) ^ e ≤ q := by rw [htu, ← u23, mul_comm]; exact mul_le_mul_of_nonneg_right lo up.le
      have : |q - y| = q - y := abs_of_nonneg (by linarith)
      rw [this]
      calc |t - n| * u ≤ (t - 2 ^ 23) * u := by
            rw [← e23]
            exact mul_le_mul_of_nonneg_right hge up.le
        _ = q - 2 ^ e := by rw [sub_mul, ← htu, mul_comm, u23]
        _ < q - y := by linarith
    · obtain ⟨k, hk⟩ := float_multiple hy hy2
      rw [← hu'] at hk
      subst hk
      have hkn : k ≠ n := fun h => hne (by rw [h])
      rw [dist n, dist k]
      rcases roundHalfEven_nearest t k hkn with h | ⟨h, h'⟩
      · exact .inl (mul_lt_mul_of_pos_right h up)
      · exact .inr ⟨by rw [h], ⟨m, d, hrep, heven h'⟩⟩

theorem round_iff {q x : ℚ} (h : q = 0 ∨ ((2 : ℚ) ^ (-126 : ℤ) ≤ q ∧ q < (2 : ℚ) ^ (127 : ℤ))) :
    Rounds q x ↔ x = F32.round q :=
  ⟨fun hx => rounds_unique hx (round_rounds h), fun e => e ▸ round_rounds h⟩

/-! ## The quotient of two `usize` values -/

theorem usize_range {n : Nat} (h : n < 2 ^ 64) :
    (n : ℚ) = 0 ∨ ((2 : ℚ) ^ (-126 : ℤ) ≤ n ∧ (n : ℚ) < (2 : ℚ) ^ (127 : ℤ)) := by
  rcases Nat.eq_zero_or_pos n with rfl | hp
  · exact .inl Nat.cast_zero
  · right
    have h1 : (1 : ℚ) ≤ n := by exact_mod_cast hp
    have h2 : (n : ℚ) < 2 ^ 64 := by exact_mod_cast h
    have e1 : (2 : ℚ) ^ (-126 : ℤ) ≤ 1 := by norm_num
    have e2 : (2 : ℚ) ^ 64 ≤ (2 : ℚ) ^ (127 : ℤ) := by norm_num
    exact ⟨e1.trans h1, h2.trans_le e2⟩

/-- The rounded value is off by less than a factor of two. -/
theorem round_factor {q : ℚ} (h : 0 < q) : q / 2 ≤ F32.round q ∧ F32.round q ≤ 2 * q := by
  have := PayloadChunks.round_rel h
  have h2 : |F32.round q - q| ≤ q / 2 := by
    have h0 : 0 ≤ |F32.round q - q| := abs_nonneg _
    have : |F32.round q - q| * 2 ≤ |F32.round q - q| * 2 ^ 24 :=
      mul_le_mul_of_nonneg_left (by norm_num) h0
    linarith
  have := abs_le.1 h2
  constructor <;> linarith

theorem quotient_range {a b : Nat} (ha : a < 2 ^ 64) (hb : b < 2 ^ 64) (h0 : 0 < b) :
    F32.round a / F32.round b = 0 ∨
    ((2 : ℚ) ^ (-126 : ℤ) ≤ F32.round a / F32.round b ∧
      F32.round a / F32.round b < (2 : ℚ) ^ (127 : ℤ)) := by
  rcases Nat.eq_zero_or_pos a with rfl | hp
  · left
    have : F32.round ((0 : ℕ) : ℚ) = 0 := by unfold F32.round; simp
    rw [this, zero_div]
  · right
    have a1 : (1 : ℚ) ≤ a := by exact_mod_cast hp
    have a2 : (a : ℚ) < 2 ^ 64 := by exact_mod_cast ha
    have b1 : (1 : ℚ) ≤ b := by exact_mod_cast h0
    have b2 : (b : ℚ) < 2 ^ 64 := by exact_mod_cast hb
    obtain ⟨x1, x2⟩ := round_factor (q := a) (by linarith)
    obtain ⟨y1, y2⟩ := round_factor (q := b) (by linarith)
    have yp : 0 < F32.round (b : ℚ) := by linarith
    constructor
    · rw [le_div_iff₀ yp]
      have : (2 : ℚ) ^ (-126 : ℤ) * F32.round (b : ℚ) ≤ (2 : ℚ) ^ (-126 : ℤ) * (2 * 2 ^ 64) :=
        mul_le_mul_of_nonneg_left (by linarith) (two_zpow_pos _).le
      have e : (2 : ℚ) ^ (-126 : ℤ) * (2 * 2 ^ 64) ≤ 1 / 2 := by norm_num
      exact (this.trans e).trans (le_trans (by linarith) x1)
    · rw [div_lt_iff₀ yp]
      have : (2 : ℚ) ^ (127 : ℤ) * (1 / 2) ≤ (2 : ℚ) ^ (127 : ℤ) * F32.round (b : ℚ) :=
        mul_le_mul_of_nonneg_left (by linarith) (two_zpow_pos _).le
      have e : 2 * (2 : ℚ) ^ 64 ≤ (2 : ℚ) ^ (127 : ℤ) * (1 / 2) := by norm_num
      linarith

theorem lenPart_iff {length size k : Nat} (hl : length < 2 ^ 64) (hs : size < 2 ^ 64) (h0 : 0 < size) :
    CeilQuotient length size k ↔ PayloadChunks.lenPart size length = k := by
  have e : PayloadChunks.lenPart size length =
      min ⌈F32.round (F32.round length / F32.round size)⌉.toNat (2 ^ 64 - 1) := rfl
  have nonneg := float_nonneg (round_rounds (quotient_range hl hs h0)).1
  constructor
  · rintro ⟨a, b, x, ha, hb, hx, n, n1, n2, rfl⟩
    rw [(round_iff (usize_range hl)).1 ha, (round_iff (usize_range hs)).1 hb] at hx
    rw [(round_iff (quotient_range hl hs h0)).1 hx] at n1 n2
    rw [e]
    have : ⌈F32.round (F32.round length / F32.round size)⌉ = (n : ℤ) :=
      Int.ceil_eq_iff.2 ⟨by exact_mod_cast n1, by exact_mod_cast n2⟩
    rw [this, Int.toNat_natCast]
  · rintro rfl
    refine ⟨_, _, _, round_rounds (usize_range hl), round_rounds (usize_range hs),
      round_rounds (quotient_range hl hs h0), ⌈F32.round (F32.round length / F32.round size)⌉.toNat,
      ?_, ?_, e⟩
    all_goals
      have hc : ((⌈F32.round ((F32.round length) / F32.round size)⌉.toNat : ℕ) : ℚ) =
          (⌈F32.round (F32.round length / F32.round size)⌉ : ℚ) := by
        have := Int.toNat_of_nonneg (Int.ceil_nonneg nonneg)
        exact_mod_cast this
      rw [hc]
    · have := Int.ceil_lt_add_one (F32.round (F32.round length / F32.round size))
      linarith
    · exact Int.le_ceil _

/-- Rounding keeps the order. -/
theorem rounds_mono {q r x y : ℚ} (hx : Rounds q x) (hy : Rounds r y) (h : q ≤ r) : x ≤ y := by
  by_contra hlt
  push Not at hlt
  have h1 : |q - x| ≤ |q - y| := by
    rcases hx.2 y hy.1 hlt.ne with h | ⟨h, -⟩
    · exact h.le
    · exact h.le
  have h2 : |r - y| ≤ |r - x| := by
    rcases hy.2 x hx.1 hlt.ne' with h | ⟨h, -⟩
    · exact h.le
    · exact h.le
  have m1 : (x + y) / 2 ≤ q := by
    rcases le_or_gt q y with hq | hq
    · rw [abs_of_nonpos (by linarith), abs_of_nonpos (by linarith)] at h1
      linarith
    · rw [abs_of_pos (by linarith : 0 < q - y)] at h1
      have := neg_le_of_abs_le h1
      linarith
  have m2 : r ≤ (x + y) / 2 := by
    rcases le_or_gt x r with hr | hr
    · rw [abs_of_nonneg (by linarith), abs_of_nonneg (by linarith)] at h2
      linarith
    · rw [abs_of_neg (by linarith : r - x < 0)] at h2
      have := le_of_abs_le h2
      linarith
  have : q = r := by linarith
  subst this
  exact hlt.ne (rounds_unique hy hx)

theorem lenPart_mono {a b size : Nat} (ha : a ≤ b) (hb : b < 2 ^ 64) (hs : size < 2 ^ 64)
    (h0 : 0 < size) : PayloadChunks.lenPart size a ≤ PayloadChunks.lenPart size b := by
  have m1 : F32.round (a : ℚ) ≤ F32.round (b : ℚ) :=
    rounds_mono (round_rounds (usize_range (by omega))) (round_rounds (usize_range hb))
      (by exact_mod_cast ha)
  have sp : 0 ≤ F32.round (size : ℚ) := float_nonneg (round_rounds (usize_range hs)).1
  have m2 := rounds_mono (round_rounds (quotient_range (by omega : a < 2 ^ 64) hs h0))
    (round_rounds (quotient_range hb hs h0)) (div_le_div_of_nonneg_right m1 sp)
  have m3 := Int.toNat_le_toNat (Int.ceil_mono m2)
  show min _ _ ≤ min _ _
  exact min_le_min_right _ m3

theorem lenPart_eq_zero {length size : Nat} (hs : 0 < size) :
    PayloadChunks.lenPart size length = 0 ↔ length = 0 := by
  constructor
  · intro h
    by_contra hne
    have hp : (0 : ℚ) < length := by exact_mod_cast Nat.pos_of_ne_zero hne
    have hq : (0 : ℚ) < size := by exact_mod_cast hs
    have := round_pos (div_pos (round_pos hp) (round_pos hq))
    have := Int.ceil_pos.2 this
    have e : PayloadChunks.lenPart size length =
      min ⌈F32.round (F32.round length / F32.round size)⌉.toNat (2 ^ 64 - 1) := rfl
    omega
  · rintro rfl
    exact PayloadChunks.lenPart_zero size

/-! ## What is left after some calls of `next` -/

theorem takePart_left {size : Nat} (part : Option Bytes) :
    ((PayloadChunks.takePart size part).2.getD []).length = (part.getD []).length - size := by
  cases part with
  | none => simp [PayloadChunks.takePart]
  | some b =>
    rw [takePart_some]
    split
    · show (b.drop size).length = b.length - size
      exact List.length_drop
    · show 0 = b.length - size
      omega

theorem afterNext_left (n : Nat) (c : PayloadChunks) :
    (afterNext n c).chunkSize = c.chunkSize ∧
    ((afterNext n c).metadata.getD []).length = (c.metadata.getD []).length - n * c.chunkSize ∧
    ((afterNext n c).data.getD []).length = (c.data.getD []).length - n * c.chunkSize := by
  induction n generalizing c with
  | zero => exact ⟨rfl, by rw [Nat.zero_mul]; rfl, by rw [Nat.zero_mul]; rfl⟩
  | succ n ih =>
    have e := next_state c
    obtain ⟨i1, i2, i3⟩ := ih c.next.2
    rw [e] at i1 i2 i3
    have m : (n + 1) * c.chunkSize = n * c.chunkSize + c.chunkSize := Nat.succ_mul ..
    show (afterNext n c.next.2).chunkSize = _ ∧ ((afterNext n c.next.2).metadata.getD []).length = _ ∧
      ((afterNext n c.next.2).data.getD []).length = _
    rw [e]
    refine ⟨i1, i2.trans ?_, i3.trans ?_⟩
    · show ((PayloadChunks.takePart c.chunkSize c.metadata).2.getD []).length - n * c.chunkSize = _
      rw [takePart_left, m]
      omega
    · show ((PayloadChunks.takePart c.chunkSize c.data).2.getD []).length - n * c.chunkSize = _
      rw [takePart_left, m]
      omega

theorem len_left (c : PayloadChunks) : c.len =
    max (PayloadChunks.lenPart c.chunkSize (c.metadata.getD []).length)
      (PayloadChunks.lenPart c.chunkSize (c.data.getD []).length) := by
  rcases c with ⟨s, _ | m, _ | d⟩ <;> rfl

end Binate
