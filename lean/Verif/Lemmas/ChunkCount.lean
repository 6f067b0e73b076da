import Verif.Spec.ChunkCount
import Verif.Lemmas.Chunks

/-! # When the quotient in `PayloadChunks::len` has the right ceiling -/

namespace Binate.F32

theorem ulp_scale {q : ℚ} (h : 0 < q) (e : Nat) : ulp (q * 2 ^ e) = ulp q * 2 ^ e := by
  have hl : Int.log 2 (q * 2 ^ e) = Int.log 2 q + e := by
    apply le_antisymm
    · have h1 : q * 2 ^ e < (2 : ℚ) ^ (Int.log 2 q + e + 1) := by
        have := Int.lt_zpow_succ_log_self (b := 2) (by norm_num) q
        have := mul_lt_mul_of_pos_right this (show (0 : ℚ) < 2 ^ e by positivity)
        rw [show Int.log 2 q + e + 1 = Int.log 2 q + 1 + e by ring, zpow_add₀ (by norm_num),
          zpow_natCast]
        exact_mod_cast this
      have := (Int.lt_zpow_iff_log_lt (b := 2) (by norm_num) (by positivity)).1
        (show q * 2 ^ e < ((2 : ℕ) : ℚ) ^ (Int.log 2 q + e + 1) by exact_mod_cast h1)
      omega
    · apply (Int.zpow_le_iff_le_log (b := 2) (by norm_num) (by positivity)).1
      have := Int.zpow_log_le_self (b := 2) (by norm_num) h
      have := mul_le_mul_of_nonneg_right this (show (0 : ℚ) ≤ 2 ^ e by positivity)
      rw [zpow_add₀ (by norm_num), zpow_natCast]
      exact_mod_cast this
  unfold ulp
  rw [hl, show Int.log 2 q + e - 23 = Int.log 2 q - 23 + e by ring, zpow_add₀ (by norm_num),
    zpow_natCast]

theorem round_scale {q : ℚ} (h : 0 < q) (e : Nat) : round (q * 2 ^ e) = round q * 2 ^ e := by
  have he : (2 : ℚ) ^ e ≠ 0 := by positivity
  rw [round_of_pos h, round_of_pos (by positivity), ulp_scale h, mul_div_mul_right _ _ he,
    mul_assoc]

theorem ofUsize_scale {n : Nat} (h : 0 < n) (e : Nat) :
    ofUsize (n * 2 ^ e) = ofUsize n * 2 ^ e := by
  unfold ofUsize
  rw [← round_scale (by exact_mod_cast h)]
  push_cast
  rfl

theorem round_pow (e : Nat) : round ((2 : ℚ) ^ e) = 2 ^ e := by
  have h1 : round (1 : ℚ) = 1 := by
    have := ofUsize_exact (n := 1) (by norm_num)
    unfold ofUsize at this
    exact_mod_cast this
  have := round_scale (q := 1) (by norm_num) e
  rwa [one_mul, h1, one_mul] at this

theorem roundHalfEven_mono {x y : ℚ} (h : x ≤ y) : roundHalfEven x ≤ roundHalfEven y := by
  have hf : ⌊x⌋ ≤ ⌊y⌋ := Int.floor_le_floor h
  rcases lt_or_eq_of_le hf with hf | hf
  · have h1 : roundHalfEven x ≤ ⌊x⌋ + 1 := by
      unfold roundHalfEven
      simp only
      split
      · omega
      · split
        · omega
        · split <;> omega
    have h2 : ⌊y⌋ ≤ roundHalfEven y := le_roundHalfEven (Int.floor_le y)
    omega
  · have e : (⌊x⌋ : ℚ) = ⌊y⌋ := by exact_mod_cast hf
    unfold roundHalfEven
    simp only [← hf]
    by_cases h1 : y - ⌊x⌋ < 1 / 2
    · rw [if_pos h1, if_pos (by linarith)]
    · rw [if_neg h1]
      by_cases h2 : 1 / 2 < y - ⌊x⌋
      · rw [if_pos h2]
        split
        · omega
        · split
          · omega
          · split <;> omega
      · rw [if_neg h2]
        by_cases h3 : x - ⌊x⌋ < 1 / 2
        · rw [if_pos h3]
          split <;> omega
        · rw [if_neg h3, if_neg (by linarith)]

theorem round_mono {x y : ℚ} (hx : 0 < x) (h : x ≤ y) : round x ≤ round y := by
  have hy : 0 < y := lt_of_lt_of_le hx h
  have hl : Int.log 2 x ≤ Int.log 2 y := Int.log_mono_right hx h
  rcases lt_or_eq_of_le hl with hl | hl
  · refine le_trans ?_ (round_ge_pow hy)
    have hp : (2 : ℚ) ^ (Int.log 2 x + 1) ≤ 2 ^ Int.log 2 y :=
      zpow_le_zpow_right₀ (by norm_num) (by omega)
    refine le_trans ?_ hp
    rw [round_of_pos hx]
    have h1 : x < (2 : ℚ) ^ (Int.log 2 x + 1) := by
      exact_mod_cast Int.lt_zpow_succ_log_self (b := 2) (by norm_num) x
    have h2 : (2 : ℚ) ^ (Int.log 2 x + 1) = ((2 ^ 24 : ℤ) : ℚ) * ulp x := by
      rw [zpow_add₀ (by norm_num), ← ulp_mul]
      push_cast
      ring
    rw [h2]
    have : roundHalfEven (x / ulp x) ≤ 2 ^ 24 := by
      apply roundHalfEven_le
      rw [div_le_iff₀ (ulp_pos x), ← h2]
      exact h1.le
    exact mul_le_mul_of_nonneg_right (by exact_mod_cast this) (ulp_pos x).le
  · have hu : ulp x = ulp y := by unfold ulp; rw [hl]
    rw [round_of_pos hx, round_of_pos hy, hu]
    have : roundHalfEven (x / ulp y) ≤ roundHalfEven (y / ulp y) :=
      roundHalfEven_mono (div_le_div_of_nonneg_right h (ulp_pos y).le)
    exact mul_le_mul_of_nonneg_right (by exact_mod_cast this) (ulp_pos y).le

end Binate.F32

namespace Binate.PayloadChunks

open F32 Spec

theorem lenPart_scale {a b : Nat} (ha : 0 < a) (hb : 0 < b) (e : Nat) :
    lenPart (b * 2 ^ e) (a * 2 ^ e) = lenPart b a := by
  have he : (2 : ℚ) ^ e ≠ 0 := by positivity
  unfold lenPart F32.div
  rw [ofUsize_scale ha, ofUsize_scale hb, mul_div_mul_right _ _ he]

theorem ceilDiv_scale (a : Nat) {b : Nat} (hb : 0 < b) {k : Nat} (hk : 0 < k) :
    ceilDiv (a * k) (b * k) = ceilDiv a b := by
  have h1 := ceil_div_nat a hb
  have h2 := ceil_div_nat (a * k) (Nat.mul_pos hb hk)
  have hkq : (k : ℚ) ≠ 0 := by exact_mod_cast hk.ne'
  rw [Nat.cast_mul, Nat.cast_mul, mul_div_mul_right _ _ hkq, h1] at h2
  exact_mod_cast h2.symm

theorem lenPart_single {a b : Nat} (ha : 0 < a) (h : a ≤ b) : lenPart b a = 1 := by
  have haq : (0 : ℚ) < a := by exact_mod_cast ha
  have hbq : (0 : ℚ) < b := by exact_mod_cast lt_of_lt_of_le ha h
  have hq0 : 0 < F32.round a / F32.round b := div_pos (round_pos haq) (round_pos hbq)
  have hq1 : F32.round a / F32.round b ≤ (1 : ℤ) := by
    push_cast
    rw [div_le_one (round_pos hbq)]
    exact round_mono haq (by exact_mod_cast h)
  have r0 := round_pos hq0
  have r1 := round_le_int hq0 hq1 (by norm_num)
  have hc : ⌈F32.round (F32.round (a : ℚ) / F32.round b)⌉ = 1 := by
    rw [Int.ceil_eq_iff]
    push_cast at r1 ⊢
    constructor <;> linarith
  unfold lenPart F32.toUsize F32.ceil F32.div F32.ofUsize
  rw [hc]
  rfl

theorem lenPart_clear {a b : Nat} (hb : 0 < b) (ha' : a ≤ 2 ^ 63) (hlo : a < a % b * 2 ^ 22)
    (hhi : a ≤ (b - a % b) * 2 ^ 22) : lenPart b a = ceilDiv a b := by
  have ha : 0 < a := by
    rcases Nat.eq_zero_or_pos a with rfl | h
    · rw [Nat.zero_mod] at hlo; omega
    · exact h
  have haq : (0 : ℚ) < a := by exact_mod_cast ha
  have hbq : (0 : ℚ) < b := by exact_mod_cast hb
  obtain ⟨h1, h2⟩ := div_rel haq hbq
  have hr : 0 < a % b := by
    rcases Nat.eq_zero_or_pos (a % b) with h | h
    · rw [h] at hlo; omega
    · exact h
  have hrb := Nat.mod_lt a hb
  have hC : ceilDiv a b = a / b + 1 := by
    have e := Nat.div_add_mod a b
    unfold ceilDiv
    rw [Nat.div_eq_iff hb]
    generalize a / b = k at *
    generalize a % b = r at *
    have : (k + 1) * b = b * k + b := by ring
    rw [this]
    omega
  have hq : (a : ℚ) / b = (a / b : ℕ) + (a % b : ℕ) / (b : ℚ) := by
    have e := Nat.div_add_mod a b
    have e : (a : ℚ) = b * (a / b : ℕ) + (a % b : ℕ) := by exact_mod_cast e.symm
    rw [div_eq_iff hbq.ne', add_mul, div_mul_cancel₀ _ hbq.ne']
    linarith
  have hlo' : (a : ℚ) / b * (1 / 2 ^ 22) < (a % b : ℕ) / (b : ℚ) := by
    rw [div_mul_div_comm, mul_one, div_lt_div_iff₀ (by positivity) hbq]
    have : (a : ℚ) < (a % b : ℕ) * 2 ^ 22 := by exact_mod_cast hlo
    nlinarith
  have hhi' : (a : ℚ) / b * (1 / 2 ^ 22) ≤ ((b : ℚ) - (a % b : ℕ)) / (b : ℚ) := by
    rw [div_mul_div_comm, mul_one, div_le_div_iff₀ (by positivity) hbq]
    have : (a : ℚ) ≤ ((b - a % b : ℕ) : ℚ) * 2 ^ 22 := by exact_mod_cast hhi
    rw [Nat.cast_sub hrb.le] at this
    nlinarith
  have hone : ((b : ℚ) - (a % b : ℕ)) / (b : ℚ) = 1 - (a % b : ℕ) / (b : ℚ) := by
    rw [sub_div, div_self hbq.ne']
  have hc : ⌈F32.round (F32.round (a : ℚ) / F32.round b)⌉ = ((a / b + 1 : ℕ) : ℤ) := by
    rw [Int.ceil_eq_iff]
    rw [Nat.cast_add, Int.cast_add, Int.cast_natCast, Nat.cast_one, Int.cast_one]
    rw [hone] at hhi'
    rw [hq] at h1 h2 hlo' hhi'
    generalize ((a / b : ℕ) : ℚ) = k at *
    generalize ((a % b : ℕ) : ℚ) / (b : ℚ) = r at *
    constructor <;> nlinarith
  have hle : a / b ≤ 2 ^ 63 := (Nat.div_le_self _ _).trans ha'
  unfold lenPart F32.toUsize F32.ceil F32.div F32.ofUsize
  rw [hc, Int.toNat_natCast, hC]
  omega

theorem lenPart_countable {a b : Nat} (hb : 0 < b) (ha' : a ≤ 2 ^ 63) (h : Countable b a) :
    lenPart b a = ceilDiv a b := by
  rcases Nat.eq_zero_or_pos a with rfl | ha
  · rw [lenPart_zero, ceilDiv, Nat.zero_add, Nat.div_eq_of_lt (by omega)]
  cases h with
  | multiple e hs hn h =>
    obtain ⟨s, rfl⟩ := hs
    obtain ⟨l, rfl⟩ := hn
    have hp : 0 < 2 ^ e := by positivity
    have hs : 0 < s := Nat.pos_of_mul_pos_left hb
    have hl : 0 < l := Nat.pos_of_mul_pos_left ha
    rw [pow_add, Nat.mul_comm] at h
    rw [Nat.mul_comm _ s, Nat.mul_comm _ l, lenPart_scale hl hs, ceilDiv_scale l hs hp]
    exact lenPart_exact (Nat.le_of_mul_le_mul_right h hp) hs
  | single h =>
    rw [lenPart_single ha h]
    unfold ceilDiv
    exact (Nat.div_eq_of_lt_le (by omega) (by omega)).symm
  | clear hlo hhi => exact lenPart_clear hb ha' hlo hhi

theorem _root_.Binate.Spec.Countable.zero (b : Nat) : Countable b 0 := .single (Nat.zero_le _)

theorem _root_.Binate.Spec.Countable.sub {b a : Nat} (h : Countable b a) (hl : b < a) :
    Countable b (a - b) := by
  cases h with
  | multiple e hs hn h => exact .multiple e hs (Nat.dvd_sub hn hs) (by omega)
  | single h => omega
  | clear hlo hhi =>
    have : (a - b) % b = a % b := (Nat.mod_eq_sub_mod (by omega)).symm
    exact .clear (by rw [this]; omega) (by rw [this]; omega)

theorem lenPart_partCount' {size : Nat} (h0 : 0 < size) {part : Option Bytes} (hn : NotEmpty part)
    (hl : (part.getD []).length ≤ 2 ^ 63) (hc : Countable size (part.getD []).length) :
    lenPart size ((part.map List.length).getD 0) = partCount size part := by
  cases part with
  | none => exact lenPart_zero size
  | some b =>
    show lenPart size b.length = max 1 (ceilDiv b.length size)
    rw [lenPart_countable (a := b.length) h0 hl hc]
    have : 0 < b.length := by
      rcases b with _ | ⟨x, b⟩
      · exact absurd rfl hn
      · exact Nat.succ_pos _
    have := ceilDiv_pos h0 this
    omega

theorem takePart_countable {size : Nat} {part : Option Bytes}
    (h : Countable size (part.getD []).length) :
    Countable size ((takePart size part).2.getD []).length := by
  cases part with
  | none => exact .zero _
  | some b =>
    rw [takePart_some]
    split
    · rename_i hl
      show Countable size (b.drop size).length
      rw [List.length_drop]
      exact Countable.sub h hl
    · exact .zero _

theorem len_afterNext' {c : PayloadChunks} (h0 : 0 < c.chunkSize) (n : Nat)
    (hm : NotEmpty c.metadata) (hd : NotEmpty c.data)
    (hm' : (c.metadata.getD []).length ≤ 2 ^ 63) (hd' : (c.data.getD []).length ≤ 2 ^ 63)
    (cm : Countable c.chunkSize (c.metadata.getD []).length)
    (cd : Countable c.chunkSize (c.data.getD []).length) :
    (afterNext n c).len = chunkCount c.chunkSize c.rest - n := by
  have inv : ∀ n (c : PayloadChunks), NotEmpty c.metadata → NotEmpty c.data →
      Countable c.chunkSize (c.metadata.getD []).length →
      Countable c.chunkSize (c.data.getD []).length →
      NotEmpty (afterNext n c).metadata ∧ NotEmpty (afterNext n c).data ∧
      Countable c.chunkSize ((afterNext n c).metadata.getD []).length ∧
      Countable c.chunkSize ((afterNext n c).data.getD []).length := by
    intro n
    induction n with
    | zero => exact fun c a b d e => ⟨a, b, d, e⟩
    | succ n ih =>
      intro c a b d e
      have hs : c.next.2.chunkSize = c.chunkSize := by rw [next_state]
      have := ih c.next.2 (by rw [next_state]; exact takePart_notEmpty a)
        (by rw [next_state]; exact takePart_notEmpty b)
        (by rw [next_state]; exact takePart_countable d)
        (by rw [next_state]; exact takePart_countable e)
      rw [hs] at this
      exact this
  obtain ⟨a, b, d, e⟩ := inv n c hm hd cm cd
  obtain ⟨l1, l2⟩ := afterNext_length n hm' hd' |>.imp id id
  obtain ⟨i1, i2, -⟩ := afterNext_spec h0 n
  rw [len_eq, i1, lenPart_partCount' h0 a l1 d, lenPart_partCount' h0 b l2 e, ← i2]
  rfl

/-! ## A length that is counted wrong, for every size -/

theorem ofUsize_next {n : Nat} (h4 : 4 ∣ n) (hlo : 2 ^ 25 ≤ n) (hhi : n < 2 ^ 26) :
    ofUsize (n + 1) = n := by
  obtain ⟨k, rfl⟩ := h4
  have hl : Int.log 2 ((4 * k + 1 : ℕ) : ℚ) = 25 := by
    rw [Int.log_natCast]
    have : Nat.log 2 (4 * k + 1) = 25 := by
      rw [Nat.log_eq_iff (by norm_num)]
      omega
    exact_mod_cast this
  unfold ofUsize F32.round F32.ulp
  rw [hl, if_neg (by positivity)]
  have hf : ⌊((4 * k + 1 : ℕ) : ℚ) / 2 ^ ((25 : ℤ) - 23)⌋ = k := by
    rw [Int.floor_eq_iff]
    norm_num
    constructor <;> linarith
  unfold F32.roundHalfEven
  simp only [hf]
  rw [if_pos (by norm_num; linarith)]
  push_cast
  ring

theorem exists_scale {s : Nat} (h0 : 0 < s) (h : s ≤ 2 ^ 24) :
    ∃ j, j ≤ 25 ∧ 4 ∣ s * 2 ^ j ∧ 2 ^ 25 ≤ s * 2 ^ j ∧ s * 2 ^ j < 2 ^ 26 := by
  rcases lt_or_eq_of_le h with h | rfl
  · have h1 := Nat.pow_log_le_self 2 h0.ne'
    have h2 := Nat.lt_pow_succ_log_self (b := 2) (by norm_num) s
    have h3 : Nat.log 2 s < 24 := Nat.log_lt_of_lt_pow h0.ne' h
    refine ⟨25 - Nat.log 2 s, by omega, ?_, ?_, ?_⟩
    · refine Dvd.dvd.mul_left ?_ _
      exact pow_dvd_pow 2 (show 2 ≤ 25 - Nat.log 2 s by omega)
    · calc 2 ^ 25 = 2 ^ Nat.log 2 s * 2 ^ (25 - Nat.log 2 s) := by
            rw [← pow_add]; congr 1; omega
        _ ≤ _ := Nat.mul_le_mul_right _ h1
    · calc s * 2 ^ (25 - Nat.log 2 s)
          < 2 ^ (Nat.log 2 s + 1) * 2 ^ (25 - Nat.log 2 s) :=
            Nat.mul_lt_mul_of_pos_right h2 (by positivity)
        _ = 2 ^ 26 := by rw [← pow_add]; congr 1; omega
  · exact ⟨1, by norm_num⟩

theorem lenPart_wrong {s j : Nat} (h0 : 0 < s) (h : s ≤ 2 ^ 24) (hj : j ≤ 25) (h4 : 4 ∣ s * 2 ^ j)
    (hlo : 2 ^ 25 ≤ s * 2 ^ j) (hhi : s * 2 ^ j < 2 ^ 26) :
    lenPart s (s * 2 ^ j + 1) = 2 ^ j ∧ ceilDiv (s * 2 ^ j + 1) s = 2 ^ j + 1 := by
  have hs : (s : ℚ) ≠ 0 := by exact_mod_cast h0.ne'
  refine ⟨?_, ?_⟩
  · unfold lenPart F32.div F32.ceil F32.toUsize
    rw [ofUsize_next h4 hlo hhi, ofUsize_exact h]
    have : ((s * 2 ^ j : ℕ) : ℚ) / s = 2 ^ j := by
      push_cast
      rw [mul_div_cancel_left₀ _ hs]
    rw [this, round_pow]
    have : ⌈(2 ^ j : ℚ)⌉ = ((2 ^ j : ℕ) : ℤ) := by
      rw [Int.ceil_eq_iff]
      push_cast
      constructor <;> linarith
    rw [this, Int.toNat_natCast]
    have : 2 ^ j ≤ 2 ^ 25 := Nat.pow_le_pow_right (by norm_num) hj
    omega
  · unfold ceilDiv
    rw [show s * 2 ^ j + 1 + s - 1 = s * (2 ^ j + 1) by rw [Nat.mul_add]; omega,
      Nat.mul_div_cancel_left _ h0]

/-- For every chunk size up to 2^24 there is a length of at most 2^26 bytes that is counted wrong. -/
theorem miscounted {size : Nat} (h0 : 0 < size) (h : size ≤ 2 ^ 24) :
    ∃ n k, 0 < n ∧ n ≤ 2 ^ 26 ∧ lenPart size n = k ∧ ceilDiv n size = k + 1 := by
  obtain ⟨j, hj, h4, hlo, hhi⟩ := exists_scale h0 h
  obtain ⟨h1, h2⟩ := lenPart_wrong h0 h hj h4 hlo hhi
  exact ⟨_, _, Nat.succ_pos _, hhi, h1, h2⟩

end Binate.PayloadChunks
