import Verif.Lemmas.Ctor
import Verif.Spec.Small

/-! # Helper lemmas on U24, Version, FrameType and Flags -/

namespace Binate

open Spec

theorem u24_split (n : Nat) (h : n < 2 ^ 24) :
    ((BitVec.ofNat 32 n >>> 16).setWidth 8 : U8).toNat = n / 65536 ∧
    ((BitVec.ofNat 32 n).setWidth 16 : U16).toNat = n % 65536 := by
  constructor
  · rw [BitVec.toNat_setWidth, BitVec.toNat_ushiftRight, BitVec.toNat_ofNat,
      Nat.shiftRight_eq_div_pow]
    omega
  · rw [BitVec.toNat_setWidth, BitVec.toNat_ofNat]
    omega

theorem u24_join (a b : Nat) (hb : b < 2 ^ 16) : a * 65536 ||| b = a * 65536 + b := by
  rw [show a * 65536 = a <<< 16 from (Nat.shiftLeft_eq a 16).symm, Nat.shiftLeft_add_eq_or_of_lt hb]

theorem u24_intoU32 (u : U24) : u.intoU32.toNat = u.hi.toNat * 65536 + u.lo.toNat := by
  have h1 := u.hi.isLt
  have h2 := u.lo.isLt
  rw [U24.intoU32, BitVec.toNat_or, BitVec.toNat_shiftLeft, BitVec.toNat_setWidth,
    BitVec.toNat_setWidth, Nat.shiftLeft_eq, ← u24_join _ _ h2]
  congr 1 <;> omega

theorem u24_intoUsize (u : U24) : u.intoUsize = u.hi.toNat * 65536 + u.lo.toNat := by
  have h1 := u.hi.isLt
  have h2 := u.lo.isLt
  rw [U24.intoUsize, BitVec.toNat_or, BitVec.toNat_shiftLeft, BitVec.toNat_setWidth,
    BitVec.toNat_setWidth, Nat.shiftLeft_eq, ← u24_join _ _ h2]
  congr 1 <;> omega

theorem u24_ext {u v : U24} (h : u.hi.toNat * 65536 + u.lo.toNat = v.hi.toNat * 65536 + v.lo.toNat) :
    u = v := by
  have h1 := u.lo.isLt
  have h2 := v.lo.isLt
  rcases u with ⟨a, b⟩
  rcases v with ⟨c, d⟩
  have e1 : a = c := BitVec.eq_of_toNat_eq (by simp only at *; omega)
  have e2 : b = d := BitVec.eq_of_toNat_eq (by simp only at *; omega)
  rw [e1, e2]

theorem u24_fromUsize_ok {n : Nat} (h : n < 2 ^ 24) :
    ∃ u, U24.fromUsize n = .ok u ∧ u.hi.toNat * 65536 + u.lo.toNat = n := by
  refine ⟨⟨(BitVec.ofNat 32 n >>> 16).setWidth 8, (BitVec.ofNat 32 n).setWidth 16⟩, ?_, ?_⟩
  · rw [U24.fromUsize, decide_eq_true (by rw [show U24.MAX.toNat = 16777215 from rfl]; omega)]; rfl
  · obtain ⟨e1, e2⟩ := u24_split n h
    simp only [e1, e2]; omega

theorem u24_fromUsize_panic {n : Nat} (h : 2 ^ 24 ≤ n) : ∃ m, U24.fromUsize n = .panic m := by
  rw [U24.fromUsize, decide_eq_false (by rw [show U24.MAX.toNat = 16777215 from rfl]; omega)]
  exact ⟨_, rfl⟩

theorem u24_fromU32_eq (v : U32) (h : v.toNat < 2 ^ 24) :
    ∃ u, U24.fromU32 v = .ok u ∧ u.hi.toNat * 65536 + u.lo.toNat = v.toNat := by
  refine ⟨⟨(v >>> 16).setWidth 8, v.setWidth 16⟩, ?_, ?_⟩
  · have hv : v ≤ U24.MAX := by
      rw [BitVec.le_def, show U24.MAX.toNat = 16777215 from rfl]; omega
    rw [U24.fromU32, decide_eq_true hv]; rfl
  · have := u24_split v.toNat h
    rw [BitVec.ofNat_toNat, BitVec.setWidth_eq] at this
    obtain ⟨e1, e2⟩ := this
    simp only [e1, e2]; omega

theorem u24_fromU32_panic {v : U32} (h : 2 ^ 24 ≤ v.toNat) : ∃ m, U24.fromU32 v = .panic m := by
  have hv : ¬ v ≤ U24.MAX := by
    rw [BitVec.le_def, show U24.MAX.toNat = 16777215 from rfl]; omega
  rw [U24.fromU32, decide_eq_false hv]; exact ⟨_, rfl⟩

theorem u24_encode (u : U24) (buf : Bytes) :
    u.encode buf = buf ++ be 3 (u.hi.toNat * 65536 + u.lo.toNat) := by
  have h1 := u.hi.isLt
  have h2 := u.lo.isLt
  rw [U24.encode, putU16, putU8, List.append_assoc]
  congr 1
  simp only [List.cons_append, List.nil_append, be, List.cons.injEq, and_true]
  refine ⟨?_, ?_, ?_⟩ <;> apply BitVec.eq_of_toNat_eq <;>
    simp only [BitVec.toNat_ofNat, BitVec.extractLsb'_toNat, Nat.shiftRight_eq_div_pow] <;> omega

theorem compare_nat (a b : Nat) :
    (compare a b = .lt ↔ a < b) ∧ (compare a b = .eq ↔ a = b) ∧ (compare a b = .gt ↔ b < a) :=
  ⟨Nat.compare_eq_lt, Nat.compare_eq_eq, Nat.compare_eq_gt⟩

theorem version_cmp (a b : Version) :
    (a.cmp b = .lt ↔ VersionLt a b) ∧ (a.cmp b = .gt ↔ VersionLt b a) ∧
      (a.cmp b = .eq ↔ a.major.toNat = b.major.toNat ∧ a.minor.toNat = b.minor.toNat) := by
  unfold Version.cmp Version.cmpU16 VersionLt
  obtain ⟨h1, h2, h3⟩ := compare_nat a.major.toNat b.major.toNat
  obtain ⟨k1, k2, k3⟩ := compare_nat a.minor.toNat b.minor.toNat
  simp only
  by_cases e : compare a.major.toNat b.major.toNat = Ordering.eq
  · rw [if_neg (fun h => h e), k1, k2, k3]
    rw [h2] at e
    omega
  · rw [if_pos e, h1, h2, h3]
    rw [h2] at e
    omega

theorem safeFlags_ok {f : Flags} (h : SafeFlags f) : FlagsOk f := by
  induction h with
  | empty => decide
  | all => decide
  | ignore => decide
  | metadata => decide
  | follows => decide
  | resume => decide
  | respond => decide
  | complete => decide
  | lease => decide
  | next => decide
  | @fromBits w f hf =>
    unfold Flags.fromBits at hf
    split at hf
    · next h0 =>
      cases hf
      rw [flagsOk_iff]
      intro i hi
      have h1 : (w &&& ~~~ Flags.all.bits).getLsbD i = false := by rw [h0]; simp
      have hlt : i < 16 := BitVec.lt_of_getLsbD hi
      rw [BitVec.getLsbD_and, BitVec.getLsbD_not] at h1
      simp only [hi, hlt, decide_true, Bool.true_and, Bool.not_eq_false'] at h1
      exact flagsOk_iff.1 (show FlagsOk Flags.all by decide) i h1
    · cases hf
  | truncate w => exact flagsOk_truncate w
  | union _ _ ha hb => exact flagsOk_union ha hb
  | inter _ _ ha _ => exact flagsOk_inter ha
  | @symmDiff a b _ _ ha hb =>
    rw [flagsOk_iff] at *
    intro i hi
    rw [Flags.symmDiff, BitVec.getLsbD_xor] at hi
    by_cases h : a.bits.getLsbD i = true
    · exact ha i h
    · exact hb i (by simpa [h] using hi)
  | diff _ _ ha _ =>
    rw [flagsOk_iff] at *
    intro i hi
    rw [Flags.diff, BitVec.getLsbD_and, Bool.and_eq_true] at hi
    exact ha i hi.1
  | compl _ _ => exact flagsOk_truncate _

end Binate
