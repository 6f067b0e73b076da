import Verif.Spec.FlagSet
import Verif.Props.Small
import Verif.Lemmas.View
import Mathlib.Data.Nat.Bitwise

/-! # Lemmas on flags as sets -/

namespace Binate

open Spec

theorem declared_iff (k : Nat) : declared k = true ↔ 4 ≤ k ∧ k ≤ 8 := by
  simp [declared]

theorem flagSet_inj {a b : Flags} (h : ∀ k, flagSet a k = flagSet b k) : a = b := flags_ext h

theorem flagSet_eq (f : Flags) (k : Nat) : flagSet f k = f.bits.getLsbD k := rfl

theorem flagSet_union (a b : Flags) (k : Nat) :
    flagSet (a.union b) k = (flagSet a k || flagSet b k) := by
  simp [flagSet, Flags.union, BitVec.toNat_or, Nat.testBit_or]

theorem flagSet_inter (a b : Flags) (k : Nat) :
    flagSet (a.inter b) k = (flagSet a k && flagSet b k) := inter_testBit a b k

theorem flagSet_symmDiff (a b : Flags) (k : Nat) :
    flagSet (a.symmDiff b) k = (flagSet a k != flagSet b k) := by
  simp [flagSet, Flags.symmDiff, BitVec.toNat_xor, Nat.testBit_xor]

theorem flagSet_diff (a b : Flags) (k : Nat) :
    flagSet (a.diff b) k = (flagSet a k && !flagSet b k) := by
  simp only [flagSet_eq, Flags.diff, BitVec.getLsbD_and, BitVec.getLsbD_not]
  by_cases h : k < 16
  · simp [h]
  · have e : a.bits.getLsbD k = false := BitVec.getLsbD_of_ge _ _ (by omega)
    simp [e]

theorem flagSet_all (k : Nat) : flagSet Flags.all k = declared k := by
  by_cases h : k < 16
  · revert k; decide
  · rw [flagSet_eq, BitVec.getLsbD_of_ge _ _ (by omega)]
    symm
    rw [Bool.eq_false_iff, ne_eq, declared_iff]
    omega

theorem flagSet_truncate (w : U16) (k : Nat) :
    flagSet (Flags.fromBitsTruncate w) k = (w.toNat.testBit k && declared k) := by
  rw [← flagSet_all]
  simp only [flagSet_eq, Flags.fromBitsTruncate, BitVec.getLsbD_and]
  rfl

theorem flagSet_compl (a : Flags) (k : Nat) :
    flagSet a.compl k = (declared k && !flagSet a k) := by
  rw [Flags.compl, flagSet_truncate]
  by_cases h : k < 16
  · rw [show (~~~ a.bits).toNat.testBit k = (~~~ a.bits).getLsbD k from rfl, BitVec.getLsbD_not]
    simp [h, flagSet_eq, Bool.and_comm]
  · have : declared k = false := by
      rw [Bool.eq_false_iff, ne_eq, declared_iff]
      omega
    simp [this]

theorem flagSet_foldl (l : List Flags) : ∀ (a : Flags) (k : Nat),
    flagSet (l.foldl Flags.insert a) k = (flagSet a k || l.any fun g => flagSet g k) := by
  induction l with
  | nil => intro a k; simp
  | cons g l ih =>
    intro a k
    rw [List.foldl_cons, ih, List.any_cons, show flagSet (a.insert g) k = _ from flagSet_union a g k,
      Bool.or_assoc]

theorem flagSet_apply (a : Flags) (op : Flags.Op) (k : Nat) :
    flagSet (op.apply a) k = setOp (flagSet a) op k := by
  cases op with
  | insert g => exact flagSet_union a g k
  | orAssign g => exact flagSet_union a g k
  | remove g => exact flagSet_diff a g k
  | subAssign g => exact flagSet_diff a g k
  | toggle g => exact flagSet_symmDiff a g k
  | xorAssign g => exact flagSet_symmDiff a g k
  | andAssign g => exact flagSet_inter a g k
  | complement => exact flagSet_compl a k
  | extend l => exact flagSet_foldl l a k
  | set g v =>
    show flagSet (a.set g v) k = if flagSet g k then v else flagSet a k
    unfold Flags.set
    cases v
    · rw [if_neg (by decide), show flagSet (a.remove g) k = _ from flagSet_diff a g k]
      cases flagSet g k <;> simp
    · rw [if_pos rfl, show flagSet (a.insert g) k = _ from flagSet_union a g k]
      cases flagSet g k <;> simp

theorem safe_iff_declared (f : Flags) : SafeFlags f ↔ ∀ k, flagSet f k = true → declared k = true := by
  rw [C25_safe_iff]
  exact forall_congr' fun k => by rw [declared_iff]; exact Iff.rfl

theorem safe_apply {a : Flags} (ha : SafeFlags a) {op : Flags.Op} (h : SafeOp op) :
    SafeFlags (op.apply a) := by
  cases op with
  | insert g => exact .union ha h
  | orAssign g => exact .union ha h
  | remove g => exact .diff ha h
  | subAssign g => exact .diff ha h
  | toggle g => exact .symmDiff ha h
  | xorAssign g => exact .symmDiff ha h
  | andAssign g => exact .inter ha h
  | complement => exact .compl ha
  | set g v => cases v <;> [exact .diff ha h; exact .union ha h]
  | extend l =>
    show SafeFlags (l.foldl Flags.insert a)
    have h' : ∀ g ∈ l, SafeFlags g := h
    clear h
    induction l generalizing a with
    | nil => exact ha
    | cons g l ih =>
      exact ih (.union ha (h' g List.mem_cons_self)) fun x hx => h' x (List.mem_cons_of_mem _ hx)

theorem writtenWith_iff {digits : String} {radix : Nat} {g : Char → Char} (hr : 1 < radix)
    (hl : digits.length = radix)
    (hd : ∀ d < radix, digits.toList[d]? = some (g d.digitChar)) (n : Nat) (l : List Char) :
    WrittenWith digits n l ↔ l = (Nat.toDigits radix n).map g := by
  have hlt : ∀ {d c}, digits.toList[d]? = some c → d < radix ∧ c = g d.digitChar := by
    intro d c h
    have h1 : d < radix := by
      rw [← hl, ← String.length_toList]
      exact (List.getElem?_eq_some_iff.1 h).1
    exact ⟨h1, Option.some.inj (h.symm.trans (hd d h1))⟩
  constructor
  · intro h
    induction h with
    | digit h =>
      obtain ⟨h1, rfl⟩ := hlt h
      rw [Nat.toDigits_of_lt_base h1]
      rfl
    | @more n l d c h0 _ h ih =>
      obtain ⟨h1, rfl⟩ := hlt h
      rw [hl]
      have hge : radix ≤ radix * n + d :=
        Nat.le_trans (Nat.le_mul_of_pos_right _ h0) (Nat.le_add_right _ _)
      rw [Nat.toDigits_of_base_le hr hge, ih, List.map_append, Nat.mul_add_mod, Nat.mod_eq_of_lt h1,
        Nat.mul_add_div (by omega), Nat.div_eq_of_lt h1]
      rfl
  · rintro rfl
    induction n using Nat.strongRecOn with
    | ind n ih =>
      by_cases h : n < radix
      · rw [Nat.toDigits_of_lt_base h]
        exact .digit (hd n h)
      · rw [Nat.toDigits_of_base_le hr (by omega), List.map_append]
        have hm : n % radix < radix := Nat.mod_lt _ (by omega)
        have h1 := WrittenWith.more (Nat.div_pos (by omega) (by omega))
          (ih _ (Nat.div_lt_self (by omega) hr)) (hd _ hm)
        rw [hl, Nat.div_add_mod] at h1
        exact h1

/-- Two different numbers have a highest bit in which they differ. -/
theorem exists_top {x y : Nat} (h : x ≠ y) : ∃ k, x.testBit k ≠ y.testBit k ∧
    ∀ j, k < j → x.testBit j = y.testBit j := by
  have hz : x ^^^ y ≠ 0 := fun e => h (Nat.xor_eq_zero_iff.1 e)
  obtain ⟨k, hk, hj⟩ := Nat.exists_most_significant_bit hz
  refine ⟨k, fun e => ?_, fun j h => ?_⟩
  · rw [Nat.testBit_xor, e] at hk
    simp at hk
  · have := hj j h
    rw [Nat.testBit_xor] at this
    simpa using this

end Binate
