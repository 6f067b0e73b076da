import Verif.Lemmas.FlagSet

/-! # Flags are sets

C105. -/

namespace Binate

open Spec

/-- **C105.** After any sequence of operations, a variable holds exactly the flags that it would hold
if it were a set of bits. -/
theorem C105_history (f : Flags) (ops : List Flags.Op) (k : Nat) :
    flagSet (ops.foldl Flags.Op.apply f) k = ops.foldl setOp (flagSet f) k := by
  induction ops generalizing f with
  | nil => rfl
  | cons op ops ih =>
    rw [List.foldl_cons, List.foldl_cons, ih, show flagSet (op.apply f) = setOp (flagSet f) op from
      funext (flagSet_apply f op)]

/-- **C105.** An undeclared bit never gets into it. -/
theorem C105_declared {f : Flags} (hf : SafeFlags f) {ops : List Flags.Op}
    (h : ∀ op ∈ ops, SafeOp op) : SafeFlags (ops.foldl Flags.Op.apply f) := by
  induction ops generalizing f with
  | nil => exact hf
  | cons op ops ih =>
    exact ih (safe_apply hf (h op List.mem_cons_self)) fun o ho => h o (List.mem_cons_of_mem _ ho)

/-- **C105.** Flags that are collected: those of any item. -/
theorem C105_collect (l : List Flags) (k : Nat) :
    flagSet (Flags.fromIter l) k = l.any fun g => flagSet g k := by
  rw [Flags.fromIter, Flags.extend, flagSet_foldl, show flagSet Flags.empty k = false from
    Nat.zero_testBit k, Bool.false_or]

/-- **C105.** What the queries answer, and what equality means. -/
theorem C105_queries {f g : Flags} (hf : SafeFlags f) :
    (f.contains g = true ↔ ∀ k, flagSet g k = true → flagSet f k = true) ∧
    (f.intersects g = true ↔ ∃ k, flagSet f k = true ∧ flagSet g k = true) ∧
    (f.isEmpty = true ↔ ∀ k, flagSet f k = false) ∧
    (f.isAll = true ↔ ∀ k, declared k = true → flagSet f k = true) ∧
    (f = g ↔ ∀ k, flagSet f k = flagSet g k) := by
  have empty_iff : ∀ x : Flags, x.isEmpty = true ↔ ∀ k, flagSet x k = false := by
    intro x
    rw [Flags.isEmpty, beq_iff_eq]
    constructor
    · intro e k
      rw [flagSet, e]
      exact Nat.zero_testBit k
    · intro h
      have : x = Flags.empty := flagSet_inj fun k => by
        rw [h k]
        exact (Nat.zero_testBit k).symm
      rw [this]
  refine ⟨?_, ?_, empty_iff f, ?_, ⟨fun e k => by rw [e], flagSet_inj⟩⟩
  · rw [Flags.contains, beq_iff_eq]
    constructor
    · intro e k hk
      have := flagSet_inter f g k
      rw [show flagSet (f.inter g) k = flagSet g k by rw [flagSet, flagSet, Flags.inter, e], hk] at this
      exact ((Bool.and_eq_true _ _).mp this.symm).1
    · intro h
      have : f.inter g = g := flagSet_inj fun k => by
        rw [flagSet_inter]
        cases e : flagSet g k
        · exact Bool.and_false _
        · rw [h k e]; rfl
      exact congrArg Flags.bits this
  · show (!(f.inter g).isEmpty) = true ↔ _
    rw [Bool.not_eq_true', ← Bool.not_eq_true, empty_iff]
    constructor
    · intro h
      by_contra hc
      refine h fun k => ?_
      rw [flagSet_inter]
      cases e : flagSet f k
      · rfl
      · cases e' : flagSet g k
        · rfl
        · exact absurd ⟨k, e, e'⟩ hc
    · rintro ⟨k, h1, h2⟩ h
      have := h k
      rw [flagSet_inter, h1, h2] at this
      cases this
  · rw [Flags.isAll, beq_iff_eq]
    constructor
    · intro e k hk
      rw [flagSet, e]
      exact (flagSet_all k).trans hk
    · intro h
      have : f = Flags.all := flagSet_inj fun k => by
        rw [flagSet_all]
        cases e : declared k
        · rw [Bool.eq_false_iff]
          intro hk
          rw [(safe_iff_declared f).1 hf k hk] at e
          cases e
        · exact h k e
      rw [this]

/-- **C105.** `from_bits` accepts exactly the words without undeclared bits and `from_bits_truncate`
drops the undeclared ones; both keep the others. -/
theorem C105_from_bits (w : U16) :
    (∀ f, Flags.fromBits w = some f ↔
      f.bits = w ∧ ∀ k, w.toNat.testBit k = true → declared k = true) ∧
    (∀ k, flagSet (Flags.fromBitsTruncate w) k = (w.toNat.testBit k && declared k)) := by
  refine ⟨fun f => ?_, flagSet_truncate w⟩
  have hs := safe_iff_declared ⟨w⟩
  rw [Flags.fromBits]
  constructor
  · intro h
    have hf := SafeFlags.fromBits (w := w) (f := f) h
    split at h
    · cases h
      exact ⟨rfl, hs.1 hf⟩
    · cases h
  · rintro ⟨rfl, h⟩
    rw [if_pos]
    have e : f.diff Flags.all = Flags.empty := flagSet_inj fun k => by
      rw [flagSet_diff, flagSet_all, show flagSet Flags.empty k = false from Nat.zero_testBit k]
      cases e : flagSet f k
      · rfl
      · rw [h k e]; rfl
    exact congrArg Flags.bits e

/-- **C105.** The order: of two different flag words, the larger one is the one that has the highest
bit in which they differ. In particular, more flags are never less. -/
theorem C105_order (f g : Flags) :
    (f.cmp g = .eq ↔ f = g) ∧
    (f.cmp g = .lt ↔ ∃ k, flagSet f k = false ∧ flagSet g k = true ∧
      ∀ j, k < j → flagSet f j = flagSet g j) ∧
    (g.cmp f = (f.cmp g).swap) ∧
    ((∀ k, flagSet f k = true → flagSet g k = true) → f.cmp g ≠ .gt) := by
  have lt_iff : ∀ a b : Flags, (a.bits.toNat < b.bits.toNat ↔ ∃ k, flagSet a k = false ∧
      flagSet b k = true ∧ ∀ j, k < j → flagSet a j = flagSet b j) := by
    intro a b
    constructor
    · intro h
      obtain ⟨k, hk, hj'⟩ := exists_top (Nat.ne_of_lt h)
      cases e : a.bits.toNat.testBit k
      · refine ⟨k, e, ?_, hj'⟩
        rw [e] at hk
        exact (Bool.eq_true_of_not_eq_false fun h => hk h.symm)
      · rw [e] at hk
        have e' : b.bits.toNat.testBit k = false := Bool.eq_false_iff.2 fun h => hk h.symm
        exact absurd (Nat.lt_of_testBit k e' e fun j h => (hj' j h).symm) (by omega)
    · rintro ⟨k, h1, h2, h3⟩
      exact Nat.lt_of_testBit k h1 h2 h3
  refine ⟨?_, ?_, ?_, ?_⟩
  · rw [Flags.cmp, Nat.compare_eq_eq]
    constructor
    · intro e
      cases f; cases g
      exact congrArg Flags.mk (BitVec.eq_of_toNat_eq e)
    · rintro rfl; rfl
  · rw [Flags.cmp, Nat.compare_eq_lt, lt_iff]
  · rw [Flags.cmp, Flags.cmp, Nat.compare_swap]
  · intro h hc
    rw [Flags.cmp, Nat.compare_eq_gt, lt_iff] at hc
    obtain ⟨k, h1, h2, -⟩ := hc
    rw [h k h2] at h1
    cases h1

/-- **C105.** Hashing agrees with equality: two values are hashed alike by every hasher exactly if they hold
the same flags. -/
theorem C105_hash (f g : Flags) :
    (∀ {σ : Type} (write : U16 → σ → σ) (hasher : σ), f.hash write hasher = g.hash write hasher) ↔
      ∀ k, flagSet f k = flagSet g k := by
  refine ⟨fun h k => ?_, fun h _ _ _ => by rw [flagSet_inj h]⟩
  have hb := h (σ := U16) (fun w _ => w) 0#16
  rw [flagSet, flagSet, show f.bits = g.bits from hb]

/-- **C105.** What is printed with `{:b}`, `{:o}`, `{:x}` and `{:X}` is the flag word to base 2, 8 or 16,
with small or capital letters, and without prefix or leading zeros. -/
theorem C105_numbers (f : Flags) (l : List Char) :
    (f.binary = l ↔ WrittenWith "01" f.bits.toNat l) ∧
    (f.octal = l ↔ WrittenWith "01234567" f.bits.toNat l) ∧
    (f.lowerHex = l ↔ WrittenWith "0123456789abcdef" f.bits.toNat l) ∧
    (f.upperHex = l ↔ WrittenWith "0123456789ABCDEF" f.bits.toNat l) := by
  refine ⟨?_, ?_, ?_, ?_⟩
  · rw [writtenWith_iff (g := fun c => if false then c.toUpper else c) (by decide : 1 < 2) (by decide)
      (by decide)]
    exact eq_comm
  · rw [writtenWith_iff (g := fun c => if false then c.toUpper else c) (by decide : 1 < 8) (by decide)
      (by decide)]
    exact eq_comm
  · rw [writtenWith_iff (g := fun c => if false then c.toUpper else c) (by decide : 1 < 16) (by decide)
      (by decide)]
    exact eq_comm
  · rw [writtenWith_iff (g := fun c => if true then c.toUpper else c) (by decide : 1 < 16) (by decide)
      (by decide)]
    exact eq_comm

example : Flags.all.upperHex = "1F0".toList := by decide
example : Flags.METADATA.binary = "10000000".toList := by decide

/-- Operations in a row. -/
example : [Flags.Op.insert Flags.NEXT, .toggle Flags.FOLLOWS, .set Flags.NEXT false,
    .complement].foldl Flags.Op.apply Flags.empty = ⟨0x1B0#16⟩ := by decide

/-- The hypotheses of `C105_declared` hold of them. -/
example : SafeFlags Flags.empty ∧ ∀ op ∈ [Flags.Op.insert Flags.NEXT, .complement], SafeOp op := by
  refine ⟨.empty, fun op h => ?_⟩
  rcases List.mem_cons.1 h with rfl | h
  · exact SafeFlags.next
  · rcases List.mem_cons.1 h with rfl | h
    · trivial
    · cases h

/-- FOLLOWS, RESUME and RESPOND are one flag. -/
example : Flags.fromIter [Flags.FOLLOWS, Flags.RESUME, Flags.RESPOND] = Flags.FOLLOWS := by decide

example : Flags.cmp Flags.IGNORE (Flags.METADATA.union Flags.NEXT) = .gt := by decide

end Binate
