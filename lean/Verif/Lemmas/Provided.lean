import Verif.Lemmas.BufList

/-! # The provided methods of `bytes::Buf` -/

namespace Binate

open Spec

section
variable {β : Type} [BufCore β] [LawfulCore β]

theorem defaultCopy_ok {b : β} {n : Nat} (hb : Valid b) (hn : n ≤ (bytes b).length) :
    ∃ b', BufCore.defaultCopyToBytes b n = .ok ((bytes b).take n, b') ∧ Valid b' ∧
      bytes b' = (bytes b).drop n := by
  obtain ⟨b', e1, e2, e3⟩ := putTake_ok (Nat.le_refl n) hb hn []
  refine ⟨b', ?_, e2, e3⟩
  unfold BufCore.defaultCopyToBytes
  rw [LawfulCore.remaining_eq hb, decide_eq_true hn, Outcome.assert_true, Outcome.ok_bind, e1]
  rfl

theorem defaultCopy_over {b : β} {n : Nat} (hb : Valid b) (hn : (bytes b).length < n) :
    BufCore.defaultCopyToBytes b n = .panic "`len` greater than remaining" := by
  unfold BufCore.defaultCopyToBytes
  rw [LawfulCore.remaining_eq hb, decide_eq_false (Nat.not_le.2 hn)]
  rfl

theorem defaultVectored {b : β} (n : Nat) (hb : Valid b) :
    BufCore.defaultChunksVectored b n =
      .ok (if n = 0 ∨ bytes b = [] then [] else [BufCore.chunk b]) := by
  unfold BufCore.defaultChunksVectored
  rw [LawfulCore.remaining_eq hb]
  by_cases h0 : n = 0
  · rw [if_pos h0, if_pos (.inl h0)]
  · rw [if_neg h0]
    cases hs : bytes b with
    | nil => simp
    | cons x xs => simp [h0]

end

/-- `VecDeque<u8>` keeps the contract of the required methods. -/
instance : LawfulCore Deque where
  Valid _ := True
  bytes d := d.front ++ d.back
  remaining_eq {d} _ := List.length_append.symm
  chunk_prefix {d} _ := by
    show (if d.front.isEmpty then d.back else d.front) <+: d.front ++ d.back
    cases hf : d.front with
    | nil => exact List.prefix_refl _
    | cons x xs => exact List.prefix_append _ _
  chunk_ne {d} _ h := by
    show (if d.front.isEmpty then d.back else d.front) ≠ []
    cases hf : d.front with
    | nil => rw [hf] at h; exact h
    | cons x xs => nofun
  advance_ok {d n} _ h := by
    refine ⟨⟨d.front.drop n, d.back.drop (n - d.front.length)⟩, ?_, trivial, ?_⟩
    · show (Outcome.assert (decide (n ≤ d.front.length + d.back.length)) _ >>= fun _ => _) = _
      rw [decide_eq_true (by rwa [List.length_append] at h)]
      rfl
    · exact (List.drop_append ..).symm
  advance_over {d n} _ h := ⟨_, by
    show (Outcome.assert (decide (n ≤ d.front.length + d.back.length)) _ >>= fun _ => _) = _
    rw [decide_eq_false (by rw [List.length_append] at h; omega)]
    rfl⟩

instance : LawfulBuf Deque where
  copy_ok h hn := defaultCopy_ok h hn
  copy_over h hn := ⟨_, defaultCopy_over h hn⟩

theorem bytes_deque (d : Deque) : bytes d = d.front ++ d.back := rfl

end Binate
