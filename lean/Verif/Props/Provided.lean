import Verif.Lemmas.Provided
import Verif.Props.BufList

/-! # Buffers with the provided methods of `bytes::Buf`

C89, C90. `Frame::decode` and `BufList` take any type that implements `bytes::Buf`. A type has to
implement three methods; it may leave `copy_to_bytes` and `chunks_vectored` as the trait provides
them, as `&[u8]` and `VecDeque<u8>` do. -/

namespace Binate

open Spec

/-! ## C89 -/

/-- **C89.** If the three required methods keep the contract, the provided `copy_to_bytes` returns
the first `n` bytes and leaves the rest, and panics exactly when there are fewer. -/
theorem C89_copy {β : Type} [BufCore β] [LawfulCore β] {b : β} (hb : Valid b) (n : Nat) :
    (n ≤ (bytes b).length → ∃ b', BufCore.defaultCopyToBytes b n = .ok ((bytes b).take n, b') ∧
      Valid b' ∧ bytes b' = (bytes b).drop n) ∧
    ((bytes b).length < n → ∃ m, BufCore.defaultCopyToBytes b n = .panic m) :=
  ⟨defaultCopy_ok hb, fun h => ⟨_, defaultCopy_over hb h⟩⟩

/-- **C89.** Then decoding a frame from it gives what decoding its bytes in one piece gives: same
frame, error or panic, same bytes left. -/
theorem C89_decode {β : Type} [BufCore β] [inst : LawfulCore β] {b : β} (hb : Valid b) :
    letI : Buf β := Buf.provided β
    SameDecode ((Frame.decode : Dec β Frame) b) ((Frame.decode : Dec Bytes Frame) (bytes b)) := by
  letI : Buf β := Buf.provided β
  letI : LawfulBuf β := { inst with
    copy_ok := fun h hn => defaultCopy_ok h hn
    copy_over := fun h hn => ⟨_, defaultCopy_over h hn⟩ }
  exact C07_any_buffer (T := β) hb

/-- **C89** for `VecDeque<u8>`: how the deque is split in two does not matter. -/
theorem C89_deque (front back : Bytes) :
    SameDecode ((Frame.decode : Dec Deque Frame) ⟨front, back⟩)
      ((Frame.decode : Dec Bytes Frame) (front ++ back)) :=
  C07_any_buffer (T := Deque) (b := ⟨front, back⟩) trivial

/-- A CANCEL frame for stream 1, split within the stream id. -/
example : (Frame.decode : Dec Deque Frame) ⟨[0, 0], [0, 1, 0x24, 0, 7]⟩ =
    .ok (.cancel ⟨1⟩) ⟨[], [7]⟩ := by decide +kernel

/-! ## C90 -/

/-- **C90**, refuted for lists of buffers that keep the provided `chunks_vectored`: it exposes one
slice of the first deque and goes on with the second. -/
theorem C90_gap_false :
    Buf.chunksVectored (⟨[⟨[1], [2]⟩, ⟨[3], []⟩]⟩ : BufList Deque) 2 = .ok [[1], [3]] ∧
    concat (⟨[⟨[1], [2]⟩, ⟨[3], []⟩]⟩ : BufList Deque).bufs = [1, 2, 3] ∧
    ¬ [[1#8], [3#8]].flatten <+: [1, 2, 3] := by
  decide

/-- **C90** (partial: for buffers whose own `chunks_vectored` exposes everything unless it runs out
of slots). Lists of such buffers do the same, lists of such lists too. -/
theorem C90_no_gap_partial {T : Type} [Buf T] [LawfulBuf T] [LawfulVectored T] {l : BufList T}
    (h : ∀ b ∈ l.bufs, Valid b) (n : Nat) :
    ∃ vs, Buf.chunksVectored l n = .ok vs ∧ vs.length ≤ n ∧ vs.flatten <+: concat l.bufs ∧
      (vs.length < n → vs.flatten = concat l.bufs) :=
  C37_prefix h n

example : Buf.chunksVectored (⟨[⟨[[1], [2]]⟩, ⟨[[3]]⟩]⟩ : BufList (BufList Bytes)) 3 =
    .ok [[1], [2], [3]] := by decide

/-- **C90** (partial): for lists of buffers with the provided `chunks_vectored`, the slices are the
chunks of the first `n` buffers that have bytes left, whether or not these chunks are all the bytes
of their buffers. -/
theorem C90_chunks_partial {T : Type} [BufCore T] [LawfulCore T] (bufs : List T)
    (h : ∀ b ∈ bufs, Valid b) (n : Nat) :
    letI : Buf T := Buf.provided T
    Buf.chunksVectored (⟨bufs⟩ : BufList T) n =
      .ok (((bufs.filter fun b => !(bytes b).isEmpty).take n).map BufCore.chunk) := by
  letI : Buf T := Buf.provided T
  have loop : ∀ (bufs : List T), (∀ b ∈ bufs, Valid b) → ∀ acc : List Bytes, acc.length < n →
      BufList.vectoredLoop n bufs acc = .ok (acc ++
        ((bufs.filter fun b => !(bytes b).isEmpty).take (n - acc.length)).map BufCore.chunk) := by
    intro bufs
    induction bufs with
    | nil => intro _ acc _; simp [BufList.vectoredLoop]
    | cons b bs ih =>
      intro h acc ha
      have hbs := fun b' hb' => h b' (List.mem_cons_of_mem _ hb')
      have hc : (Buf.chunksVectored b (n - acc.length) : Outcome (List Bytes)) =
          .ok (if n - acc.length = 0 ∨ bytes b = [] then [] else [BufCore.chunk b]) :=
        defaultVectored _ (h b (List.mem_cons_self ..))
      rw [BufList.vectoredLoop, if_neg (by omega)]
      cases hb : bytes b with
      | nil =>
        rw [if_pos (.inr hb)] at hc
        rw [hc, Outcome.ok_bind, List.append_nil, if_neg (by omega), ih hbs acc ha,
          List.filter_cons_of_neg (by rw [hb]; nofun)]
      | cons x xs =>
        obtain ⟨k, hk⟩ : ∃ k, n - acc.length = k + 1 := ⟨n - acc.length - 1, by omega⟩
        rw [if_neg (by rw [hb]; simp; omega)] at hc
        rw [hc, Outcome.ok_bind, List.filter_cons_of_pos (by rw [hb]; rfl), hk,
          List.take_succ_cons]
        by_cases he : (acc ++ [BufCore.chunk b]).length = n
        · rw [if_pos he]
          rw [List.length_append, List.length_singleton] at he
          have : k = 0 := by omega
          rw [this, List.take_zero]
          rfl
        · rw [if_neg he]
          rw [List.length_append, List.length_singleton] at he
          rw [ih hbs _ (by rw [List.length_append, List.length_singleton]; omega),
            List.append_assoc, List.length_append, List.length_singleton]
          have : n - (acc.length + 1) = k := by omega
          rw [this]
          rfl
  show (if n = 0 then Outcome.ok [] else BufList.vectoredLoop n bufs []) = _
  rcases Nat.eq_zero_or_pos n with rfl | h0
  · rw [if_pos rfl, List.take_zero]
    rfl
  · rw [if_neg (by omega), loop bufs h [] h0]
    rfl

end Binate
