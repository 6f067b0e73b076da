import Verif.Lemmas.Chunks

/-! # Properties of payload chunking (C26–C28) -/

namespace Binate

open Spec PayloadChunks

/-! ## C26 -/

/-- **C26.** Whatever a loop over `p.chunks(size)` collects, the metadata shares in order make up
the metadata of `p`, and the data shares its data. -/
theorem C26_nothing_lost {p : Payload} {size : Nat} {c : PayloadChunks} (hc : p.chunks size = .ok c)
    {n : Nat} {ps : List Payload} (h : collect n c = some ps) :
    joinMetadata ps = p.metadata.getD [] ∧ joinData ps = p.data.getD [] := by
  obtain ⟨h0, rfl⟩ := chunks_eq_ok hc
  rw [collect_spec h0] at h
  split at h
  · cases h
    unfold joinMetadata joinData
    simp only [List.map_map]
    exact ⟨join_parts h0 _ _ (Nat.le_max_left ..), join_parts h0 _ _ (Nat.le_max_right ..)⟩
  · cases h

/-- **C26**, presence: some chunk carries metadata (data) exactly when the payload does. -/
theorem C26_presence {p : Payload} {size : Nat} {c : PayloadChunks} (hc : p.chunks size = .ok c)
    {n : Nat} {ps : List Payload} (h : collect n c = some ps) :
    ((∃ q ∈ ps, q.metadata.isSome) ↔ p.metadata.isSome) ∧
    ((∃ q ∈ ps, q.data.isSome) ↔ p.data.isSome) := by
  obtain ⟨h0, rfl⟩ := chunks_eq_ok hc
  rw [collect_spec h0] at h
  have key : ∀ (part : Option Bytes) (i : Nat), (partAt size part i).isSome → part.isSome := by
    intro part i hi
    unfold partAt at hi
    split at hi
    · rwa [Option.isSome_map] at hi
    · cases hi
  have key2 : ∀ (part : Option Bytes), part.isSome →
      0 < partCount size part ∧ (partAt size part 0).isSome := by
    intro part hp
    cases part with
    | none => cases hp
    | some b =>
      have : 0 < partCount size (some b) := by show 0 < max 1 _; omega
      refine ⟨this, ?_⟩
      rw [partAt, if_pos this]
      rfl
  split at h
  · cases h
    simp only [List.mem_map, List.mem_range]
    refine ⟨⟨?_, fun hs => ?_⟩, ⟨?_, fun hs => ?_⟩⟩
    · rintro ⟨q, ⟨i, -, rfl⟩, hq⟩
      exact key _ i hq
    · exact ⟨_, ⟨0, Nat.lt_of_lt_of_le (key2 _ hs).1 (Nat.le_max_left ..), rfl⟩, (key2 _ hs).2⟩
    · rintro ⟨q, ⟨i, -, rfl⟩, hq⟩
      exact key _ i hq
    · exact ⟨_, ⟨0, Nat.lt_of_lt_of_le (key2 _ hs).1 (Nat.le_max_right ..), rfl⟩, (key2 _ hs).2⟩
  · cases h

example : (Payload.mk (some [1#8, 2#8, 3#8]) none).chunks 2 = .ok ⟨2, some [1#8, 2#8, 3#8], none⟩ ∧
    collect 2 ⟨2, some [1#8, 2#8, 3#8], none⟩ =
      some [⟨some [1#8, 2#8], none⟩, ⟨some [3#8], none⟩] := by decide

/-! ## C27 -/

/-- **C27.** `chunks(0)` panics; any other size gives an iterator. -/
theorem C27_zero (p : Payload) (size : Nat) :
    (∃ c, p.chunks size = .ok c) ↔ size ≠ 0 := by
  constructor
  · rintro ⟨c, h⟩
    have := (chunks_eq_ok h).1
    omega
  · intro h
    exact ⟨_, chunks_ok (by omega)⟩

/-- **C27.** The `n`-th call of `next` (counted from 0) yields chunk number `n`, given by its byte
range, while there are such chunks, and `None` for ever after. -/
theorem C27_nth {p : Payload} {size : Nat} {c : PayloadChunks} (hc : p.chunks size = .ok c)
    (n : Nat) : (afterNext n c).next.1 =
      if n < chunkCount size p then some (chunkAt size p n) else none := by
  obtain ⟨h0, rfl⟩ := chunks_eq_ok hc
  exact nth_next h0 n

/-- **C27.** A loop over the iterator ends after exactly `chunkCount` rounds. -/
theorem C27_terminates {p : Payload} {size : Nat} {c : PayloadChunks} (hc : p.chunks size = .ok c)
    (fuel : Nat) : collect fuel c = if chunkCount size p ≤ fuel then
      some ((List.range (chunkCount size p)).map (chunkAt size p)) else none := by
  obtain ⟨h0, rfl⟩ := chunks_eq_ok hc
  exact collect_spec h0 fuel

/-- **C27.** The number of chunks is the larger of the two lengths divided by the size, rounded
up, when no part is present-but-empty. -/
theorem C27_count {p : Payload} {size : Nat} (h0 : 0 < size) (hm : NotEmpty p.metadata)
    (hd : NotEmpty p.data) : chunkCount size p =
      max (ceilDiv (p.metadata.getD []).length size) (ceilDiv (p.data.getD []).length size) := by
  have key : ∀ part : Option Bytes, NotEmpty part →
      partCount size part = ceilDiv (part.getD []).length size := by
    intro part hp
    cases part with
    | none => exact (ceilDiv_zero size h0).symm
    | some b =>
      show max 1 (ceilDiv b.length size) = ceilDiv b.length size
      have : 0 < b.length := by
        rcases b with _ | ⟨x, b⟩
        · exact absurd rfl hp
        · exact Nat.succ_pos _
      have := ceilDiv_pos h0 this
      omega
  unfold chunkCount
  rw [key _ hm, key _ hd]

/-- **C27.** No share is longer than the chunk size, a share that is followed by another one of
the same part has exactly the chunk size, and only a present-but-empty part has an empty
share. -/
theorem C27_sizes {size : Nat} (h0 : 0 < size) {part : Option Bytes} {i : Nat} {b : Bytes}
    (h : partAt size part i = some b) :
    b.length ≤ size ∧ ((partAt size part (i + 1)).isSome → b.length = size) ∧
    (b = [] → part = some []) := by
  unfold partAt at h
  split at h
  · rename_i hi
    cases part with
    | none => cases h
    | some a =>
      cases h
      rw [List.length_take, List.length_drop]
      refine ⟨Nat.min_le_left .., fun hs => ?_, fun he => ?_⟩
      · unfold partAt at hs
        split at hs
        · rename_i h1
          rcases (lt_partCount h0).1 h1 with e | e
          · omega
          · rw [Nat.add_mul, Nat.one_mul] at e
            omega
        · cases hs
      · have hl := congrArg List.length he
        rw [List.length_take, List.length_drop, List.length_nil] at hl
        rcases (lt_partCount h0).1 hi with e | e
        · subst e
          rw [Nat.zero_mul] at hl
          have : a.length = 0 := by omega
          rw [List.length_eq_zero_iff.1 this]
        · omega
  · cases h

example : (Payload.mk (some [1#8, 2#8, 3#8]) (some [4#8])).chunks 2 =
    .ok ⟨2, some [1#8, 2#8, 3#8], some [4#8]⟩ := by decide
example : collect 2 ⟨2, some [1#8, 2#8, 3#8], some [4#8]⟩ =
    some [⟨some [1#8, 2#8], some [4#8]⟩, ⟨some [3#8], none⟩] := by decide
example : chunkCount 2 (Payload.mk (some [1#8, 2#8, 3#8]) (some [4#8])) = 2 := by decide

/-! ## C28 -/

/-- What C28 says: at every point `len()` is the number of `Some`s still to come. -/
def C28_statement (size : Nat) (p : Payload) : Prop :=
  ∀ c, p.chunks size = .ok c → ∀ n m,
    (afterNext (n + m) c).next.1.isSome ↔ m < (afterNext n c).len

/-- **C28** holds for payloads whose parts have at most 2^24 bytes and are not present-but-empty,
for every chunk size. Missing: longer parts (false, see below, because of the 24-bit precision of
`f32`) and present-but-empty parts (false, see below). -/
theorem C28_len_exact_partial {p : Payload} {size : Nat} (hm : NotEmpty p.metadata)
    (hd : NotEmpty p.data) (hm' : (p.metadata.getD []).length ≤ 2 ^ 24)
    (hd' : (p.data.getD []).length ≤ 2 ^ 24) : C28_statement size p := by
  intro c hc n m
  obtain ⟨h0, rfl⟩ := chunks_eq_ok hc
  rw [nth_next h0, len_afterNext h0 n hm hd hm' hd']
  split
  · rename_i h
    exact ⟨fun _ => by omega, fun _ => rfl⟩
  · rename_i h
    constructor
    · intro h'; cases h'
    · intro h'; omega

/-- **C28**, how wrong `len()` can be, for every payload (a buffer has at most 2^63 - 1 bytes) and
every chunk size: by at most one, plus one for every 2^22 chunks still to come. -/
theorem C28_len_error {p : Payload} {size : Nat} {c : PayloadChunks} (hc : p.chunks size = .ok c)
    (hm : (p.metadata.getD []).length < 2 ^ 63) (hd : (p.data.getD []).length < 2 ^ 63) (n : Nat) :
    ∃ left, (∀ m, (afterNext (n + m) c).next.1.isSome ↔ m < left) ∧
      (afterNext n c).len ≤ left + left / 2 ^ 22 + 1 ∧
      left ≤ (afterNext n c).len + left / 2 ^ 22 + 1 := by
  obtain ⟨h0, rfl⟩ := chunks_eq_ok hc
  refine ⟨chunkCount size p - n, fun m => ?_, len_near h0 n (Nat.le_of_lt hm) (Nat.le_of_lt hd)⟩
  rw [nth_next h0]
  split
  · rename_i h
    have h : n + m < chunkCount size p := h
    exact ⟨fun _ => by omega, fun _ => rfl⟩
  · rename_i h
    have h : ¬ n + m < chunkCount size p := h
    constructor
    · intro h'; cases h'
    · intro h'; omega

/-- **C28** is false for a part of 2^24 + 1 bytes cut into single bytes: `len()` is one too
small. -/
theorem C28_len_exact_false : ¬ ∀ size p, C28_statement size p := by
  intro h
  have key : ∀ k : Nat, k = 2 ^ 24 → False := by
    intro k hk
    have hc := chunks_ok (p := ⟨none, some (List.replicate (k + 1) 0#8)⟩) (size := 1) (by omega)
    have := h 1 ⟨none, some (List.replicate (k + 1) 0#8)⟩ _ hc 0 k
    rw [Nat.zero_add, nth_next (by exact Nat.one_pos)] at this
    have hcount : chunkCount 1 ⟨none, some (List.replicate (k + 1) 0#8)⟩ = k + 1 := by
      show max 0 (max 1 (ceilDiv (List.replicate (k + 1) 0#8).length 1)) = k + 1
      rw [List.length_replicate]
      unfold ceilDiv
      rw [Nat.div_one]
      omega
    have hlen : PayloadChunks.len ⟨1, none, some (List.replicate (k + 1) 0#8)⟩ = k := by
      rw [len_eq]
      show max (lenPart 1 0) (lenPart 1 (List.replicate (k + 1) 0#8).length) = k
      rw [List.length_replicate, lenPart_zero, hk, lenPart_inexact]
      exact Nat.max_eq_right (Nat.zero_le _)
    have h1 := this.1 (by
      exact (congrArg Option.isSome
        (if_pos (Nat.lt_of_lt_of_eq (Nat.lt_succ_self k) hcount.symm))).trans rfl)
    have h2 : k < PayloadChunks.len ⟨1, none, some (List.replicate (k + 1) 0#8)⟩ := h1
    rw [hlen] at h2
    omega
  exact key _ rfl

/-- **C28** is also false for a present-but-empty part: `len()` is 0 but a chunk comes. -/
theorem C28_empty_false (size : Nat) (h0 : 0 < size) :
    ∃ c, (Payload.mk none (some [])).chunks size = .ok c ∧ c.len = 0 ∧
      c.next.1 = some ⟨none, some []⟩ := by
  refine ⟨_, chunks_ok h0, ?_, ?_⟩
  · rw [len_eq]
    show max (lenPart size 0) (lenPart size 0) = 0
    rw [lenPart_zero]
    rfl
  · show some (Payload.new (takePart size none).1 (takePart size (some [])).1) = _
    rw [takePart_some, if_neg (by rw [List.length_nil]; exact Nat.not_lt_zero _)]
    rfl

example : NotEmpty (some [1#8, 2#8, 3#8]) ∧ ((some [1#8, 2#8, 3#8] : Option Bytes).getD []).length ≤
    2 ^ 24 := by
  refine ⟨?_, by decide⟩
  intro h; cases h

end Binate
