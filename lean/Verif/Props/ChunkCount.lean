import Verif.Lemmas.ChunkCount
import Verif.Props.Chunks
import Verif.Props.Socket

/-! # Long payloads: when the number of chunks is right (C28, C30, C33) -/

namespace Binate

open Spec PayloadChunks RSocketMachine

/-- **C28** for long parts, too: `len()` is exact if the length of each part and the chunk size are
multiples of a power of two that leaves at most 24 bits of the length, or the part fits in one
chunk, or the last share is neither almost empty nor almost full. -/
theorem C28_len_long_partial {p : Payload} {size : Nat} (hm : PartCountable size p.metadata)
    (hd : PartCountable size p.data) : C28_statement size p := by
  intro c hc n m
  obtain ⟨h0, rfl⟩ := chunks_eq_ok hc
  rw [nth_next h0, len_afterNext' h0 n hm.1 hd.1 (Nat.le_of_lt hm.2.1) (Nat.le_of_lt hd.2.1)
    hm.2.2 hd.2.2]
  split
  · rename_i h
    exact ⟨fun _ => by omega, fun _ => rfl⟩
  · rename_i h
    constructor
    · intro h'; cases h'
    · intro h'; omega

/-- **C28** is false for every chunk size up to 2^24, not only for single bytes: some part of at most
2^26 bytes has one chunk more than `len()` says. -/
theorem C28_every_size_false {size : Nat} (h0 : 0 < size) (h : size ≤ 2 ^ 24) :
    ∃ b c, b ≠ [] ∧ b.length ≤ 2 ^ 26 ∧ (Payload.mk none (some b)).chunks size = .ok c ∧
      (afterNext c.len c).next.1.isSome ∧ (afterNext (c.len + 1) c).next.1 = none := by
  obtain ⟨n, k, hn, hle, h1, h2⟩ := miscounted h0 h
  have hlen : PayloadChunks.len ⟨size, none, some (List.replicate n 0#8)⟩ = k := by
    rw [len_eq]
    show max (lenPart size 0) (lenPart size (List.replicate n 0#8).length) = k
    rw [List.length_replicate, lenPart_zero, h1]
    exact Nat.max_eq_right (Nat.zero_le _)
  have hcount : chunkCount size ⟨none, some (List.replicate n 0#8)⟩ = k + 1 := by
    show max 0 (max 1 (ceilDiv (List.replicate n 0#8).length size)) = k + 1
    rw [List.length_replicate, h2]
    omega
  refine ⟨List.replicate n 0#8, _, ?_, by rw [List.length_replicate]; exact hle, chunks_ok h0, ?_, ?_⟩
  · intro e
    have := congrArg List.length e
    rw [List.length_replicate, List.length_nil] at this
    omega
  · show Option.isSome (afterNext (PayloadChunks.len ⟨size, none, some (List.replicate n 0#8)⟩)
      ⟨size, none, some (List.replicate n 0#8)⟩).next.1 = true
    rw [hlen, nth_next h0]
    exact (congrArg Option.isSome
      (if_pos (Nat.lt_of_lt_of_eq (Nat.lt_succ_self k) hcount.symm))).trans rfl
  · show (afterNext (PayloadChunks.len ⟨size, none, some (List.replicate n 0#8)⟩ + 1)
      ⟨size, none, some (List.replicate n 0#8)⟩).next.1 = none
    rw [hlen, nth_next h0]
    exact if_neg (Nat.not_lt.2 (Nat.le_of_eq hcount))

/-- **C30**, the FOLLOWS flags, for long parts, too. -/
theorem C30_long {dbg : Bool} {fuel : Nat} {m : RSocketMachine} {sid : U32}
    {q : StreamIdProvider} {size : Nat} (hc : m.chunkPayload = some size) (h0 : 0 < size)
    (hid : m.streamId.nextStreamId m.receivers fuel = .ok (sid, q)) (tr : Transport) (p : Payload)
    (hm : PartCountable size p.metadata) (hd : PartCountable size p.data) (sent : List Frame) :
    ∃ r sent', m.fireAndForget dbg fuel tr p sent = .ok (r, sent', { m with streamId := q }) ∧
      Delivered tr sent ((List.range (chunkCount size p)).map fun i =>
        fnfFrame sid (decide (i + 1 < chunkCount size p)) (chunkAt size p i)) r sent' := by
  obtain ⟨r, sent', h1, h2⟩ := C30_every_payload (dbg := dbg) hc hid tr p (chunks_ok h0) sent
  refine ⟨r, sent', h1, ?_⟩
  have hl : PayloadChunks.len ⟨size, p.metadata, p.data⟩ = chunkCount size p :=
    len_afterNext' (c := ⟨size, p.metadata, p.data⟩) h0 0 hm.1 hd.1 (Nat.le_of_lt hm.2.1)
      (Nat.le_of_lt hd.2.1) hm.2.2 hd.2.2
  rw [hl] at h2
  have e : ((List.range (chunkCount size p)).map fun i =>
      fnfFrame sid (i + 1 != chunkCount size p) (chunkAt size p i)) =
      (List.range (chunkCount size p)).map fun i =>
        fnfFrame sid (decide (i + 1 < chunkCount size p)) (chunkAt size p i) := by
    apply List.map_congr_left
    intro i hi
    have hi : i < chunkCount size p := List.mem_range.1 hi
    have : (i + 1 != chunkCount size p) = decide (i + 1 < chunkCount size p) := by
      rw [Bool.eq_iff_iff, bne_iff_ne, decide_eq_true_iff]
      omega
    rw [this]
  rw [e] at h2
  exact h2

/-- **C33** for long parts, too: the last frame of a request with at least one part is final. -/
theorem C33_long_partial {dbg : Bool} {fuel : Nat} {m : RSocketMachine} {sid : U32}
    {q : StreamIdProvider} {size : Nat} (hc : m.chunkPayload = some size) (h0 : 0 < size)
    (hid : m.streamId.nextStreamId m.receivers fuel = .ok (sid, q)) (p : Payload)
    (hm : PartCountable size p.metadata) (hd : PartCountable size p.data)
    (hne : p.metadata ≠ none ∨ p.data ≠ none) :
    ∃ r frames m' f, m.fireAndForget dbg fuel openTransport p [] = .ok (r, frames, m') ∧
      frames.getLast? = some f ∧ followsOf f = some false := by
  rw [C33_iff hc hid p (chunks_ok h0)]
  have hl : PayloadChunks.len ⟨size, p.metadata, p.data⟩ = chunkCount size p :=
    len_afterNext' (c := ⟨size, p.metadata, p.data⟩) h0 0 hm.1 hd.1 (Nat.le_of_lt hm.2.1)
      (Nat.le_of_lt hd.2.1) hm.2.2 hd.2.2
  refine ⟨?_, hl⟩
  rcases p with ⟨a, b⟩
  show 0 < max (partCount size a) (partCount size b)
  rcases hne with hne | hne
  · cases a with
    | none => exact absurd rfl hne
    | some a => have : 0 < partCount size (some a) := by show 0 < max 1 _; omega
                omega
  · cases b with
    | none => exact absurd rfl hne
    | some b => have : 0 < partCount size (some b) := by show 0 < max 1 _; omega
                omega

/-- **C33** is false for every fragment size up to 2^24: some payload with one part of 1..2^26 bytes
is never announced as finished at its last frame. -/
theorem C33_every_size_false (dbg : Bool) {size : Nat} (h0 : 0 < size) (h : size ≤ 2 ^ 24) :
    ∃ b : Bytes, b ≠ [] ∧ b.length ≤ 2 ^ 26 ∧
      ¬ ∃ r frames m' f, (fragmenting size).fireAndForget dbg 1 openTransport ⟨none, some b⟩ [] =
          .ok (r, frames, m') ∧ frames.getLast? = some f ∧ followsOf f = some false := by
  obtain ⟨n, k, hn, hle, h1, h2⟩ := miscounted h0 h
  refine ⟨List.replicate n 0#8, ?_, by rw [List.length_replicate]; exact hle, ?_⟩
  · intro e
    have := congrArg List.length e
    rw [List.length_replicate, List.length_nil] at this
    omega
  · rw [C33_iff (m := fragmenting size) rfl (fragmenting_id size) _ (chunks_ok h0)]
    rintro ⟨-, h3⟩
    have hlen : PayloadChunks.len ⟨size, none, some (List.replicate n 0#8)⟩ = k := by
      rw [len_eq]
      show max (lenPart size 0) (lenPart size (List.replicate n 0#8).length) = k
      rw [List.length_replicate, lenPart_zero, h1]
      exact Nat.max_eq_right (Nat.zero_le _)
    have hcount : chunkCount size ⟨none, some (List.replicate n 0#8)⟩ = k + 1 := by
      show max 0 (max 1 (ceilDiv (List.replicate n 0#8).length size)) = k + 1
      rw [List.length_replicate, h2]
      omega
    have h3 : PayloadChunks.len ⟨size, none, some (List.replicate n 0#8)⟩ =
      chunkCount size ⟨none, some (List.replicate n 0#8)⟩ := h3
    rw [hlen, hcount] at h3
    omega

/-- 64 MiB in pieces of 4 KiB, 100 MB in one piece, and 100,000,000 bytes in pieces of 300,000. -/
example : Countable 4096 (2 ^ 26) ∧ Countable 100000000 100000000 ∧
    Countable 300000 100000000 :=
  ⟨.multiple 12 (by norm_num) (by norm_num) (by norm_num), .single (by norm_num),
    .clear (by norm_num) (by norm_num)⟩

example : PartCountable 4 (some [1#8, 2#8]) ∧ PartCountable 4 none :=
  ⟨⟨(nomatch ·), by decide, .single (by decide)⟩, (nomatch ·), by decide, .single (by decide)⟩

example : 0 < 1024 ∧ 1024 ≤ 2 ^ 24 := by decide

end Binate
