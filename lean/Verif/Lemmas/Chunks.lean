import Verif.Spec.Chunks
import Verif.Lemmas.F32

/-! # Facts about the chunk iterator -/

namespace Binate

open Spec PayloadChunks

theorem ceilDiv_zero (size : Nat) (h : 0 < size) : ceilDiv 0 size = 0 := by
  unfold ceilDiv
  exact Nat.div_eq_of_lt (by omega)

theorem ceilDiv_small {n size : Nat} (h0 : 0 < n) (h : n ≤ size) : ceilDiv n size = 1 := by
  unfold ceilDiv
  rw [Nat.div_eq_iff (by omega)]
  omega

theorem ceilDiv_step {n size : Nat} (h0 : 0 < size) (h : size < n) :
    ceilDiv n size = ceilDiv (n - size) size + 1 := by
  unfold ceilDiv
  have : n + size - 1 = (n - size + size - 1) + size := by omega
  rw [this, Nat.add_div_right _ h0]

theorem ceilDiv_pos {n size : Nat} (h0 : 0 < size) (h : 0 < n) : 1 ≤ ceilDiv n size := by
  unfold ceilDiv
  rw [Nat.le_div_iff_mul_le h0]
  omega

theorem le_ceilDiv_mul {n size : Nat} (h0 : 0 < size) : n ≤ ceilDiv n size * size := by
  unfold ceilDiv
  have e := Nat.div_add_mod (n + size - 1) size
  have l := Nat.mod_lt (n + size - 1) h0
  rw [Nat.mul_comm] at e
  omega

theorem lt_ceilDiv {n size i : Nat} (h0 : 0 < size) : i < ceilDiv n size ↔ i * size < n := by
  unfold ceilDiv
  rw [Nat.lt_iff_add_one_le, Nat.le_div_iff_mul_le h0, Nat.add_mul]
  omega

theorem lt_partCount {size i : Nat} {b : Bytes} (h0 : 0 < size) :
    i < partCount size (some b) ↔ i = 0 ∨ i * size < b.length := by
  have := lt_ceilDiv (n := b.length) (i := i) h0
  show i < max 1 _ ↔ _
  rw [← this]
  omega

theorem takePart_none (size : Nat) : takePart size none = (none, none) := rfl

theorem takePart_some (size : Nat) (m : Bytes) : takePart size (some m) =
    if size < m.length then (some (m.take size), some (m.drop size)) else (some m, none) := rfl

theorem takePart_fst {size : Nat} (part : Option Bytes) :
    (takePart size part).1 = partAt size part 0 := by
  cases part with
  | none => rfl
  | some b =>
    have : 0 < partCount size (some b) := by show 0 < max 1 _; omega
    rw [takePart_some, partAt, if_pos this]
    simp only [Nat.zero_mul, Option.map_some, List.drop_zero]
    split
    · rfl
    · rw [List.take_of_length_le (by omega)]

theorem takePart_count {size : Nat} (h0 : 0 < size) (part : Option Bytes) :
    partCount size (takePart size part).2 = partCount size part - 1 := by
  cases part with
  | none => rfl
  | some b =>
    rw [takePart_some]
    split
    · rename_i h
      show max 1 (ceilDiv (b.drop size).length size) = max 1 (ceilDiv b.length size) - 1
      rw [List.length_drop, ceilDiv_step h0 h]
      have := ceilDiv_pos h0 (show 0 < b.length - size by omega)
      omega
    · rename_i h
      show 0 = max 1 (ceilDiv b.length size) - 1
      rcases Nat.eq_zero_or_pos b.length with e | e
      · rw [e, ceilDiv_zero _ h0]; rfl
      · rw [ceilDiv_small e (by omega)]; rfl

theorem takePart_at {size : Nat} (h0 : 0 < size) (part : Option Bytes) (i : Nat) :
    partAt size (takePart size part).2 i = partAt size part (i + 1) := by
  unfold partAt
  rw [takePart_count h0]
  by_cases h : i + 1 < partCount size part
  · rw [if_pos h, if_pos (by omega)]
    cases part with
    | none => rfl
    | some b =>
      rcases (lt_partCount h0).1 h with e | e
      · omega
      · rw [Nat.add_mul, Nat.one_mul] at e
        rw [takePart_some, if_pos (by omega)]
        simp only [Option.map_some, List.drop_drop]
        rw [Nat.add_mul, Nat.one_mul, Nat.add_comm]
  · rw [if_neg h, if_neg (by omega)]

/-- What is still to be cut, as a payload. -/
def PayloadChunks.rest (c : PayloadChunks) : Payload := ⟨c.metadata, c.data⟩

theorem next_none {c : PayloadChunks} (h : chunkCount c.chunkSize c.rest = 0) :
    c.next = (none, c) := by
  rcases c with ⟨s, m, d⟩
  have h1 : partCount s m = 0 := by
    have : max (partCount s m) (partCount s d) = 0 := h
    omega
  have h2 : partCount s d = 0 := by
    have : max (partCount s m) (partCount s d) = 0 := h
    omega
  have hm : m = none := by
    cases m with
    | none => rfl
    | some b => have : max 1 _ = 0 := h1; omega
  have hd : d = none := by
    cases d with
    | none => rfl
    | some b => have : max 1 _ = 0 := h2; omega
  subst hm hd
  rfl

theorem next_some {c : PayloadChunks} (h0 : 0 < c.chunkSize)
    (h : 0 < chunkCount c.chunkSize c.rest) :
    c.next.1 = some (chunkAt c.chunkSize c.rest 0) ∧ c.next.2.chunkSize = c.chunkSize ∧
    chunkCount c.chunkSize c.next.2.rest = chunkCount c.chunkSize c.rest - 1 ∧
    ∀ i, chunkAt c.chunkSize c.next.2.rest i = chunkAt c.chunkSize c.rest (i + 1) := by
  rcases c with ⟨s, m, d⟩
  have hne : ¬ ((m.isNone && d.isNone) = true) := by
    intro e
    rw [Bool.and_eq_true, Option.isNone_iff_eq_none, Option.isNone_iff_eq_none] at e
    obtain ⟨rfl, rfl⟩ := e
    exact Nat.lt_irrefl 0 h
  have e : PayloadChunks.next ⟨s, m, d⟩ =
      (some (Payload.new (takePart s m).1 (takePart s d).1),
        ⟨s, (takePart s m).2, (takePart s d).2⟩) := by
    unfold PayloadChunks.next
    rw [if_neg hne]
  rw [e]
  refine ⟨?_, rfl, ?_, fun i => ?_⟩
  · show some (Payload.mk _ _) = some (Payload.mk _ _)
    rw [takePart_fst, takePart_fst]
    rfl
  · show max (partCount s (takePart s m).2) (partCount s (takePart s d).2) =
      max (partCount s m) (partCount s d) - 1
    have h0 : 0 < s := h0
    rw [takePart_count h0, takePart_count h0]
    omega
  · show Payload.mk (partAt s (takePart s m).2 i) (partAt s (takePart s d).2 i) =
      Payload.mk (partAt s m _) (partAt s d _)
    have h0 : 0 < s := h0
    rw [takePart_at h0, takePart_at h0]

/-- The iterator after `n` rounds. -/
theorem afterNext_spec {c : PayloadChunks} (h0 : 0 < c.chunkSize) (n : Nat) :
    (afterNext n c).chunkSize = c.chunkSize ∧
    chunkCount c.chunkSize (afterNext n c).rest = chunkCount c.chunkSize c.rest - n ∧
    ∀ i, n + i < chunkCount c.chunkSize c.rest →
      chunkAt c.chunkSize (afterNext n c).rest i = chunkAt c.chunkSize c.rest (n + i) := by
  induction n generalizing c with
  | zero => exact ⟨rfl, rfl, fun i _ => by rw [Nat.zero_add]; rfl⟩
  | succ n ih =>
    by_cases h : chunkCount c.chunkSize c.rest = 0
    · have e : afterNext (n + 1) c = afterNext n c := by
        show afterNext n c.next.2 = _
        rw [next_none h]
      obtain ⟨i1, i2, -⟩ := ih h0
      rw [e]
      exact ⟨i1, by rw [i2]; omega, fun i hi => by omega⟩
    · obtain ⟨-, n2, n3, n4⟩ := next_some h0 (by omega)
      obtain ⟨i1, i2, i3⟩ := ih (c := c.next.2) (by rw [n2]; exact h0)
      rw [n2] at i1 i2 i3
      refine ⟨i1, ?_, fun i hi => ?_⟩
      · show chunkCount _ (afterNext n c.next.2).rest = _
        rw [i2, n3]; omega
      · show chunkAt _ (afterNext n c.next.2).rest i = _
        rw [i3 i (by rw [n3]; omega), n4]
        congr 1
        omega

theorem nth_next {c : PayloadChunks} (h0 : 0 < c.chunkSize) (n : Nat) :
    (afterNext n c).next.1 =
      if n < chunkCount c.chunkSize c.rest then some (chunkAt c.chunkSize c.rest n) else none := by
  obtain ⟨i1, i2, i3⟩ := afterNext_spec h0 n
  split
  · rename_i h
    obtain ⟨n1, -⟩ := next_some (c := afterNext n c) (by rw [i1]; exact h0)
      (by rw [i1, i2]; omega)
    rw [n1, i1, i3 0 (by omega)]
    rfl
  · rw [next_none (by rw [i1, i2]; omega)]

theorem collect_none {c c' : PayloadChunks} (h : c.next = (none, c')) (n : Nat) :
    collect n c = some [] := by
  unfold collect
  simp only [h]

theorem collect_zero {c c' : PayloadChunks} {p : Payload} (h : c.next = (some p, c')) :
    collect 0 c = none := by
  unfold collect
  simp only [h]

theorem collect_succ {c c' : PayloadChunks} {p : Payload} (h : c.next = (some p, c')) (n : Nat) :
    collect (n + 1) c = (collect n c').map (p :: ·) := by
  conv => lhs; unfold collect
  simp only [h]

theorem collect_spec {c : PayloadChunks} (h0 : 0 < c.chunkSize) (fuel : Nat) :
    collect fuel c = if chunkCount c.chunkSize c.rest ≤ fuel then
      some ((List.range (chunkCount c.chunkSize c.rest)).map (chunkAt c.chunkSize c.rest))
      else none := by
  induction fuel generalizing c with
  | zero =>
    by_cases h : chunkCount c.chunkSize c.rest = 0
    · rw [if_pos (by omega), h, collect_none (next_none h)]
      rfl
    · rw [if_neg (by omega)]
      obtain ⟨n1, -⟩ := next_some h0 (by omega)
      exact collect_zero (Prod.ext n1 rfl)
  | succ n ih =>
    by_cases h : chunkCount c.chunkSize c.rest = 0
    · rw [if_pos (by omega), h, collect_none (next_none h)]
      rfl
    · obtain ⟨n1, n2, n3, n4⟩ := next_some h0 (by omega)
      rcases hn : c.next with ⟨o, c'⟩
      rw [hn] at n1 n2 n3 n4
      simp only at n1 n2 n3 n4
      subst n1
      rw [collect_succ hn, ih (by rw [n2]; exact h0), n2, n3]
      obtain ⟨k, hk⟩ : ∃ k, chunkCount c.chunkSize c.rest = k + 1 := ⟨chunkCount c.chunkSize c.rest - 1, by omega⟩
      rw [hk]
      by_cases hf : k ≤ n
      · rw [if_pos (by omega), if_pos (by omega), List.range_succ_eq_map, List.map_cons,
          List.map_map]
        simp only [Option.map_some, Nat.add_sub_cancel]
        congr 2
        apply List.map_congr_left
        intro i _
        exact n4 i
      · rw [if_neg (by omega), if_neg (by omega)]
        rfl

/-- The shares of a part, in order, make up the part. -/
theorem join_parts {size : Nat} (h0 : 0 < size) (k : Nat) (part : Option Bytes)
    (h : partCount size part ≤ k) :
    ((List.range k).map fun i => (partAt size part i).getD []).flatten = part.getD [] := by
  induction k generalizing part with
  | zero =>
    cases part with
    | none => rfl
    | some b => have : max 1 _ ≤ 0 := h; omega
  | succ k ih =>
    rw [List.range_succ_eq_map, List.map_cons, List.map_map, List.flatten_cons]
    have := ih (takePart size part).2 (by rw [takePart_count h0]; omega)
    simp only [takePart_at h0] at this
    show _ ++ ((List.range k).map fun i => (partAt size part (i + 1)).getD []).flatten = _
    rw [this, ← takePart_fst]
    cases part with
    | none => rfl
    | some b =>
      rw [takePart_some]
      split
      · exact List.take_append_drop ..
      · exact List.append_nil _

theorem chunks_ok {p : Payload} {size : Nat} (h : 0 < size) :
    p.chunks size = .ok ⟨size, p.metadata, p.data⟩ := by
  unfold Payload.chunks
  have : (size != 0) = true := by simp; omega
  rw [this]
  rfl

theorem chunks_zero (p : Payload) :
    p.chunks 0 = .panic "assertion failed: chunk_size != 0" := rfl

theorem chunks_eq_ok {p : Payload} {size : Nat} {c : PayloadChunks} (h : p.chunks size = .ok c) :
    0 < size ∧ c = ⟨size, p.metadata, p.data⟩ := by
  rcases Nat.eq_zero_or_pos size with rfl | hp
  · rw [chunks_zero] at h; cases h
  · rw [chunks_ok hp] at h
    cases h
    exact ⟨hp, rfl⟩

theorem count_le_fuel (c : PayloadChunks) (h0 : 0 < c.chunkSize) :
    chunkCount c.chunkSize c.rest ≤ c.fuel := by
  have key : ∀ part : Option Bytes,
      partCount c.chunkSize part ≤ (part.map fun m => m.length + 1).getD 0 := by
    intro part
    cases part with
    | none => exact Nat.le_refl _
    | some b =>
      show max 1 (ceilDiv b.length c.chunkSize) ≤ b.length + 1
      have : ceilDiv b.length c.chunkSize ≤ b.length + 1 := by
        apply Nat.le_of_not_lt
        intro hlt
        have := (lt_ceilDiv h0).1 hlt
        have h2 : (b.length + 1) * 1 ≤ (b.length + 1) * c.chunkSize := Nat.mul_le_mul_left _ h0
        omega
      omega
  have h1 := key c.metadata
  have h2 := key c.data
  show max (partCount c.chunkSize c.metadata) (partCount c.chunkSize c.data) ≤ _ + _
  omega

/-- `len()` in terms of the part lengths. -/
theorem len_eq (c : PayloadChunks) : c.len =
    max (lenPart c.chunkSize ((c.metadata.map List.length).getD 0))
      (lenPart c.chunkSize ((c.data.map List.length).getD 0)) := rfl

/-- A part of at most 2^24 bytes, not present-but-empty. -/
theorem lenPart_partCount {size : Nat} (h0 : 0 < size) {part : Option Bytes} (hn : NotEmpty part)
    (hl : (part.getD []).length ≤ 2 ^ 24) :
    lenPart size ((part.map List.length).getD 0) = partCount size part := by
  cases part with
  | none => exact lenPart_zero size
  | some b =>
    show lenPart size b.length = max 1 (ceilDiv b.length size)
    rw [lenPart_exact (a := b.length) hl h0]
    have : 0 < b.length := by
      rcases b with _ | ⟨x, b⟩
      · exact absurd rfl hn
      · exact Nat.succ_pos _
    have := ceilDiv_pos h0 this
    omega

theorem takePart_notEmpty {size : Nat} {part : Option Bytes} (hn : NotEmpty part) :
    NotEmpty (takePart size part).2 := by
  cases part with
  | none => exact hn
  | some b =>
    rw [takePart_some]
    split
    · rename_i h
      intro e
      have e' : b.drop size = [] := Option.some.inj e
      have := congrArg List.length e'
      rw [List.length_drop, List.length_nil] at this
      omega
    · intro e; cases e

theorem takePart_len {size : Nat} {part : Option Bytes} :
    ((takePart size part).2.getD []).length ≤ (part.getD []).length := by
  cases part with
  | none => exact Nat.le_refl _
  | some b =>
    rw [takePart_some]
    split
    · show (b.drop size).length ≤ b.length
      rw [List.length_drop]; omega
    · exact Nat.zero_le _

theorem next_state (c : PayloadChunks) :
    c.next.2 = ⟨c.chunkSize, (takePart c.chunkSize c.metadata).2,
      (takePart c.chunkSize c.data).2⟩ := by
  rcases c with ⟨s, m, d⟩
  unfold PayloadChunks.next
  split
  · rename_i e
    rw [Bool.and_eq_true, Option.isNone_iff_eq_none, Option.isNone_iff_eq_none] at e
    obtain ⟨rfl, rfl⟩ := e
    rfl
  · rfl

theorem len_afterNext {c : PayloadChunks} (h0 : 0 < c.chunkSize) (n : Nat)
    (hm : NotEmpty c.metadata) (hd : NotEmpty c.data)
    (hm' : (c.metadata.getD []).length ≤ 2 ^ 24) (hd' : (c.data.getD []).length ≤ 2 ^ 24) :
    (afterNext n c).len = chunkCount c.chunkSize c.rest - n := by
  have inv : ∀ n (c : PayloadChunks), NotEmpty c.metadata → NotEmpty c.data →
      (c.metadata.getD []).length ≤ 2 ^ 24 → (c.data.getD []).length ≤ 2 ^ 24 →
      NotEmpty (afterNext n c).metadata ∧ NotEmpty (afterNext n c).data ∧
      ((afterNext n c).metadata.getD []).length ≤ 2 ^ 24 ∧
      ((afterNext n c).data.getD []).length ≤ 2 ^ 24 := by
    intro n
    induction n with
    | zero => exact fun c a b d e => ⟨a, b, d, e⟩
    | succ n ih =>
      intro c a b d e
      apply ih c.next.2 <;> rw [next_state]
      · exact takePart_notEmpty a
      · exact takePart_notEmpty b
      · exact Nat.le_trans takePart_len d
      · exact Nat.le_trans takePart_len e
  obtain ⟨a, b, d, e⟩ := inv n c hm hd hm' hd'
  obtain ⟨i1, i2, -⟩ := afterNext_spec h0 n
  rw [len_eq, i1, lenPart_partCount h0 a d, lenPart_partCount h0 b e, ← i2]
  rfl

theorem afterNext_length {c : PayloadChunks} (n : Nat) {k : Nat}
    (hm : (c.metadata.getD []).length ≤ k) (hd : (c.data.getD []).length ≤ k) :
    ((afterNext n c).metadata.getD []).length ≤ k ∧ ((afterNext n c).data.getD []).length ≤ k := by
  induction n generalizing c with
  | zero => exact ⟨hm, hd⟩
  | succ n ih =>
    apply ih (c := c.next.2) <;> rw [next_state]
    · exact Nat.le_trans takePart_len hm
    · exact Nat.le_trans takePart_len hd

/-- `len()` on one part against the true number of chunks. -/
theorem lenPart_near {size : Nat} (h0 : 0 < size) {o : Option Bytes}
    (h : (o.getD []).length ≤ 2 ^ 63) :
    lenPart size (o.getD []).length ≤ partCount size o + partCount size o / 2 ^ 22 + 1 ∧
    partCount size o ≤ lenPart size (o.getD []).length + partCount size o / 2 ^ 22 + 1 := by
  cases o with
  | none =>
    show lenPart size 0 ≤ _ ∧ _
    rw [lenPart_zero]
    exact ⟨Nat.zero_le _, Nat.zero_le _⟩
  | some b =>
    obtain ⟨h1, h2⟩ := lenPart_bound h h0
    show lenPart size b.length ≤ max 1 (ceilDiv b.length size) + max 1 (ceilDiv b.length size) / 2 ^ 22 + 1 ∧
      max 1 (ceilDiv b.length size) ≤ lenPart size b.length + max 1 (ceilDiv b.length size) / 2 ^ 22 + 1
    have h1 : lenPart size b.length ≤
      ceilDiv b.length size + ceilDiv b.length size / 2 ^ 22 + 1 := h1
    have h2 : ceilDiv b.length size ≤
      lenPart size b.length + ceilDiv b.length size / 2 ^ 22 + 1 := h2
    by_cases hc : ceilDiv b.length size = 0
    · rw [hc] at h1 ⊢
      exact ⟨by omega, by omega⟩
    · rw [Nat.max_eq_right (by omega)]
      exact ⟨h1, h2⟩

/-- `len()` is off by at most one, plus one for every 2^22 chunks. -/
theorem len_near {c : PayloadChunks} (h0 : 0 < c.chunkSize) (n : Nat)
    (hm : (c.metadata.getD []).length ≤ 2 ^ 63) (hd : (c.data.getD []).length ≤ 2 ^ 63) :
    (afterNext n c).len ≤ (chunkCount c.chunkSize c.rest - n) +
      (chunkCount c.chunkSize c.rest - n) / 2 ^ 22 + 1 ∧
    chunkCount c.chunkSize c.rest - n ≤ (afterNext n c).len +
      (chunkCount c.chunkSize c.rest - n) / 2 ^ 22 + 1 := by
  obtain ⟨d, e⟩ := afterNext_length n hm hd
  obtain ⟨i1, i2, -⟩ := afterNext_spec h0 n
  obtain ⟨a1, a2⟩ := lenPart_near h0 d
  obtain ⟨b1, b2⟩ := lenPart_near h0 e
  have el : ∀ o : Option Bytes, (o.map List.length).getD 0 = (o.getD []).length := by
    intro o; cases o <;> rfl
  rw [len_eq, i1, ← i2]
  show max _ _ ≤ max (partCount c.chunkSize (afterNext n c).metadata)
      (partCount c.chunkSize (afterNext n c).data) + max (partCount c.chunkSize (afterNext n c).metadata)
      (partCount c.chunkSize (afterNext n c).data) / 2 ^ 22 + 1 ∧
    max (partCount c.chunkSize (afterNext n c).metadata)
      (partCount c.chunkSize (afterNext n c).data) ≤ max _ _ +
      max (partCount c.chunkSize (afterNext n c).metadata)
      (partCount c.chunkSize (afterNext n c).data) / 2 ^ 22 + 1
  generalize partCount c.chunkSize (afterNext n c).metadata = x at *
  generalize partCount c.chunkSize (afterNext n c).data = y at *
  rw [el, el]
  generalize lenPart c.chunkSize _ = u at *
  generalize lenPart c.chunkSize _ = v at *
  have h1 : x / 2 ^ 22 ≤ max x y / 2 ^ 22 := Nat.div_le_div_right (Nat.le_max_left ..)
  have h2 : y / 2 ^ 22 ≤ max x y / 2 ^ 22 := Nat.div_le_div_right (Nat.le_max_right ..)
  have h3 := Nat.le_max_left x y
  have h4 := Nat.le_max_right x y
  have h5 := Nat.le_max_left u v
  have h6 := Nat.le_max_right u v
  exact ⟨Nat.max_le.2 ⟨by omega, by omega⟩, by
    rcases Nat.le_total x y with h | h
    · rw [Nat.max_eq_right h] at *; omega
    · rw [Nat.max_eq_left h] at *; omega⟩

end Binate
