import Verif.Lemmas.Flat
import Verif.Spec.Buf

/-! # `BufList` fulfils the contract of `Buf` -/

namespace Binate

open Spec

/-! ## Generic facts -/

section
variable {β : Type} [BufCore β] [LawfulCore β]

theorem chunk_eq {b : β} (h : Valid b) :
    BufCore.chunk b = (bytes b).take (BufCore.chunk b).length :=
  List.prefix_iff_eq_take.1 (LawfulCore.chunk_prefix h)

theorem chunk_len {b : β} (h : Valid b) : (BufCore.chunk b).length ≤ (bytes b).length :=
  (LawfulCore.chunk_prefix h).length_le

theorem chunk_pos {b : β} (h : Valid b) (hne : bytes b ≠ []) : 0 < (BufCore.chunk b).length :=
  List.length_pos_iff.2 (LawfulCore.chunk_ne h hne)

theorem chunk_take {b : β} (h : Valid b) {n : Nat} (hn : n ≤ (BufCore.chunk b).length) :
    (BufCore.chunk b).take n = (bytes b).take n := by
  have e := chunk_eq h
  rw [e, List.take_take, Nat.min_eq_left hn]

theorem ne_nil_of_lt {b : Bytes} {n : Nat} (h : n < b.length) : b ≠ [] := by
  rintro rfl
  cases h

theorem copyLoop_ok {need fuel : Nat} (hf : need ≤ fuel) {b : β} (hb : Valid b)
    (hn : need ≤ (bytes b).length) (acc : Bytes) :
    ∃ b', BufCore.copyLoop fuel need b acc = .ok (acc ++ (bytes b).take need, b') ∧ Valid b' ∧
      bytes b' = (bytes b).drop need := by
  induction fuel generalizing need b acc with
  | zero =>
    obtain rfl : need = 0 := by omega
    exact ⟨b, by simp [BufCore.copyLoop], hb, rfl⟩
  | succ fuel ih =>
    cases need with
    | zero => exact ⟨b, by simp [BufCore.copyLoop], hb, rfl⟩
    | succ need =>
      have hp := chunk_pos hb (ne_nil_of_lt hn)
      rw [BufCore.copyLoop]
      generalize hc : min (BufCore.chunk b).length (need + 1) = c
      have h1 : c ≤ need + 1 := by omega
      have h2 : c ≤ (BufCore.chunk b).length := by omega
      have h3 : c ≠ 0 := by omega
      obtain ⟨b', e1, e2, e3⟩ := LawfulCore.advance_ok hb (n := c) (by omega)
      simp only [if_neg h3, e1, Outcome.ok_bind]
      obtain ⟨b'', f1, f2, f3⟩ := ih (need := need + 1 - c) (by omega) e2
        (by rw [e3, List.length_drop]; omega) (acc ++ (BufCore.chunk b).take c)
      refine ⟨b'', f1.trans ?_, f2, ?_⟩
      · rw [chunk_take hb h2, e3, List.append_assoc, ← List.take_add, Nat.add_sub_of_le h1]
      · rw [f3, e3, List.drop_drop, Nat.add_sub_of_le h1]

theorem copyToSlice_ok {b : β} (hb : Valid b) {n : Nat} (h : n ≤ (bytes b).length) :
    ∃ b', BufCore.copyToSlice n b = .ok ((bytes b).take n, b') ∧ Valid b' ∧
      bytes b' = (bytes b).drop n := by
  have : decide (n ≤ BufCore.remaining b) = true := by
    rw [LawfulCore.remaining_eq hb]; exact decide_eq_true h
  rw [BufCore.copyToSlice, this]
  obtain ⟨b', e1, e2, e3⟩ := copyLoop_ok (Nat.le_refl n) hb h []
  exact ⟨b', e1, e2, e3⟩

theorem copyToSlice_over {b : β} (hb : Valid b) {n : Nat} (h : (bytes b).length < n) :
    BufCore.copyToSlice n b = .panic "assertion failed: self.remaining() >= dst.len()" := by
  have : decide (n ≤ BufCore.remaining b) = false := by
    rw [LawfulCore.remaining_eq hb]; exact decide_eq_false (Nat.not_le.2 h)
  rw [BufCore.copyToSlice, this]
  rfl

theorem getArray_ok {b : β} (hb : Valid b) {n : Nat} (h : n ≤ (bytes b).length) :
    ∃ b', BufCore.getArray n b = .ok ((bytes b).take n, b') ∧ Valid b' ∧
      bytes b' = (bytes b).drop n := by
  rw [BufCore.getArray]
  split
  · rename_i hn
    obtain ⟨b', e1, e2, e3⟩ := LawfulCore.advance_ok hb h
    refine ⟨b', ?_, e2, e3⟩
    rw [e1, chunk_take hb hn]
    rfl
  · exact copyToSlice_ok hb h

theorem getArray_over {b : β} (hb : Valid b) {n : Nat} (h : (bytes b).length < n) :
    BufCore.getArray n b = .panic "assertion failed: self.remaining() >= dst.len()" := by
  have := chunk_len hb
  rw [BufCore.getArray, if_neg (by omega), copyToSlice_over hb h]

theorem getU8_ok {b : β} (hb : Valid b) {x : U8} {r : Bytes} (h : bytes b = x :: r) :
    ∃ b', BufCore.getU8 b = .ok (x, b') ∧ Valid b' ∧ bytes b' = r := by
  have h1 : decide (1 ≤ BufCore.remaining b) = true := by
    rw [LawfulCore.remaining_eq hb, h]; exact decide_eq_true (Nat.succ_pos _)
  obtain ⟨b', e1, e2, e3⟩ := LawfulCore.advance_ok hb (n := 1) (by rw [h]; exact Nat.succ_pos _)
  have hc : ∃ cs, BufCore.chunk b = x :: cs := by
    have hp := chunk_pos hb (by rw [h]; exact List.cons_ne_nil _ _)
    have he := LawfulCore.chunk_prefix hb
    rw [h] at he
    cases hk : BufCore.chunk b with
    | nil => rw [hk] at hp; cases hp
    | cons y ys =>
      rw [hk] at he
      exact ⟨ys, by rw [(List.cons_prefix_cons.1 he).1]⟩
  obtain ⟨cs, hc⟩ := hc
  refine ⟨b', ?_, e2, by rw [e3, h]; rfl⟩
  rw [BufCore.getU8, h1]
  simp only [Outcome.assert_true, Outcome.ok_bind, hc, e1]

theorem getU8_over {b : β} (hb : Valid b) (h : bytes b = []) :
    BufCore.getU8 b = .panic "assertion failed: self.remaining() >= 1" := by
  have h1 : decide (1 ≤ BufCore.remaining b) = false := by
    rw [LawfulCore.remaining_eq hb, h]; rfl
  rw [BufCore.getU8, h1]
  rfl

theorem putTake_ok {limit fuel : Nat} (hf : limit ≤ fuel) {b : β} (hb : Valid b)
    (hn : limit ≤ (bytes b).length) (acc : Bytes) :
    ∃ b', BufCore.putTake fuel limit b acc = .ok (acc ++ (bytes b).take limit, b') ∧ Valid b' ∧
      bytes b' = (bytes b).drop limit := by
  induction fuel generalizing limit b acc with
  | zero =>
    obtain rfl : limit = 0 := by omega
    refine ⟨b, ?_, hb, rfl⟩
    unfold BufCore.putTake
    simp
  | succ fuel ih =>
    have hr := LawfulCore.remaining_eq hb
    unfold BufCore.putTake
    by_cases h0 : limit = 0
    · subst h0
      exact ⟨b, by simp, hb, rfl⟩
    · have hp := chunk_pos hb (ne_nil_of_lt (n := 0) (by omega))
      rw [if_neg (by omega)]
      generalize hc : ((BufCore.chunk b).take limit) = s
      have hs : s.length = min limit (BufCore.chunk b).length := by rw [← hc, List.length_take]
      have h3 : s.length ≠ 0 := by omega
      obtain ⟨b', e1, e2, e3⟩ := LawfulCore.advance_ok hb (n := s.length) (by omega)
      simp only [if_neg h3, e1, Outcome.ok_bind]
      obtain ⟨b'', f1, f2, f3⟩ := ih (limit := limit - s.length) (by omega) e2
        (by rw [e3, List.length_drop]; omega) (acc ++ s)
      refine ⟨b'', f1.trans ?_, f2, ?_⟩
      · have : s = (bytes b).take s.length := by
          have := chunk_take hb (n := s.length) (by omega)
          rw [← this, ← hc]
          simp
        have hle : s.length ≤ limit := by omega
        have key : s ++ ((bytes b).drop s.length).take (limit - s.length) = (bytes b).take limit := by
          have ta := List.take_add (l := bytes b) (i := s.length) (j := limit - s.length)
          rw [Nat.add_sub_of_le hle, ← this] at ta
          exact ta.symm
        rw [e3, List.append_assoc, key]
      · rw [f3, e3, List.drop_drop, Nat.add_sub_of_le (by omega)]

end

/-! ## `Bytes` -/

instance : LawfulBuf Bytes where
  Valid _ := True
  bytes b := b
  remaining_eq _ := rfl
  chunk_prefix _ := List.prefix_refl _
  chunk_ne _ h := h
  advance_ok := fun {b n} _ h => ⟨b.drop n, flat_advance h, trivial, rfl⟩
  advance_over := fun {b n} _ h => ⟨"cannot advance past `remaining`", by
    show (Outcome.assert (decide (n ≤ b.length)) _ >>= fun _ => _) = _
    rw [decide_eq_false (Nat.not_le.2 h)]
    rfl⟩
  copy_ok := fun {b n} _ h => ⟨b.drop n, flat_copyToBytes h, trivial, rfl⟩
  copy_over := fun {b n} _ h => ⟨"range end out of bounds", by
    have h : b.length < n := h
    show (if n = b.length then Outcome.ok (b, []) else _) = _
    rw [if_neg (by omega), decide_eq_false (Nat.not_le.2 h)]
    rfl⟩

instance : LawfulVectored Bytes where
  vectored := fun {b} n _ => by
    show ∃ vs, (if n = 0 then Outcome.ok [] else if 0 < b.length then .ok [b] else .ok []) = .ok vs ∧ _
    rcases Nat.eq_zero_or_pos n with rfl | h
    · exact ⟨[], rfl, Nat.le_refl _, List.nil_prefix, fun h => absurd h (Nat.lt_irrefl _)⟩
    · rw [if_neg (by omega)]
      cases b with
      | nil => exact ⟨[], rfl, Nat.zero_le _, List.nil_prefix, fun _ => rfl⟩
      | cons x b => exact ⟨[x :: b], rfl, h, ⟨[], by simp; rfl⟩, fun _ => by simp; rfl⟩

theorem bytes_flat (b : Bytes) : bytes b = b := rfl

/-! ## `BufList` -/

section
variable {T : Type} [Buf T] [LawfulBuf T]

/-- Every buffer in the list is valid and has bytes left. -/
def Segments (bufs : List T) : Prop := ∀ b ∈ bufs, Valid b ∧ bytes b ≠ []

theorem sum_remaining {bufs : List T} (h : ∀ b ∈ bufs, Valid b) :
    (bufs.map BufCore.remaining).sum = (concat bufs).length := by
  induction bufs with
  | nil => rfl
  | cons b bs ih =>
    rw [List.map_cons, List.sum_cons, LawfulCore.remaining_eq (h b (List.mem_cons_self ..)),
      ih (fun b' hb => h b' (List.mem_cons_of_mem _ hb))]
    simp [concat]

theorem concat_cons (b : T) (bs : List T) : concat (b :: bs) = bytes b ++ concat bs := by
  simp [concat]

theorem advanceLoop_ok {bufs : List T} (h : Segments bufs) {n : Nat} (hn : n ≤ (concat bufs).length) :
    ∃ bufs', BufList.advanceLoop bufs n = .ok bufs' ∧ Segments bufs' ∧
      concat bufs' = (concat bufs).drop n := by
  induction bufs generalizing n with
  | nil =>
    obtain rfl : n = 0 := Nat.le_zero.1 hn
    exact ⟨[], rfl, h, rfl⟩
  | cons b bs ih =>
    cases n with
    | zero => exact ⟨b :: bs, rfl, h, rfl⟩
    | succ n =>
      obtain ⟨hb, hne⟩ := h b (List.mem_cons_self ..)
      have hbs : Segments bs := fun b' hb' => h b' (List.mem_cons_of_mem _ hb')
      have hr := LawfulCore.remaining_eq hb
      rw [concat_cons, List.length_append] at hn
      rw [BufList.advanceLoop]
      split
      · rename_i hlt
        obtain ⟨b', e1, e2, e3⟩ := LawfulCore.advance_ok hb (n := n + 1) (by omega)
        refine ⟨b' :: bs, by rw [e1]; rfl, ?_, ?_⟩
        · intro x hx
          rcases List.mem_cons.1 hx with rfl | hx
          · refine ⟨e2, fun hnil => ?_⟩
            have := congrArg List.length (e3.symm.trans hnil)
            rw [List.length_drop, List.length_nil] at this
            omega
          · exact hbs x hx
        · rw [concat_cons, concat_cons, e3, List.drop_append_of_le_length (by omega)]
      · rename_i hle
        obtain ⟨b', e1, e2, e3⟩ := LawfulCore.advance_ok hb (n := BufCore.remaining b) (by omega)
        obtain ⟨bufs', f1, f2, f3⟩ := ih hbs (n := n + 1 - BufCore.remaining b) (by omega)
        refine ⟨bufs', by rw [e1]; exact f1, f2, ?_⟩
        rw [f3, concat_cons, List.drop_append,
          List.drop_eq_nil_of_le (as := bytes b) (by omega), hr]
        rfl

theorem advanceLoop_over {bufs : List T} (h : ∀ b ∈ bufs, Valid b) {n : Nat}
    (hn : (concat bufs).length < n) :
    BufList.advanceLoop bufs n = .panic "Out of bounds access" := by
  induction bufs generalizing n with
  | nil =>
    cases n with
    | zero => cases hn
    | succ n => rfl
  | cons b bs ih =>
    cases n with
    | zero => cases hn
    | succ n =>
      have hb := h b (List.mem_cons_self ..)
      have hr := LawfulCore.remaining_eq hb
      rw [concat_cons, List.length_append] at hn
      rw [BufList.advanceLoop]
      rw [if_neg (by omega)]
      obtain ⟨b', e1, -⟩ := LawfulCore.advance_ok hb (n := BufCore.remaining b) (by omega)
      rw [e1]
      exact ih (fun b' hb' => h b' (List.mem_cons_of_mem _ hb')) (by omega)

theorem buflist_remaining {l : BufList T} (h : ∀ b ∈ l.bufs, Valid b) :
    BufCore.remaining l = (concat l.bufs).length := sum_remaining h

instance : LawfulCore (BufList T) where
  Valid l := Segments l.bufs
  bytes l := concat l.bufs
  remaining_eq h := buflist_remaining fun b hb => (h b hb).1
  chunk_prefix := fun {l} h => by
    rcases l with ⟨_ | ⟨b, bs⟩⟩
    · exact List.nil_prefix
    · rw [concat_cons]
      exact (LawfulCore.chunk_prefix (h b (List.mem_cons_self ..)).1).trans (List.prefix_append _ _)
  chunk_ne := fun {l} h hne => by
    rcases l with ⟨_ | ⟨b, bs⟩⟩
    · exact absurd rfl hne
    · obtain ⟨h1, h2⟩ := h b (List.mem_cons_self ..)
      exact LawfulCore.chunk_ne (β := T) (b := b) h1 h2
  advance_ok := fun {l n} h hn => by
    obtain ⟨bufs', e1, e2, e3⟩ := advanceLoop_ok h hn
    refine ⟨⟨bufs'⟩, ?_, e2, e3⟩
    show (BufList.advanceLoop l.bufs n >>= _) = _
    rw [e1]
    rfl
  advance_over := fun {l n} h hn => ⟨"Out of bounds access", by
    show (BufList.advanceLoop l.bufs n >>= _) = _
    rw [advanceLoop_over (fun b hb => (h b hb).1) hn]
    rfl⟩

theorem buflist_inv {l : BufList T} : Valid l ↔ Segments l.bufs := Iff.rfl
theorem buflist_bytes {l : BufList T} : bytes l = concat l.bufs := rfl

theorem copySlow_over {l : BufList T} (h : ∀ b ∈ l.bufs, Valid b) {n : Nat}
    (hn : (concat l.bufs).length < n) :
    l.copySlow n = .panic "`len` greater than remaining" := by
  have : decide (n ≤ l.remaining) = false := by
    rw [BufList.remaining, sum_remaining h]
    exact decide_eq_false (Nat.not_le.2 hn)
  rw [BufList.copySlow, this]
  rfl

theorem copyToBytes_over {l : BufList T} (h : ∀ b ∈ l.bufs, Valid b) {n : Nat}
    (hn : (concat l.bufs).length < n) :
    l.copyToBytes n = .panic "`len` greater than remaining" := by
  have hs := copySlow_over h hn
  rcases l with ⟨_ | ⟨b, bs⟩⟩
  · exact hs
  · have hr := LawfulCore.remaining_eq (h b (List.mem_cons_self ..))
    change (concat (b :: bs)).length < n at hn
    rw [concat_cons, List.length_append] at hn
    unfold BufList.copyToBytes
    simp only
    rw [if_neg (by omega), if_neg (by omega)]
    exact hs

theorem copyToBytes_ok {l : BufList T} (h : Segments l.bufs) {n : Nat}
    (hn : n ≤ (concat l.bufs).length) :
    ∃ l', l.copyToBytes n = .ok ((concat l.bufs).take n, l') ∧ Segments l'.bufs ∧
      concat l'.bufs = (concat l.bufs).drop n := by
  have slow : ∃ l', l.copySlow n = .ok ((concat l.bufs).take n, l') ∧ Segments l'.bufs ∧
      concat l'.bufs = (concat l.bufs).drop n := by
    have : decide (n ≤ l.remaining) = true := by
      rw [BufList.remaining, sum_remaining fun b hb => (h b hb).1]
      exact decide_eq_true hn
    rw [BufList.copySlow, this]
    obtain ⟨l', e1, e2, e3⟩ := putTake_ok (Nat.le_refl n) (b := l) h hn []
    exact ⟨l', e1, e2, e3⟩
  rcases l with ⟨_ | ⟨b, bs⟩⟩
  · exact slow
  · obtain ⟨hb, hne⟩ := h b (List.mem_cons_self ..)
    have hbs : Segments bs := fun b' hb' => h b' (List.mem_cons_of_mem _ hb')
    have hr := LawfulCore.remaining_eq hb
    unfold BufList.copyToBytes
    simp only
    split
    · rename_i he
      obtain ⟨b', e1, e2, e3⟩ := LawfulBuf.copy_ok hb (n := n) (by omega)
      refine ⟨⟨bs⟩, ?_, hbs, ?_⟩
      · rw [e1, concat_cons, List.take_append_of_le_length (by omega)]
        rfl
      · rw [concat_cons, List.drop_append_of_le_length (by omega),
          List.drop_eq_nil_of_le (by omega)]
        rfl
    · split
      · obtain ⟨b', e1, e2, e3⟩ := LawfulBuf.copy_ok hb (n := n) (by omega)
        refine ⟨⟨b' :: bs⟩, ?_, ?_, ?_⟩
        · rw [e1, concat_cons, List.take_append_of_le_length (by omega)]
          rfl
        · intro x hx
          rcases List.mem_cons.1 hx with rfl | hx
          · refine ⟨e2, fun hnil => ?_⟩
            have := congrArg List.length (e3.symm.trans hnil)
            rw [List.length_drop, List.length_nil] at this
            omega
          · exact hbs x hx
        · rw [concat_cons, concat_cons, e3, List.drop_append_of_le_length (by omega)]
      · exact slow

theorem vectoredLoop_ok [LawfulVectored T] {n : Nat} {bufs : List T} (h : ∀ b ∈ bufs, Valid b) {acc : List Bytes}
    (ha : acc.length < n) :
    ∃ vs, BufList.vectoredLoop n bufs acc = .ok (acc ++ vs) ∧ (acc ++ vs).length ≤ n ∧
      vs.flatten <+: concat bufs ∧ ((acc ++ vs).length < n → vs.flatten = concat bufs) := by
  induction bufs generalizing acc with
  | nil => exact ⟨[], by simp [BufList.vectoredLoop], by simp; omega, List.nil_prefix, fun _ => rfl⟩
  | cons b bs ih =>
    obtain ⟨vs, e1, e2, e3, e4⟩ := LawfulVectored.vectored (n - acc.length) (h b (List.mem_cons_self ..))
    rw [BufList.vectoredLoop, if_neg (by omega), e1]
    simp only [Outcome.ok_bind]
    split
    · rename_i he
      refine ⟨vs, rfl, by omega, ?_, fun hlt => absurd he (by omega)⟩
      rw [concat_cons]
      exact e3.trans (List.prefix_append _ _)
    · rename_i he
      rw [List.length_append] at he
      have e5 := e4 (by omega)
      obtain ⟨ws, f1, f2, f3, f4⟩ := ih (fun b' hb' => h b' (List.mem_cons_of_mem _ hb'))
        (acc := acc ++ vs) (by rw [List.length_append]; omega)
      refine ⟨vs ++ ws, by rw [f1, List.append_assoc], by rw [← List.append_assoc]; exact f2, ?_, ?_⟩
      · rw [List.flatten_append, concat_cons, e5]
        exact (List.prefix_append_right_inj _).2 f3
      · intro hlt
        rw [List.flatten_append, concat_cons, e5, f4 (by rw [List.append_assoc]; exact hlt)]

instance : LawfulBuf (BufList T) where
  copy_ok := fun h hn => by
    obtain ⟨l', e1, e2, e3⟩ := copyToBytes_ok h hn
    exact ⟨l', e1, e2, e3⟩
  copy_over := fun h hn => ⟨_, copyToBytes_over (fun b hb => (h b hb).1) hn⟩

instance [LawfulVectored T] : LawfulVectored (BufList T) where
  vectored := fun {l} n h => by
    show ∃ vs, (if n = 0 then Outcome.ok [] else BufList.vectoredLoop n l.bufs []) = .ok vs ∧ _
    rcases Nat.eq_zero_or_pos n with rfl | h0
    · exact ⟨[], rfl, Nat.le_refl _, List.nil_prefix, fun h => absurd h (Nat.lt_irrefl _)⟩
    · rw [if_neg (by omega)]
      obtain ⟨vs, e1, e2, e3, e4⟩ := vectoredLoop_ok (fun b hb => (h b hb).1) (acc := []) h0
      exact ⟨vs, e1, e2, e3, e4⟩

/-! ### Lists with empty buffers -/

theorem emptyBefore_zero {bufs : List T} : ¬ EmptyBefore bufs 0 := by
  rintro ⟨k, b, -, -, h⟩
  exact Nat.not_lt_zero _ h

theorem emptyBefore_front {b : T} {bs : List T} {n : Nat} (hb : bytes b = []) (hn : 0 < n) :
    EmptyBefore (b :: bs) n := ⟨0, b, rfl, hb, hn⟩

theorem emptyBefore_cons {b : T} {bs : List T} {n : Nat} (hb : bytes b ≠ []) :
    EmptyBefore (b :: bs) n ↔ EmptyBefore bs (n - (bytes b).length) := by
  constructor
  · rintro ⟨k, x, h1, h2, h3⟩
    cases k with
    | zero => cases h1; exact absurd h2 hb
    | succ k =>
      refine ⟨k, x, h1, h2, ?_⟩
      rw [List.take_succ_cons, concat_cons, List.length_append] at h3
      omega
  · rintro ⟨k, x, h1, h2, h3⟩
    refine ⟨k + 1, x, h1, h2, ?_⟩
    rw [List.take_succ_cons, concat_cons, List.length_append]
    omega

theorem advanceLoop_valid {bufs : List T} (h : ∀ b ∈ bufs, Valid b) {n : Nat}
    (hn : n ≤ (concat bufs).length) :
    ∃ bufs', BufList.advanceLoop bufs n = .ok bufs' ∧ (∀ b ∈ bufs', Valid b) ∧
      concat bufs' = (concat bufs).drop n := by
  induction bufs generalizing n with
  | nil =>
    obtain rfl : n = 0 := Nat.le_zero.1 hn
    exact ⟨[], rfl, h, rfl⟩
  | cons b bs ih =>
    cases n with
    | zero => exact ⟨b :: bs, rfl, h, rfl⟩
    | succ n =>
      have hb := h b (List.mem_cons_self ..)
      have hbs : ∀ b' ∈ bs, Valid b' := fun b' hb' => h b' (List.mem_cons_of_mem _ hb')
      have hr := LawfulCore.remaining_eq hb
      rw [concat_cons, List.length_append] at hn
      rw [BufList.advanceLoop]
      split
      · rename_i hlt
        obtain ⟨b', e1, e2, e3⟩ := LawfulCore.advance_ok hb (n := n + 1) (by omega)
        refine ⟨b' :: bs, by rw [e1]; rfl, ?_, ?_⟩
        · intro x hx
          rcases List.mem_cons.1 hx with rfl | hx
          · exact e2
          · exact hbs x hx
        · rw [concat_cons, concat_cons, e3, List.drop_append_of_le_length (by omega)]
      · rename_i hle
        obtain ⟨b', e1, e2, e3⟩ := LawfulCore.advance_ok hb (n := BufCore.remaining b) (by omega)
        obtain ⟨bufs', f1, f2, f3⟩ := ih hbs (n := n + 1 - BufCore.remaining b) (by omega)
        refine ⟨bufs', by rw [e1]; exact f1, f2, ?_⟩
        rw [f3, concat_cons, List.drop_append,
          List.drop_eq_nil_of_le (as := bytes b) (by omega), hr]
        rfl

/-- Advancing inside the front buffer, or exactly over it. -/
theorem advance_front {b : T} {bs : List T} (hb : Valid b) {n : Nat} (h0 : 0 < n)
    (hn : n ≤ (bytes b).length) :
    ∃ bufs', BufCore.advance (⟨b :: bs⟩ : BufList T) n = .ok ⟨bufs'⟩ ∧
      ((bufs' = bs ∧ n = (bytes b).length) ∨
       ∃ b', bufs' = b' :: bs ∧ Valid b' ∧ bytes b' = (bytes b).drop n ∧ n < (bytes b).length) := by
  have hr := LawfulCore.remaining_eq hb
  obtain ⟨n, rfl⟩ : ∃ k, n = k + 1 := ⟨n - 1, by omega⟩
  show ∃ bufs', (BufList.advanceLoop (b :: bs) (n + 1) >>= _) = _ ∧ _
  rw [BufList.advanceLoop]
  split
  · obtain ⟨b', e1, e2, e3⟩ := LawfulCore.advance_ok hb (n := n + 1) (by omega)
    exact ⟨b' :: bs, by rw [e1]; rfl, .inr ⟨b', rfl, e2, e3, by omega⟩⟩
  · obtain ⟨b', e1, -⟩ := LawfulCore.advance_ok hb (n := BufCore.remaining b) (by omega)
    refine ⟨bs, ?_, .inl ⟨rfl, by omega⟩⟩
    rw [e1]
    have : n + 1 - BufCore.remaining b = 0 := by omega
    simp only [Outcome.ok_bind, this]
    cases bs <;> rfl

theorem putTake_list {fuel limit : Nat} (hf : limit ≤ fuel) {bufs : List T}
    (h : ∀ b ∈ bufs, Valid b) (hn : limit ≤ (concat bufs).length) (acc : Bytes) :
    (EmptyBefore bufs limit ∧ BufCore.putTake fuel limit (⟨bufs⟩ : BufList T) acc = .diverge) ∨
    (¬ EmptyBefore bufs limit ∧ ∃ bufs', BufCore.putTake fuel limit (⟨bufs⟩ : BufList T) acc =
        .ok (acc ++ (concat bufs).take limit, ⟨bufs'⟩) ∧ (∀ b ∈ bufs', Valid b) ∧
        concat bufs' = (concat bufs).drop limit) := by
  induction fuel generalizing limit bufs acc with
  | zero =>
    obtain rfl : limit = 0 := by omega
    refine .inr ⟨emptyBefore_zero, bufs, ?_, h, rfl⟩
    unfold BufCore.putTake
    simp
  | succ fuel ih =>
    have hr : BufCore.remaining (⟨bufs⟩ : BufList T) = (concat bufs).length :=
      buflist_remaining (l := ⟨bufs⟩) h
    unfold BufCore.putTake
    by_cases h0 : limit = 0
    · subst h0
      exact .inr ⟨emptyBefore_zero, bufs, by simp, h, rfl⟩
    · rw [if_neg (by omega)]
      rcases bufs with _ | ⟨b, bs⟩
      · exact absurd (Nat.le_zero.1 hn) h0
      · have hb := h b (List.mem_cons_self ..)
        have hbs : ∀ b' ∈ bs, Valid b' := fun b' hb' => h b' (List.mem_cons_of_mem _ hb')
        have hk : BufCore.chunk (⟨b :: bs⟩ : BufList T) = BufCore.chunk b := rfl
        by_cases he : bytes b = []
        · refine .inl ⟨emptyBefore_front he (by omega), ?_⟩
          have : BufCore.chunk b = [] := by
            have := LawfulCore.chunk_prefix hb
            rw [he] at this
            exact List.prefix_nil.1 this
          simp only [hk, this, List.take_nil, List.length_nil]
          rfl
        · have hp := chunk_pos hb he
          have hcl := chunk_len hb
          generalize hs' : (BufCore.chunk (⟨b :: bs⟩ : BufList T)).take limit = s
          rw [hk] at hs'
          have hs : s.length = min limit (BufCore.chunk b).length := by rw [← hs', List.length_take]
          have hsb : s = (bytes b).take s.length := by
            have := chunk_take hb (n := s.length) (by omega)
            rw [← this, ← hs']
            simp
          have h3 : s.length ≠ 0 := by omega
          have key : s ++ ((concat (b :: bs)).drop s.length).take (limit - s.length) =
              (concat (b :: bs)).take limit := by
            have ta := List.take_add (l := concat (b :: bs)) (i := s.length) (j := limit - s.length)
            rw [Nat.add_sub_of_le (by omega)] at ta
            rw [ta]
            congr 1
            rw [concat_cons, List.take_append_of_le_length (by omega)]
            exact hsb
          have hlen : (concat (b :: bs)).length = (bytes b).length + (concat bs).length := by
            rw [concat_cons, List.length_append]
          obtain ⟨bufs', a1, a2⟩ := advance_front (bs := bs) hb (n := s.length) (by omega) (by omega)
          simp only [if_neg h3, a1, Outcome.ok_bind]
          have fin : ∀ {bufs' : List T}, (∀ x ∈ bufs', Valid x) →
              concat bufs' = (concat (b :: bs)).drop s.length →
              (EmptyBefore (b :: bs) limit ↔ EmptyBefore bufs' (limit - s.length)) →
              (EmptyBefore (b :: bs) limit ∧
                BufCore.putTake fuel (limit - s.length) (⟨bufs'⟩ : BufList T) (acc ++ s) = .diverge) ∨
              (¬ EmptyBefore (b :: bs) limit ∧ ∃ bufs'', BufCore.putTake fuel (limit - s.length)
                  (⟨bufs'⟩ : BufList T) (acc ++ s) =
                  .ok (acc ++ (concat (b :: bs)).take limit, ⟨bufs''⟩) ∧ (∀ x ∈ bufs'', Valid x) ∧
                  concat bufs'' = (concat (b :: bs)).drop limit) := by
            intro bufs' v c iff
            rw [iff]
            rcases ih (limit := limit - s.length) (by omega) v
              (by rw [c, List.length_drop]; omega) (acc ++ s) with i | ⟨i1, b3, i2, i3, i4⟩
            · exact .inl i
            · refine .inr ⟨i1, b3, ?_, i3, ?_⟩
              · rw [i2, c, List.append_assoc, key]
              · rw [i4, c, List.drop_drop, Nat.add_sub_of_le (by omega)]
          rcases a2 with ⟨rfl, a3⟩ | ⟨b', rfl, v, e, a3⟩
          · refine fin hbs ?_ ?_
            · rw [concat_cons, List.drop_append_of_le_length (by omega),
                List.drop_eq_nil_of_le (by omega)]
              rfl
            · rw [emptyBefore_cons he, a3]
          · refine fin ?_ ?_ ?_
            · intro x hx
              rcases List.mem_cons.1 hx with rfl | hx
              · exact v
              · exact hbs x hx
            · rw [concat_cons, concat_cons, e, List.drop_append_of_le_length (by omega)]
            · have he' : bytes b' ≠ [] := by
                intro hnil
                have := congrArg List.length (e.symm.trans hnil)
                rw [List.length_drop, List.length_nil] at this
                omega
              rw [emptyBefore_cons he, emptyBefore_cons he', e, List.length_drop]
              have : limit - (bytes b).length = limit - s.length - ((bytes b).length - s.length) := by
                omega
              rw [this]

theorem copyToBytes_cases {l : BufList T} (h : ∀ b ∈ l.bufs, Valid b) {n : Nat}
    (hn : n ≤ (concat l.bufs).length) :
    (EmptyBefore l.bufs n ∧ l.copyToBytes n = .diverge) ∨
    (¬ EmptyBefore l.bufs n ∧ ∃ l', l.copyToBytes n = .ok ((concat l.bufs).take n, l') ∧
      (∀ b ∈ l'.bufs, Valid b) ∧ concat l'.bufs = (concat l.bufs).drop n) := by
  have slow : (EmptyBefore l.bufs n ∧ l.copySlow n = .diverge) ∨
      (¬ EmptyBefore l.bufs n ∧ ∃ l', l.copySlow n = .ok ((concat l.bufs).take n, l') ∧
        (∀ b ∈ l'.bufs, Valid b) ∧ concat l'.bufs = (concat l.bufs).drop n) := by
    have : decide (n ≤ l.remaining) = true := by
      rw [BufList.remaining, sum_remaining h]
      exact decide_eq_true hn
    rw [BufList.copySlow, this]
    rcases putTake_list (Nat.le_refl n) h hn [] with i | ⟨i1, b3, i2, i3, i4⟩
    · exact .inl i
    · exact .inr ⟨i1, ⟨b3⟩, i2, i3, i4⟩
  rcases l with ⟨_ | ⟨b, bs⟩⟩
  · exact slow
  · have hb := h b (List.mem_cons_self ..)
    have hbs : ∀ b' ∈ bs, Valid b' := fun b' hb' => h b' (List.mem_cons_of_mem _ hb')
    have hr := LawfulCore.remaining_eq hb
    have fast : n ≤ (bytes b).length → ¬ EmptyBefore (b :: bs) n := by
      intro hle
      rcases Nat.eq_zero_or_pos n with rfl | h0
      · exact emptyBefore_zero
      · have hne : bytes b ≠ [] := ne_nil_of_lt (n := 0) (by omega)
        rw [emptyBefore_cons hne, Nat.sub_eq_zero_of_le hle]
        exact emptyBefore_zero
    unfold BufList.copyToBytes
    simp only
    split
    · rename_i he
      obtain ⟨b', e1, e2, e3⟩ := LawfulBuf.copy_ok hb (n := n) (by omega)
      refine .inr ⟨fast (by omega), ⟨bs⟩, ?_, hbs, ?_⟩
      · rw [e1, concat_cons, List.take_append_of_le_length (by omega)]
        rfl
      · rw [concat_cons, List.drop_append_of_le_length (by omega),
          List.drop_eq_nil_of_le (by omega)]
        rfl
    · split
      · obtain ⟨b', e1, e2, e3⟩ := LawfulBuf.copy_ok hb (n := n) (by omega)
        refine .inr ⟨fast (by omega), ⟨b' :: bs⟩, ?_, ?_, ?_⟩
        · rw [e1, concat_cons, List.take_append_of_le_length (by omega)]
          rfl
        · intro x hx
          rcases List.mem_cons.1 hx with rfl | hx
          · exact e2
          · exact hbs x hx
        · rw [concat_cons, concat_cons, e3, List.drop_append_of_le_length (by omega)]
      · exact slow

end

end Binate
