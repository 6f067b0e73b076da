import Verif.Lemmas.BufList

/-! # Lemmas on the pieces that a `BufList` holds -/

namespace Binate

open Spec

theorem leftOver_add (segs : List Bytes) (a b : Nat) :
    leftOver (leftOver segs a) b = leftOver segs (a + b) := by
  induction segs generalizing a with
  | nil => rfl
  | cons s rest ih =>
    simp only [leftOver]
    by_cases h : s.length ≤ a
    · rw [if_pos h, if_pos (by omega), ih, show a - s.length + b = a + b - s.length by omega]
    · rw [if_neg h]
      simp only [leftOver, List.length_drop]
      by_cases h' : s.length ≤ a + b
      · rw [if_pos h', if_pos (by omega), show b - (s.length - a) = a + b - s.length by omega]
      · rw [if_neg h', if_neg (by omega), List.drop_drop]

theorem leftOver_zero {segs : List Bytes} (h : ∀ s ∈ segs, s ≠ []) : leftOver segs 0 = segs := by
  cases segs with
  | nil => rfl
  | cons s rest =>
    have := List.length_pos_iff.2 (h s (List.mem_cons_self ..))
    rw [leftOver, if_neg (by omega), List.drop_zero]

theorem leftOver_append {segs : List Bytes} {n : Nat} (h : n ≤ segs.flatten.length) {t : Bytes}
    (ht : t ≠ []) : leftOver (segs ++ [t]) n = leftOver segs n ++ [t] := by
  induction segs generalizing n with
  | nil =>
    obtain rfl : n = 0 := Nat.le_zero.1 h
    exact leftOver_zero fun s hs => by cases List.mem_singleton.1 hs; exact ht
  | cons s rest ih =>
    rw [List.flatten_cons, List.length_append] at h
    rw [List.cons_append, leftOver, leftOver]
    split
    · exact ih (by omega)
    · rfl

theorem leftOver_flatten (segs : List Bytes) (n : Nat) :
    (leftOver segs n).flatten = segs.flatten.drop n := by
  induction segs generalizing n with
  | nil => simp [leftOver]
  | cons s rest ih =>
    rw [leftOver, List.flatten_cons]
    split
    · next h => rw [ih, List.drop_append, List.drop_eq_nil_of_le h, List.nil_append]
    · next h => rw [List.flatten_cons, List.drop_append_of_le_length (by omega)]

variable {T : Type} [Buf T] [LawfulBuf T]

theorem concat_pieces (bufs : List T) : concat bufs = (bufs.map bytes).flatten := by
  rw [concat, List.flatMap_def]

theorem pieces_ne {bufs : List T} (h : Segments bufs) : ∀ s ∈ bufs.map bytes, s ≠ [] := by
  intro s hs
  obtain ⟨b, hb, rfl⟩ := List.mem_map.1 hs
  exact (h b hb).2

theorem advanceLoop_pieces {bufs bufs' : List T} (h : Segments bufs) {n : Nat}
    (hn : n ≤ (concat bufs).length) (he : BufList.advanceLoop bufs n = .ok bufs') :
    bufs'.map bytes = leftOver (bufs.map bytes) n := by
  induction bufs generalizing n with
  | nil =>
    obtain rfl : n = 0 := Nat.le_zero.1 hn
    cases he
    rfl
  | cons b bs ih =>
    cases n with
    | zero =>
      cases he
      exact (leftOver_zero (pieces_ne h)).symm
    | succ n =>
      obtain ⟨hb, hne⟩ := h b (List.mem_cons_self ..)
      have hbs : Segments bs := fun b' hb' => h b' (List.mem_cons_of_mem _ hb')
      have hr := LawfulCore.remaining_eq hb
      rw [concat_cons, List.length_append] at hn
      rw [BufList.advanceLoop] at he
      rw [List.map_cons, leftOver]
      split at he
      · next hlt =>
        obtain ⟨b', e1, e2, e3⟩ := LawfulCore.advance_ok hb (n := n + 1) (by omega)
        rw [e1] at he
        cases he
        rw [if_neg (by omega), List.map_cons, e3]
      · next hle =>
        obtain ⟨b', e1, e2, e3⟩ := LawfulCore.advance_ok hb (n := BufCore.remaining b) (by omega)
        rw [e1] at he
        rw [if_pos (by omega), ← hr]
        exact ih hbs (by omega) he

theorem advance_pieces {l l' : BufList T} (h : Segments l.bufs) {n : Nat}
    (hn : n ≤ (concat l.bufs).length) (he : BufCore.advance l n = .ok l') :
    l'.bufs.map bytes = leftOver (l.bufs.map bytes) n := by
  obtain ⟨bufs, e1, e2⟩ := Outcome.bind_eq_ok.1 (show BufList.advance l n = .ok l' from he)
  cases e2
  exact advanceLoop_pieces h hn e1

theorem putTake_pieces {fuel limit : Nat} {l l' : BufList T} (h : Segments l.bufs)
    (hn : limit ≤ (concat l.bufs).length) {acc out : Bytes}
    (he : BufCore.putTake fuel limit l acc = .ok (out, l')) :
    l'.bufs.map bytes = leftOver (l.bufs.map bytes) limit := by
  induction fuel generalizing limit l acc with
  | zero =>
    have hr : BufCore.remaining l = (concat l.bufs).length :=
      buflist_remaining fun b hb => (h b hb).1
    unfold BufCore.putTake at he
    split at he
    · next h0 =>
      cases he
      obtain rfl : limit = 0 := by omega
      exact (leftOver_zero (pieces_ne h)).symm
    · cases he
  | succ fuel ih =>
    have hr : BufCore.remaining l = (concat l.bufs).length :=
      buflist_remaining fun b hb => (h b hb).1
    unfold BufCore.putTake at he
    split at he
    · next h0 =>
      cases he
      obtain rfl : limit = 0 := by omega
      exact (leftOver_zero (pieces_ne h)).symm
    · simp only at he
      generalize hc : ((BufCore.chunk l).take limit) = s at he
      have hs : s.length = min limit (BufCore.chunk l).length := by rw [← hc, List.length_take]
      split at he
      · cases he
      · have hl : s.length ≤ (concat l.bufs).length := by omega
        obtain ⟨l1, e1, e2, e3⟩ := LawfulCore.advance_ok (β := BufList T) (b := l) h hl
        rw [e1] at he
        have e3 : concat l1.bufs = (concat l.bufs).drop s.length := e3
        rw [ih (l := l1) e2 (by rw [e3, List.length_drop]; omega) he, advance_pieces h hl e1,
          leftOver_add, show s.length + (limit - s.length) = limit by omega]

theorem copy_pieces {l l' : BufList T} (h : Segments l.bufs) {n : Nat}
    (hn : n ≤ (concat l.bufs).length) {out : Bytes} (he : Buf.copyToBytes l n = .ok (out, l')) :
    l'.bufs.map bytes = leftOver (l.bufs.map bytes) n := by
  have slow : l.copySlow n = .ok (out, l') → l'.bufs.map bytes = leftOver (l.bufs.map bytes) n := by
    intro he
    obtain ⟨-, -, e2⟩ := Outcome.bind_eq_ok.1 he
    exact putTake_pieces h hn e2
  change l.copyToBytes n = _ at he
  rcases l with ⟨_ | ⟨b, bs⟩⟩
  · exact slow he
  · obtain ⟨hb, hne⟩ := h b (List.mem_cons_self ..)
    have hr := LawfulCore.remaining_eq hb
    unfold BufList.copyToBytes at he
    simp only at he
    split at he
    · next h1 =>
      obtain ⟨b', e1, e2, e3⟩ := LawfulBuf.copy_ok hb (n := n) (by omega)
      rw [e1] at he
      cases he
      show bs.map bytes = leftOver (bytes b :: bs.map bytes) n
      rw [leftOver, if_pos (by omega), show n - (bytes b).length = 0 by omega, leftOver_zero]
      exact pieces_ne fun x hx => h x (List.mem_cons_of_mem _ hx)
    · split at he
      · obtain ⟨b', e1, e2, e3⟩ := LawfulBuf.copy_ok hb (n := n) (by omega)
        rw [e1] at he
        cases he
        show bytes b' :: bs.map bytes = leftOver (bytes b :: bs.map bytes) n
        rw [leftOver, if_neg (by omega), e3]
      · exact slow he

theorem run_pieces {dbg : Bool} {ops : List (Op T)}
    (hp : ∀ b, Op.push b ∈ ops → Valid b ∧ bytes b ≠ []) {l l' : BufList T} {out out' : List Bytes}
    (h : Segments l.bufs) {segs : List Bytes} {n : Nat} (hn : n ≤ segs.flatten.length)
    (hs : l.bufs.map bytes = leftOver segs n) (he : runList dbg ops l out = .ok (out', l')) :
    l'.bufs.map bytes = leftOver (segs ++ pushed ops) (n + taken ops) ∧
      n + taken ops ≤ (segs ++ pushed ops).flatten.length := by
  induction ops generalizing l out segs n with
  | nil =>
    cases he
    rw [pushed, List.append_nil]
    exact ⟨hs, hn⟩
  | cons op ops ih =>
    have hp' := fun b hb => hp b (List.mem_cons_of_mem _ hb)
    have hc : (concat l.bufs).length = segs.flatten.length - n := by
      rw [concat_pieces, hs, leftOver_flatten, List.length_drop]
    cases op with
    | push b =>
      obtain ⟨hb, hne⟩ := hp b (List.mem_cons_self ..)
      have hr : 0 < BufCore.remaining b := by
        rw [LawfulCore.remaining_eq hb]
        exact List.length_pos_iff.2 hne
      have e : l.push dbg b = .ok ⟨l.bufs ++ [b]⟩ := by
        unfold BufList.push
        rw [decide_eq_true hr, Outcome.debugAssert_true]
        rfl
      rw [runList, e] at he
      have := ih hp' (l := ⟨l.bufs ++ [b]⟩) (segs := segs ++ [bytes b]) (n := n) (by
          intro x hx
          rcases List.mem_append.1 hx with hx | hx
          · exact h x hx
          · cases List.mem_singleton.1 hx; exact ⟨hb, hne⟩)
        (by rw [List.flatten_append, List.length_append]; omega)
        (by
          show (l.bufs ++ [b]).map bytes = _
          rw [List.map_append, hs, leftOver_append hn hne]
          rfl) he
      rwa [List.append_assoc] at this
    | advance k =>
      rw [runList] at he
      by_cases hk : k ≤ (concat l.bufs).length
      · obtain ⟨l1, e1, e2, -⟩ := LawfulCore.advance_ok (β := BufList T) (b := l) h hk
        rw [e1] at he
        have := ih hp' e2 (segs := segs) (n := n + k) (by omega)
          (by rw [advance_pieces h hk e1, hs, leftOver_add]) he
        rwa [Nat.add_assoc] at this
      · obtain ⟨m, e⟩ := LawfulCore.advance_over (β := BufList T) (b := l) h (Nat.not_le.1 hk)
        rw [e] at he
        cases he
    | copy k =>
      rw [runList] at he
      by_cases hk : k ≤ (concat l.bufs).length
      · obtain ⟨l1, e1, e2, -⟩ := LawfulBuf.copy_ok (β := BufList T) (b := l) h hk
        rw [e1] at he
        have := ih hp' e2 (segs := segs) (n := n + k) (by omega)
          (by rw [copy_pieces h hk e1, hs, leftOver_add]) he
        rwa [Nat.add_assoc] at this
      · obtain ⟨m, e⟩ := LawfulBuf.copy_over (β := BufList T) (b := l) h (Nat.not_le.1 hk)
        rw [e] at he
        cases he

end Binate
