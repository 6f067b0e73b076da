import Verif.Lemmas.Reassemble
import Verif.Lemmas.Pieces

/-! # Properties of `BufList`

C07, C35–C38. `T` is any buffer type that keeps the contract of `bytes::Buf` (`LawfulBuf`), such as
`Bytes`, or again a `BufList`; `bytes b` is what `b` holds. -/

namespace Binate

open Spec

variable {T : Type} [Buf T] [LawfulBuf T]

/-! ## C07 -/

/-- **C07.** Decoding from any buffer that keeps the contract gives the same frame, error or panic,
and leaves the same bytes, as decoding from its bytes in one piece. -/
theorem C07_any_buffer {b : T} (hb : Valid b) :
    SameDecode ((Frame.decode : Dec T Frame) b) ((Frame.decode : Dec Bytes Frame) (bytes b)) := by
  have := sim_decode b hb
  revert this
  generalize (Frame.decode : Dec T Frame) b = r
  generalize (Frame.decode : Dec Bytes Frame) (bytes b) = r'
  intro this
  cases r <;> cases r' <;> first
    | exact ⟨this.1, this.2.2⟩
    | exact this

/-- **C07** for a list of non-empty byte strings, compared with their concatenation. -/
theorem C07_segmentation {segs : List Bytes} (h : ∀ s ∈ segs, s ≠ []) :
    SameDecode ((Frame.decode : Dec (BufList Bytes) Frame) ⟨segs⟩)
      ((Frame.decode : Dec Bytes Frame) segs.flatten) := by
  have := C07_any_buffer (b := (⟨segs⟩ : BufList Bytes)) (fun b hb => ⟨trivial, h b hb⟩)
  have e : bytes (⟨segs⟩ : BufList Bytes) = segs.flatten := by
    show segs.flatMap (fun b => b) = _
    rw [List.flatMap_id']
  rwa [e] at this

/-- **C07**: two ways to cut the same bytes decode to the same frame. -/
theorem C07_two_cuts {segs segs' : List Bytes} (h : ∀ s ∈ segs, s ≠ []) (h' : ∀ s ∈ segs', s ≠ [])
    (e : segs.flatten = segs'.flatten) {f : Frame} {l : BufList Bytes}
    (hd : (Frame.decode : Dec (BufList Bytes) Frame) ⟨segs⟩ = .ok f l) :
    ∃ l', (Frame.decode : Dec (BufList Bytes) Frame) ⟨segs'⟩ = .ok f l' ∧
      l.bufs.flatten = l'.bufs.flatten := by
  have a := C07_segmentation h
  have a' := C07_segmentation h'
  rw [hd, e] at a
  have flat : ∀ l : BufList Bytes, bytes l = l.bufs.flatten := fun l => List.flatMap_id'
  cases hc : (Frame.decode : Dec Bytes Frame) segs'.flatten with
  | ok f' s =>
    rw [hc] at a a'
    cases hd' : (Frame.decode : Dec (BufList Bytes) Frame) ⟨segs'⟩ with
    | ok f'' l' =>
      rw [hd'] at a'
      exact ⟨l', by rw [a'.1, ← a.1], by rw [← flat, ← flat, a.2, ← a'.2]⟩
    | err => rw [hd'] at a'; exact a'.elim
    | panic => rw [hd'] at a'; exact a'.elim
    | diverge => rw [hd'] at a'; exact a'.elim
  | err => rw [hc] at a; exact a.elim
  | panic => rw [hc] at a; exact a.elim
  | diverge => rw [hc] at a; exact a.elim

example : (Frame.decode : Dec (BufList Bytes) Frame) ⟨[[0, 0], [0], [1, 0x24], [0]]⟩ =
    .ok (.cancel ⟨1#32⟩) ⟨[]⟩ := by decide

/-! ## C35 -/

/-- **C35.** Run any sequence of operations on a new list, pushing only buffers with bytes in them.
If no operation reads past the end, every copy returns what it would return on one byte sequence;
afterwards `remaining` is the number of bytes left, `chunk` is a non-empty beginning of them
unless nothing is left, and no buffer in the list is empty. Otherwise the run panics. -/
theorem C35_one_sequence (dbg : Bool) (ops : List (Op T))
    (hp : ∀ b, Op.push b ∈ ops → Valid b ∧ bytes b ≠ []) :
    match runBytes ops [] [] with
    | some (out, s) => ∃ l, runList dbg ops BufList.new [] = .ok (out, l) ∧
        BufCore.remaining l = s.length ∧ BufCore.chunk l <+: s ∧ (s ≠ [] → BufCore.chunk l ≠ []) ∧
        l.bufs.flatMap bytes = s ∧ ∀ b ∈ l.bufs, bytes b ≠ []
    | none => ∃ m, runList dbg ops (BufList.new : BufList T) [] = .panic m := by
  have key : ∀ (ops : List (Op T)), (∀ b, Op.push b ∈ ops → Valid b ∧ bytes b ≠ []) →
      ∀ (l : BufList T) (out : List Bytes), Segments l.bufs →
      match runBytes ops (concat l.bufs) out with
      | some (out', s) => ∃ l', runList dbg ops l out = .ok (out', l') ∧ Segments l'.bufs ∧
          concat l'.bufs = s
      | none => ∃ m, runList dbg ops l out = .panic m := by
    intro ops
    induction ops with
    | nil => exact fun _ l out h => ⟨l, rfl, h, rfl⟩
    | cons op ops ih =>
      intro hp l out h
      have ih := ih fun b hb => hp b (List.mem_cons_of_mem _ hb)
      cases op with
      | push b =>
        obtain ⟨hb, hne⟩ := hp b (List.mem_cons_self ..)
        have e : l.push dbg b = .ok ⟨l.bufs ++ [b]⟩ := by
          have hr : 0 < BufCore.remaining b := by
            rw [LawfulCore.remaining_eq hb]
            exact List.length_pos_iff.2 hne
          unfold BufList.push
          rw [decide_eq_true hr, Outcome.debugAssert_true]
          rfl
        have ec : concat (l.bufs ++ [b]) = concat l.bufs ++ bytes b := by simp [concat]
        have := ih ⟨l.bufs ++ [b]⟩ out (by
          intro x hx
          rcases List.mem_append.1 hx with hx | hx
          · exact h x hx
          · cases List.mem_singleton.1 hx; exact ⟨hb, hne⟩)
        rw [ec] at this
        rw [runBytes, runList, e]
        exact this
      | advance n =>
        rw [runBytes, runList]
        by_cases hn : n ≤ (concat l.bufs).length
        · rw [if_pos hn]
          obtain ⟨l', e1, e2, e3⟩ := LawfulCore.advance_ok (β := BufList T) (b := l) h hn
          have := ih l' out e2
          rw [show concat l'.bufs = (concat l.bufs).drop n from e3] at this
          rw [e1]
          exact this
        · rw [if_neg hn]
          obtain ⟨m, e⟩ := LawfulCore.advance_over (β := BufList T) (b := l) h (Nat.not_le.1 hn)
          exact ⟨m, by rw [e]⟩
      | copy n =>
        rw [runBytes, runList]
        by_cases hn : n ≤ (concat l.bufs).length
        · rw [if_pos hn]
          obtain ⟨l', e1, e2, e3⟩ := LawfulBuf.copy_ok (β := BufList T) (b := l) h hn
          have := ih l' (out ++ [(concat l.bufs).take n]) e2
          rw [show concat l'.bufs = (concat l.bufs).drop n from e3] at this
          rw [e1]
          exact this
        · rw [if_neg hn]
          obtain ⟨m, e⟩ := LawfulBuf.copy_over (β := BufList T) (b := l) h (Nat.not_le.1 hn)
          exact ⟨m, by rw [e]⟩
  have := key ops hp BufList.new [] (fun b hb => by cases hb)
  change (match runBytes ops [] [] with
      | some (out', s) => ∃ l', runList dbg ops BufList.new [] = .ok (out', l') ∧
          Segments l'.bufs ∧ concat l'.bufs = s
      | none => ∃ m, runList dbg ops (BufList.new : BufList T) [] = .panic m) at this
  revert this
  cases runBytes ops ([] : Bytes) [] with
  | none => exact id
  | some r =>
    obtain ⟨out, s⟩ := r
    rintro ⟨l', e1, e2, rfl⟩
    exact ⟨l', e1, LawfulCore.remaining_eq (β := BufList T) e2,
      LawfulCore.chunk_prefix (β := BufList T) e2, LawfulCore.chunk_ne (β := BufList T) e2, rfl,
      fun b hb => (e2 b hb).2⟩

/-- **C35**: what the list holds after such a run are the pieces pushed, less the bytes taken from the
front. A buffer is released as soon as its last byte is taken; `len` counts the buffers that are
left. -/
theorem C35_pieces {dbg : Bool} {ops : List (Op T)}
    (hp : ∀ b, Op.push b ∈ ops → Valid b ∧ bytes b ≠ []) {out : List Bytes} {l : BufList T}
    (h : runList dbg ops BufList.new [] = .ok (out, l)) :
    l.bufs.map bytes = leftOver (pushed ops) (taken ops) ∧
      l.len = (leftOver (pushed ops) (taken ops)).length := by
  have := (run_pieces hp (l := BufList.new) (segs := []) (n := 0) (fun b hb => by cases hb)
    (Nat.le_refl 0) rfl h).1
  rw [List.nil_append, Nat.zero_add] at this
  exact ⟨this, by rw [← this, List.length_map]; rfl⟩

example : leftOver [[1, 2], [3], [4, 5]] 4 = [[5#8]] ∧ leftOver [[1, 2], [3#8]] 2 = [[3]] ∧
    ∃ out l, runList true [.push [1, 2], .push [3#8], .advance 1, .push [4, 5], .copy 3]
      (BufList.new : BufList Bytes) [] = .ok (out, l) ∧ l.len = 1 := ⟨by decide, by decide, _, _, rfl, rfl⟩

/-- **C35**: pushing an empty buffer panics in a debug build. -/
theorem C35_push_empty {b : T} (hb : Valid b) (h : bytes b = []) (l : BufList T) :
    l.push true b = .panic "assertion failed: buf.has_remaining()" := by
  have hr : BufCore.remaining b = 0 := by rw [LawfulCore.remaining_eq hb, h]; rfl
  unfold BufList.push
  rw [hr]
  rfl

example : runList true [.push [1, 2], .push [3#8], .copy 1, .advance 1, .copy 1]
    (BufList.new : BufList Bytes) [] = .ok ([[1], [3]], ⟨[]⟩) := by decide

/-! ## C36 -/

/-- **C36.** On a list without empty buffers, `copy_to_bytes(n)` and `advance(n)` panic exactly
when `n` exceeds `remaining()`, and terminate otherwise. -/
theorem C36_overrun {l : BufList T} (h : ∀ b ∈ l.bufs, Valid b ∧ bytes b ≠ []) (n : Nat) :
    ((∃ m, Buf.copyToBytes l n = .panic m) ↔ BufCore.remaining l < n) ∧
    ((∃ m, BufCore.advance l n = .panic m) ↔ BufCore.remaining l < n) ∧
    Buf.copyToBytes l n ≠ .diverge ∧ BufCore.advance l n ≠ .diverge := by
  have hr : BufCore.remaining l = (concat l.bufs).length :=
    buflist_remaining fun b hb => (h b hb).1
  rw [hr]
  by_cases hn : n ≤ (concat l.bufs).length
  · obtain ⟨l1, e1, -⟩ := LawfulBuf.copy_ok (β := BufList T) (b := l) h hn
    obtain ⟨l2, e2, -⟩ := LawfulCore.advance_ok (β := BufList T) (b := l) h hn
    rw [e1, e2]
    exact ⟨⟨fun ⟨m, hm⟩ => (nomatch hm), fun hl => absurd hl (Nat.not_lt.2 hn)⟩,
      ⟨fun ⟨m, hm⟩ => (nomatch hm), fun hl => absurd hl (Nat.not_lt.2 hn)⟩, nofun, nofun⟩
  · have hn := Nat.not_le.1 hn
    obtain ⟨m1, e1⟩ := LawfulBuf.copy_over (β := BufList T) (b := l) h hn
    obtain ⟨m2, e2⟩ := LawfulCore.advance_over (β := BufList T) (b := l) h hn
    rw [e1, e2]
    exact ⟨⟨fun _ => hn, fun _ => ⟨_, rfl⟩⟩, ⟨fun _ => hn, fun _ => ⟨_, rfl⟩⟩, nofun, nofun⟩

/-- **C36**, lists that may hold empty buffers (possible in release builds): both still panic
exactly on overruns, `advance` still always terminates, but `copy_to_bytes(n)` loops for ever
exactly when it would have to pass an empty buffer. -/
theorem C36_empty_buffers {l : BufList T} (h : ∀ b ∈ l.bufs, Valid b) (n : Nat) :
    ((∃ m, Buf.copyToBytes l n = .panic m) ↔ BufCore.remaining l < n) ∧
    ((∃ m, BufCore.advance l n = .panic m) ↔ BufCore.remaining l < n) ∧
    BufCore.advance l n ≠ .diverge ∧
    (Buf.copyToBytes l n = .diverge ↔ n ≤ BufCore.remaining l ∧ EmptyBefore l.bufs n) := by
  have hr : BufCore.remaining l = (concat l.bufs).length := buflist_remaining h
  rw [hr]
  have ea : BufCore.advance l n = (BufList.advanceLoop l.bufs n >>= fun bufs => .ok ⟨bufs⟩) := rfl
  have ec : Buf.copyToBytes l n = l.copyToBytes n := rfl
  by_cases hn : n ≤ (concat l.bufs).length
  · obtain ⟨bs, e2, -⟩ := advanceLoop_valid h hn
    rw [ea, e2, ec]
    have nl := Nat.not_lt.2 hn
    rcases copyToBytes_cases h hn with ⟨e, e1⟩ | ⟨e, l', e1, -⟩
    · rw [e1]
      exact ⟨⟨fun ⟨m, hm⟩ => (nomatch hm), fun hl => absurd hl nl⟩,
        ⟨fun ⟨m, hm⟩ => (nomatch hm), fun hl => absurd hl nl⟩, nofun,
        ⟨fun _ => ⟨hn, e⟩, fun _ => rfl⟩⟩
    · rw [e1]
      exact ⟨⟨fun ⟨m, hm⟩ => (nomatch hm), fun hl => absurd hl nl⟩,
        ⟨fun ⟨m, hm⟩ => (nomatch hm), fun hl => absurd hl nl⟩, nofun,
        ⟨nofun, fun he => absurd he.2 e⟩⟩
  · have hn := Nat.not_le.1 hn
    rw [ea, advanceLoop_over h hn, ec, copyToBytes_over h hn]
    exact ⟨⟨fun _ => hn, fun _ => ⟨_, rfl⟩⟩, ⟨fun _ => hn, fun _ => ⟨_, rfl⟩⟩, nofun,
      ⟨nofun, fun he => absurd he.1 (Nat.not_le.2 hn)⟩⟩

/-- The loop: one empty buffer in front of one byte. -/
example : Buf.copyToBytes (⟨[[], [1]]⟩ : BufList Bytes) 1 = .diverge := by decide

/-! ## C37 -/

/-- **C37.** On a list of byte strings, `chunks_vectored` with `n` slots stores the first `n`
non-empty buffers (all of them if there are fewer), in order. -/
theorem C37_leading (l : BufList Bytes) (n : Nat) :
    Buf.chunksVectored l n = .ok ((l.bufs.filter fun b => !b.isEmpty).take n) := by
  have loop : ∀ (bufs acc : List Bytes), acc.length < n →
      BufList.vectoredLoop n bufs acc =
        .ok (acc ++ (bufs.filter fun b => !b.isEmpty).take (n - acc.length)) := by
    intro bufs
    induction bufs with
    | nil => intro acc _; simp [BufList.vectoredLoop]
    | cons b bs ih =>
      intro acc ha
      rw [BufList.vectoredLoop, if_neg (by omega)]
      have hc : (Buf.chunksVectored b (n - acc.length) : Outcome (List Bytes)) =
          if n - acc.length = 0 then .ok [] else if 0 < b.length then .ok [b] else .ok [] := rfl
      rw [hc, if_neg (by omega)]
      cases b with
      | nil =>
        have : ¬ (0 < ([] : Bytes).length) := Nat.lt_irrefl _
        rw [if_neg this, Outcome.ok_bind, List.append_nil, if_neg (by omega), ih acc ha]
        rfl
      | cons x xs =>
        have : 0 < (x :: xs).length := Nat.succ_pos _
        rw [if_pos this, Outcome.ok_bind,
          List.filter_cons_of_pos (p := fun b : Bytes => !b.isEmpty) rfl]
        obtain ⟨k, hk⟩ : ∃ k, n - acc.length = k + 1 := ⟨n - acc.length - 1, by omega⟩
        rw [hk, List.take_succ_cons]
        by_cases he : (acc ++ [x :: xs]).length = n
        · rw [if_pos he]
          rw [List.length_append, List.length_singleton] at he
          have : k = 0 := by omega
          rw [this, List.take_zero]
        · rw [if_neg he]
          rw [List.length_append, List.length_singleton] at he
          rw [ih _ (by rw [List.length_append, List.length_singleton]; omega),
            List.append_assoc, List.length_append, List.length_singleton]
          have : n - (acc.length + 1) = k := by omega
          rw [this]
          rfl
  show (if n = 0 then Outcome.ok [] else BufList.vectoredLoop n l.bufs []) = _
  rcases Nat.eq_zero_or_pos n with rfl | h0
  · rfl
  · rw [if_neg (by omega), loop _ [] h0]
    rfl

/-- **C37** for any list of valid buffers whose own `chunks_vectored` exposes everything unless it runs
out of slots: at most `n` slots, filled with consecutive pieces from
the front; everything is exposed unless all slots are used. -/
theorem C37_prefix [LawfulVectored T] {l : BufList T} (h : ∀ b ∈ l.bufs, Valid b) (n : Nat) :
    ∃ vs, Buf.chunksVectored l n = .ok vs ∧ vs.length ≤ n ∧
      vs.flatten <+: l.bufs.flatMap bytes ∧
      (vs.length < n → vs.flatten = l.bufs.flatMap bytes) := by
  show ∃ vs, (if n = 0 then Outcome.ok [] else BufList.vectoredLoop n l.bufs []) = .ok vs ∧ _
  rcases Nat.eq_zero_or_pos n with rfl | h0
  · exact ⟨[], rfl, Nat.le_refl _, List.nil_prefix, fun h => absurd h (Nat.lt_irrefl _)⟩
  · rw [if_neg (by omega)]
    obtain ⟨vs, e1, e2, e3, e4⟩ := vectoredLoop_ok h (acc := []) h0
    exact ⟨vs, e1, e2, e3, e4⟩

example : Buf.chunksVectored (⟨[[1], [2, 3], [4]]⟩ : BufList Bytes) 2 = .ok [[1], [2, 3]] := by decide

/-! ## C38 -/

/-- **C38.** If every buffer decodes, the result is the concatenation of the metadata and of the
data of the request and payload frames, empty results being absent. -/
theorem C38_all_decode {l : BufList T} (hv : ∀ b ∈ l.bufs, Valid b) {fs : List Frame}
    (hf : l.bufs.map (fun b => frameOf (bytes b)) = fs.map some) :
    l.tryInto = .ok (.ok (joined fs)) := by
  have := reassembleLoop_prefix hv hf [] [] []
  rw [List.append_nil] at this
  exact tryInto_of_loop this

/-- **C38**: otherwise the first buffer that does not decode decides: its error is returned, or
its panic (frame type 0x3F) goes through. -/
theorem C38_first_failure {l : BufList T} (hv : ∀ b ∈ l.bufs, Valid b) {pre post : List T} {b : T}
    {fs : List Frame} (hl : l.bufs = pre ++ b :: post)
    (hf : pre.map (fun b => frameOf (bytes b)) = fs.map some) :
    (∀ e rest, (Frame.decode : Dec Bytes Frame) (bytes b) = .err e rest →
      l.tryInto = .ok (.error e)) ∧
    (∀ m, (Frame.decode : Dec Bytes Frame) (bytes b) = .panic m → l.tryInto = .panic m) := by
  have hvb : Valid b := hv b (by rw [hl]; simp)
  have hvp : ∀ x ∈ pre, Valid x := fun x hx => hv x (by rw [hl]; simp [hx])
  have key := reassembleLoop_prefix hvp hf (b :: post) [] []
  unfold BufList.tryInto
  rw [hl, key, BufList.reassembleLoop]
  refine ⟨fun e rest he => ?_, fun m hm => ?_⟩
  · obtain ⟨s, hs⟩ := sim_err hvb he
    rw [hs]
    rfl
  · rw [sim_panic hvb hm]
    rfl

/-- **C38**: it yields a payload exactly when every buffer decodes, and it always terminates. -/
theorem C38_ok_iff {l : BufList T} (hv : ∀ b ∈ l.bufs, Valid b) :
    ((∃ p, l.tryInto = .ok (.ok p)) ↔ ∀ b ∈ l.bufs, ∃ f, frameOf (bytes b) = some f) ∧
    l.tryInto ≠ .diverge := by
  rcases first_failure l.bufs with ⟨fs, hfs⟩ | ⟨pre, b, post, fs, e1, e2, e3⟩
  · rw [C38_all_decode hv hfs]
    refine ⟨⟨fun _ b hb => ?_, fun _ => ⟨_, rfl⟩⟩, nofun⟩
    have : frameOf (bytes b) ∈ l.bufs.map (fun b => frameOf (bytes b)) :=
      List.mem_map.2 ⟨b, hb, rfl⟩
    rw [hfs] at this
    obtain ⟨f, -, hf⟩ := List.mem_map.1 this
    exact ⟨f, hf.symm⟩
  · have hfail : ¬ ∀ b ∈ l.bufs, ∃ f, frameOf (bytes b) = some f := by
      intro h
      obtain ⟨f, hf⟩ := h b (by rw [e1]; simp)
      rw [e3] at hf
      cases hf
    obtain ⟨herr, hpan⟩ := C38_first_failure hv e1 e2
    have hvb : Valid b := hv b (by rw [e1]; simp)
    have ag := sim_decode b hvb
    cases hd : (Frame.decode : Dec Bytes Frame) (bytes b) with
    | ok f rest => rw [frameOf, hd] at e3; cases e3
    | err e rest =>
      rw [herr e rest hd]
      exact ⟨⟨fun ⟨p, hp⟩ => (nomatch hp), fun h => absurd h hfail⟩, nofun⟩
    | panic m =>
      rw [hpan m hd]
      exact ⟨⟨fun ⟨p, hp⟩ => (nomatch hp), fun h => absurd h hfail⟩, nofun⟩
    | diverge =>
      rw [hd] at ag
      cases hx : (Frame.decode : Dec T Frame) b <;> rw [hx] at ag <;> exact ag.elim

example : (⟨[[0, 0, 0, 1, 0x14, 0x40, 0, 0, 1, 7, 8], [0, 0, 0, 1, 0x24, 0],
      [0, 0, 0, 1, 0x14, 0, 0, 0, 1, 9]]⟩ : BufList Bytes).tryInto =
    .ok (.ok ⟨some [7, 9], some [8]⟩) := by rfl

end Binate
