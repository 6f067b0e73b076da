import Verif.Lemmas.Usize
import Verif.Props.BufList
import Verif.Props.Sizes

/-! # Lengths in machine arithmetic

C101. Every other theorem counts bytes with natural numbers. On the machine they are counted with
words of 64 bits. -/

namespace Binate

open Spec

/-- **C101.** `len` of a frame is the size it announces, if that is below 2^64. Otherwise it panics in
a build with overflow checks, and is the remainder by 2^64 in one without. -/
theorem C101_len (dbg : Bool) (f : Frame) :
    f.lenUsize dbg = machine dbg (announced f) ∧ f.len = announced f :=
  ⟨frame_lenUsize dbg f, len_announced f⟩

/-- **C101.** `len` of a payload is exact, for parts as large as an allocation can be. -/
theorem C101_payload (dbg : Bool) (p : Payload) (hm : partSize p.metadata < 2 ^ 63)
    (hd : partSize p.data < 2 ^ 63) : p.lenUsize dbg = .ok (paySize p) := by
  rw [payload_lenUsize]
  refine machine_ok ?_
  unfold paySize
  omega

/-- **C101.** What can be encoded to fewer than 2^64 - 2 bytes has an exact `len`; every frame that was
decoded from a buffer of that size, in particular. -/
theorem C101_len_exact (dbg : Bool) (f : Frame) :
    (∀ b, f.toBytes = .ok b → b.length < 2 ^ 64 - 2 → f.lenUsize dbg = .ok f.len) ∧
    (∀ b rest, (Frame.decode : Dec Bytes Frame) b = .ok f rest → b.length < 2 ^ 64 - 2 →
      f.lenUsize dbg = .ok f.len) := by
  have key : overhead f + userBytes f < 2 ^ 64 - 2 → f.lenUsize dbg = .ok f.len := by
    intro h
    rw [len_announced, frame_lenUsize]
    refine machine_ok ?_
    cases f <;> simp only [announced] <;> first | omega | skip
    simp only [overhead] at h
    split at h <;> omega
  constructor
  · intro b h hb
    have := (C82_size f b []).1 h
    exact key (by omega)
  · intro b rest h hb
    have := (C82_size f b rest).2 h
    exact key (by omega)

/-- **C101.** Two parts of one byte less than 2^63 are too much for a frame: `len` of the
REQUEST_FNF frame panics if checked and is 7 if not. -/
theorem C101_len_overflow (sid : U32) (fl : Flags) (m d : Bytes) (hm : m.length = 2 ^ 63 - 1)
    (hd : d.length = 2 ^ 63 - 1) :
    let f : Frame := .requestFnf ⟨sid, fl, ⟨some m, some d⟩⟩
    f.lenUsize true = .panic "attempt to add with overflow" ∧ f.lenUsize false = .ok 7 := by
  have e : announced (.requestFnf ⟨sid, fl, ⟨some m, some d⟩⟩) = 2 ^ 64 + 7 := by
    simp only [announced, overhead, userBytes, paySize, partSize, Option.getD, hm, hd]
    decide
  constructor <;> (rw [frame_lenUsize, e]; rfl)

variable {T : Type} [Buf T] [LawfulBuf T]

/-- **C101.** `remaining` of a `BufList` is the number of bytes in all its buffers, if that is below
2^64. Otherwise it panics or wraps. -/
theorem C101_remaining (dbg : Bool) (l : BufList T) (h : ∀ b ∈ l.bufs, Valid b) :
    l.remainingUsize dbg = machine dbg (concat l.bufs).length := by
  unfold BufList.remainingUsize
  rw [sumUsize_eq dbg _ (by decide), sum_remaining h, Nat.zero_add]

/-- **C101.** Fewer than 2^64 bytes in a list of non-empty buffers are decoded like the same bytes in
one piece, with or without overflow checks. -/
theorem C101_decode (dbg : Bool) (l : BufList T) (h : ∀ b ∈ l.bufs, Valid b ∧ bytes b ≠ [])
    (hn : (concat l.bufs).length < 2 ^ 64) :
    SameDecode (l.decodeUsize dbg) ((Frame.decode : Dec Bytes Frame) (concat l.bufs)) := by
  unfold BufList.decodeUsize
  rw [C101_remaining dbg l fun b hb => (h b hb).1, machine_ok hn]
  exact C07_any_buffer (b := (⟨l⟩ : WrapList T)) ⟨h, hn⟩

/-- **C101.** With 2^64 bytes or more, decoding panics if checked. -/
theorem C101_decode_checked (l : BufList T) (h : ∀ b ∈ l.bufs, Valid b)
    (hn : 2 ^ 64 ≤ (concat l.bufs).length) :
    l.decodeUsize true = .panic "attempt to add with overflow" := by
  unfold BufList.decodeUsize
  rw [C101_remaining true l h]
  unfold machine
  rw [if_neg (by omega)]
  rfl

/-- **C101.** If not checked, decoding calls the list incomplete whenever the remainder of its size by
2^64 is below 6. -/
theorem C101_decode_unchecked (l : BufList T) (h : ∀ b ∈ l.bufs, Valid b)
    (hn : (concat l.bufs).length % 2 ^ 64 < 6) :
    l.decodeUsize false = .err .inComplete ⟨l⟩ := by
  unfold BufList.decodeUsize
  rw [C101_remaining false l h]
  have hr : BufCore.remaining (⟨l⟩ : WrapList T) < 6 := by
    rw [wrap_remaining (l := ⟨l⟩) h]
    exact hn
  have hd : Frame.decode (⟨l⟩ : WrapList T) = .err .inComplete ⟨l⟩ := by
    show (if BufCore.remaining (⟨l⟩ : WrapList T) < 6 then Dec.fail .inComplete else _) _ = _
    rw [if_pos hr]
    rfl
  unfold machine
  by_cases hs : (concat l.bufs).length < 2 ^ 64
  · rw [if_pos hs]
    exact hd
  · rw [if_neg hs]
    exact hd

/-- **C101.** A complete CANCEL frame, followed by two buffers of less than 2^63 bytes, can be such a list: what can be decoded in one piece cannot be decoded in this list. -/
theorem C101_decode_false : ¬ ∀ (dbg : Bool) (segs : List Bytes),
    (∀ s ∈ segs, s ≠ [] ∧ s.length < 2 ^ 63) →
    SameDecode ((⟨segs⟩ : BufList Bytes).decodeUsize dbg)
      ((Frame.decode : Dec Bytes Frame) (concat segs)) := by
  intro hall
  obtain ⟨x, hx⟩ : ∃ x : Bytes, x.length = 2 ^ 63 - 1 := ⟨_, List.length_replicate (a := 0#8)⟩
  obtain ⟨y, hy⟩ : ∃ y : Bytes, y.length = 2 ^ 63 - 5 := ⟨_, List.length_replicate (a := 0#8)⟩
  have hc : concat [[0, 0, 0, 1, 0x24, 0], x, y] = [0, 0, 0, 1, 0x24, 0] ++ (x ++ y) := by
    rw [concat_cons, concat_cons, concat_cons]
    show _ ++ (x ++ (y ++ [])) = _
    rw [List.append_nil]
    rfl
  have hlen : (concat [[0, 0, 0, 1, 0x24, 0], x, y]).length % 2 ^ 64 < 6 := by
    rw [hc, List.length_append, List.length_append, hx, hy]
    decide
  have h1 := C101_decode_unchecked (⟨[[0, 0, 0, 1, 0x24, 0], x, y]⟩ : BufList Bytes)
    (fun _ _ => trivial) hlen
  have h2 : (Frame.decode : Dec Bytes Frame) ([0, 0, 0, 1, 0x24, 0] ++ (x ++ y)) =
      .ok (.cancel ⟨1⟩) (x ++ y) :=
    decode_iff.2 ⟨_, _, _, _, rfl, ⟨[0, 0, 0, 1], [0x24, 0], rfl, rfl, rfl, rfl, rfl, rfl⟩,
      .cancel rfl⟩
  have h := hall false [[0, 0, 0, 1, 0x24, 0], x, y] (by
    intro s hs
    have hpos : ∀ {z : Bytes} {n : Nat}, z.length = n → 0 < n → z ≠ [] := by
      rintro z n rfl h0 rfl
      exact absurd h0 (Nat.lt_irrefl 0)
    simp only [List.mem_cons, List.not_mem_nil, or_false] at hs
    rcases hs with rfl | rfl | rfl
    · exact ⟨by decide, by decide⟩
    · exact ⟨hpos hx (by decide), by omega⟩
    · exact ⟨hpos hy (by decide), by omega⟩)
  rw [h1, hc, h2] at h
  exact h

/-- Two buffers, within the bound. -/
example : (⟨[[0, 0, 0, 1], [0x24, 0]]⟩ : BufList Bytes).decodeUsize false =
    .ok (.cancel ⟨1⟩) ⟨⟨[]⟩⟩ ∧
    (⟨[[0, 0, 0, 1], [0x24, 0]]⟩ : BufList Bytes).decodeUsize true = .ok (.cancel ⟨1⟩) ⟨⟨[]⟩⟩ := by
  decide +kernel

/-- There are parts of the size in question. -/
example : (List.replicate (2 ^ 63 - 1) (0 : U8)).length = 2 ^ 63 - 1 := List.length_replicate

end Binate
