import Verif.Lemmas.Capacity
import Verif.Spec.Capacity
import Verif.Props.Encode

/-! # Properties of the buffer of `to_bytes`

C93. -/

namespace Binate

open Spec

private theorem written_eq {α : Type} [Encode α] {v : α} {pieces : List Bytes}
    (h : pieces.flatten.length ≤ Encode.len v) :
    Encode.written v pieces = { BytesMut.withCapacity (Encode.len v) with bytes := pieces.flatten } := by
  have hf := foldl_fits pieces (BytesMut.withCapacity (Encode.len v))
    (show 0 + pieces.flatten.length ≤ Encode.len v by omega)
  exact hf.trans (by simp [BytesMut.withCapacity])

private theorem frame_excess {f : Frame} {b : Bytes} (h : Encode.toBytes f = .ok b) :
    Encode.len f = b.length + lenExcess f := by
  have := encode_length (f := f) h
  have e : Encode.len f = f.len := rfl
  omega

private theorem grows_of {α : Type} [Encode α]
    (h : ∀ (v : α) b, Encode.toBytes v = .ok b → b.length ≤ Encode.len v) : NeverGrows α := by
  intro v pieces hp
  rw [written_eq (h v _ hp)]
  exact ⟨rfl, rfl, rfl⟩

private theorem frame_grows : NeverGrows Frame := grows_of fun f b h => by
  have := frame_excess h
  omega

private theorem like_grows {α : Type} [Encode α] {frame : α → Frame} (h : LikeFrame frame) :
    NeverGrows α := grows_of fun v b hb => by
  obtain ⟨h1, h2, -⟩ := h v
  have := frame_excess (f := frame v) (show Encode.toBytes (frame v) = .ok b from h1.symm.trans hb)
  have e : Encode.len (frame v) = (frame v).len := rfl
  omega

private theorem writes_grows {α : Type} [Encode α] {bytes : α → Bytes} (h : ∀ v, Writes v (bytes v)) :
    NeverGrows α := grows_of fun v b hb => by
  obtain ⟨h1, h2, -⟩ := h v
  rw [h1, Outcome.ok.injEq] at hb
  rw [h2, hb]

/-- **C93**, in whatever pieces the encoder writes a value, its buffer never has to grow, for each of
the eighteen types that implement `Encode`. -/
theorem C93_never_grows :
    NeverGrows Frame ∧ NeverGrows SetupFrame ∧ NeverGrows ErrorFrame ∧ NeverGrows LeaseFrame ∧
    NeverGrows KeepaliveFrame ∧ NeverGrows RequestResponseFrame ∧ NeverGrows RequestFnfFrame ∧
    NeverGrows RequestStreamFrame ∧ NeverGrows RequestChannelFrame ∧ NeverGrows RequestNFrame ∧
    NeverGrows CancelFrame ∧ NeverGrows PayloadFrame ∧ NeverGrows MetadataPushFrame ∧
    NeverGrows ResumeFrame ∧ NeverGrows ResumeOkFrame ∧ NeverGrows U24 ∧ NeverGrows Version ∧
    NeverGrows Payload := by
  obtain ⟨h1, h2, h3, h4, h5, h6, h7, h8, h9, h10, h11, h12, h13, h14⟩ := C97_frame_types
  exact ⟨frame_grows, like_grows h1, like_grows h2, like_grows h3, like_grows h4, like_grows h5,
    like_grows h6, like_grows h7, like_grows h8, like_grows h9, like_grows h10, like_grows h11,
    like_grows h12, like_grows h13, like_grows h14, writes_grows C97_u24,
    writes_grows fun v => (C97_version v v).1, writes_grows C97_payload⟩

/-- The claim that `to_bytes` allocates exactly once: the buffer is filled to its capacity. -/
def C93_statement : Prop := ∀ f : Frame, Fills f

private theorem fills_of {α : Type} [Encode α] {v : α}
    (h : ∀ b, Encode.toBytes v = .ok b → Encode.len v = b.length) : Fills v := by
  intro pieces hp
  have hl := h _ hp
  rw [written_eq (by omega)]
  refine ⟨?_, hl.symm⟩
  show (if Encode.len v = 0 then 0 else 1) +
    (if 0 < pieces.flatten.length ∧ pieces.flatten.length < Encode.len v then 1 else 0) = _
  rw [if_neg (show ¬ (0 < pieces.flatten.length ∧ pieces.flatten.length < Encode.len v) by omega)]
  rw [Nat.add_zero]
  by_cases e : pieces.flatten = []
  · rw [if_pos e, if_pos (by rw [hl, e]; rfl)]
  · rw [if_neg e, if_neg fun h0 => e (List.eq_nil_of_length_eq_zero (by omega))]

private theorem leaves_of {α : Type} [Encode α] {v : α}
    (h : ∀ b, Encode.toBytes v = .ok b → Encode.len v = b.length + 2 ∧ 0 < b.length) : LeavesTwo v := by
  intro pieces hp
  obtain ⟨h1, h2⟩ := h _ hp
  rw [written_eq (by omega)]
  refine ⟨?_, h1.symm⟩
  show (if Encode.len v = 0 then 0 else 1) +
    (if 0 < pieces.flatten.length ∧ pieces.flatten.length < Encode.len v then 1 else 0) = 2
  rw [if_pos (show 0 < pieces.flatten.length ∧ pieces.flatten.length < Encode.len v by omega)]
  rw [if_neg (by omega)]

/-- **C93**, what holds, exactly: one allocation, filled completely, unless the frame is a SETUP frame
without a resume token; then 2 bytes of room are left and `freeze` allocates a second time. -/
theorem C93_allocations_partial (f : Frame) :
    ((∀ v, f = .setup v → v.resumeToken ≠ none) → Fills f) ∧
    (∀ v, f = .setup v → v.resumeToken = none → LeavesTwo f) := by
  constructor
  · intro hn
    have h0 : lenExcess f = 0 := by
      cases f <;> first | rfl | skip
      exact if_neg (hn _ rfl)
    exact fills_of fun b hb => by
      have := frame_excess hb
      omega
  · rintro v rfl hn
    have h2 : lenExcess (.setup v) = 2 := if_pos hn
    refine leaves_of fun b hb => ?_
    have := frame_excess hb
    have hp := (C79_not_empty (.setup v)).2
    have e : Encode.len (Frame.setup v) = (Frame.setup v).len := rfl
    omega

/-- **C93** is false: a SETUP frame without a resume token leaves room. -/
theorem C93_exact_false : ¬ C93_statement := by
  intro h
  obtain ⟨b, hb⟩ : ∃ b, Encode.toBytes (Frame.setup SetupFrameBuilder.default) = .ok b :=
    ⟨_, (rfl : (Frame.setup SetupFrameBuilder.default).toBytes = .ok _)⟩
  have hb' : Encode.toBytes (Frame.setup SetupFrameBuilder.default) = .ok [b].flatten := by
    simpa using hb
  have h1 := (h _ [b] hb').2
  have h2 := ((C93_allocations_partial _).2 _ rfl rfl [b] hb').2
  omega

private theorem like_fills {α : Type} [Encode α] {frame : α → Frame} (h : LikeFrame frame)
    (hs : ∀ v w, frame v ≠ .setup w) (v : α) : Fills v := fills_of fun b hb => by
  obtain ⟨h1, h2, -⟩ := h v
  have := frame_excess (f := frame v) (show Encode.toBytes (frame v) = .ok b from h1.symm.trans hb)
  have e : Encode.len (frame v) = (frame v).len := rfl
  have h0 : lenExcess (frame v) = 0 := by
    cases e' : frame v <;> first | rfl | skip
    exact absurd e' (hs v _)
  omega

private theorem writes_fills {α : Type} [Encode α] {bytes : α → Bytes} (h : ∀ v, Writes v (bytes v))
    (v : α) : Fills v := fills_of fun b hb => by
  obtain ⟨h1, h2, -⟩ := h v
  rw [h1, Outcome.ok.injEq] at hb
  rw [h2, hb]

/-- **C93**, the other types that implement `Encode`: SETUP frames are again the only exception. -/
theorem C93_types_partial :
    (∀ v : SetupFrame, (v.resumeToken ≠ none → Fills v) ∧ (v.resumeToken = none → LeavesTwo v)) ∧
    (∀ v : ErrorFrame, Fills v) ∧ (∀ v : LeaseFrame, Fills v) ∧ (∀ v : KeepaliveFrame, Fills v) ∧
    (∀ v : RequestResponseFrame, Fills v) ∧ (∀ v : RequestFnfFrame, Fills v) ∧
    (∀ v : RequestStreamFrame, Fills v) ∧ (∀ v : RequestChannelFrame, Fills v) ∧
    (∀ v : RequestNFrame, Fills v) ∧ (∀ v : CancelFrame, Fills v) ∧ (∀ v : PayloadFrame, Fills v) ∧
    (∀ v : MetadataPushFrame, Fills v) ∧ (∀ v : ResumeFrame, Fills v) ∧
    (∀ v : ResumeOkFrame, Fills v) ∧ (∀ v : U24, Fills v) ∧ (∀ v : Version, Fills v) ∧
    (∀ v : Payload, Fills v) := by
  obtain ⟨h1, h2, h3, h4, h5, h6, h7, h8, h9, h10, h11, h12, h13, h14⟩ := C97_frame_types
  refine ⟨fun v => ⟨fun ht => ?_, fun ht => ?_⟩, like_fills h2 (by intro _ _ e; cases e),
    like_fills h3 (by intro _ _ e; cases e), like_fills h4 (by intro _ _ e; cases e),
    like_fills h5 (by intro _ _ e; cases e), like_fills h6 (by intro _ _ e; cases e),
    like_fills h7 (by intro _ _ e; cases e), like_fills h8 (by intro _ _ e; cases e),
    like_fills h9 (by intro _ _ e; cases e), like_fills h10 (by intro _ _ e; cases e),
    like_fills h11 (by intro _ _ e; cases e), like_fills h12 (by intro _ _ e; cases e),
    like_fills h13 (by intro _ _ e; cases e), like_fills h14 (by intro _ _ e; cases e),
    writes_fills C97_u24, writes_fills fun v => (C97_version v v).1, writes_fills C97_payload⟩
  · have := (C93_allocations_partial (.setup v)).1 fun w e => by cases e; exact ht
    exact this
  · have := (C93_allocations_partial (.setup v)).2 v rfl ht
    exact this

/-- **C93**, a smaller buffer would have had to grow, for every frame but those. -/
theorem C93_least {f : Frame} {pieces : List Bytes} (h : f.toBytes = .ok pieces.flatten)
    (hn : ∀ v, f = .setup v → v.resumeToken ≠ none) {n : Nat} (hlt : n < f.len) :
    (BytesMut.withCapacity n).allocated <
      (pieces.foldl BytesMut.extendFromSlice (BytesMut.withCapacity n)).allocated := by
  have hl := encode_length (f := f) h
  have h0 : lenExcess f = 0 := by
    cases f <;> first | rfl | skip
    exact if_neg (hn _ rfl)
  exact foldl_grows pieces _ (Nat.zero_le _) (by
    show n < 0 + pieces.flatten.length
    omega)

example : (Frame.cancel ⟨1#32⟩).toBytes =
    .ok [[0#8, 0#8, 0#8, 1#8], [0x24#8, 0#8]].flatten ∧
    (Encode.written (Frame.cancel ⟨1#32⟩) [[0#8, 0#8, 0#8, 1#8], [0x24#8, 0#8]]).allocations = 1 := by
  decide

/-- An empty payload takes no memory. -/
example : Encode.toBytes (⟨some [], none⟩ : Payload) = .ok [[]].flatten ∧
    (Encode.written (⟨some [], none⟩ : Payload) [[]]).allocations = 0 := by decide

end Binate
