import Verif.Spec.Encode
import Verif.Spec.Small
import Verif.Props.Small
import Verif.Props.Text
import Verif.Props.Display
import Verif.Lemmas.Implementors

/-! # Everything that implements `Encode`

C97. -/

namespace Binate

open Spec

private theorem frame_appends : AppendsOnly Frame := by
  intro f buf
  have h : Encode.encode f buf = f.encode buf := rfl
  have h0 : Encode.toBytes f = f.encode [] := rfl
  rw [h, h0, encode_append f buf]
  cases hf : f.encode [] with
  | ok b => exact .inl ⟨b, rfl, rfl⟩
  | panic m => exact .inr ⟨m, rfl, rfl⟩
  | diverge => exact absurd hf (encode_no_diverge f)

private theorem appends_of {α : Type} [Encode α] {frame : α → Frame}
    (h : ∀ v buf, Encode.encode v buf = (frame v).encode buf) : AppendsOnly α := by
  intro v buf
  have := frame_appends (frame v) buf
  rw [h v buf]
  rwa [show Encode.toBytes v = Encode.toBytes (frame v) from h v []]

private theorem appends_total {α : Type} [Encode α] {bytes : α → Bytes}
    (h : ∀ v buf, Encode.encode v buf = .ok (buf ++ bytes v)) : AppendsOnly α := by
  intro v buf
  exact .inl ⟨bytes v, by rw [Encode.toBytes, h]; rfl, h v buf⟩

/-- **C97**, `encode` only appends, whatever is in the buffer, for each of the eighteen types. -/
theorem C97_appends :
    AppendsOnly Frame ∧ AppendsOnly SetupFrame ∧ AppendsOnly ErrorFrame ∧ AppendsOnly LeaseFrame ∧
    AppendsOnly KeepaliveFrame ∧ AppendsOnly RequestResponseFrame ∧ AppendsOnly RequestFnfFrame ∧
    AppendsOnly RequestStreamFrame ∧ AppendsOnly RequestChannelFrame ∧ AppendsOnly RequestNFrame ∧
    AppendsOnly CancelFrame ∧ AppendsOnly PayloadFrame ∧ AppendsOnly MetadataPushFrame ∧
    AppendsOnly ResumeFrame ∧ AppendsOnly ResumeOkFrame ∧ AppendsOnly U24 ∧ AppendsOnly Version ∧
    AppendsOnly Payload := by
  refine ⟨frame_appends, appends_of (frame := .setup) fun _ _ => rfl,
    appends_of (frame := .error) fun _ _ => rfl, appends_of (frame := .lease) fun _ _ => rfl,
    appends_of (frame := .keepalive) fun _ _ => rfl,
    appends_of (frame := .requestResponse) fun _ _ => rfl,
    appends_of (frame := .requestFnf) fun _ _ => rfl,
    appends_of (frame := .requestStream) fun _ _ => rfl,
    appends_of (frame := .requestChannel) fun _ _ => rfl,
    appends_of (frame := .requestN) fun _ _ => rfl, appends_of (frame := .cancel) fun _ _ => rfl,
    appends_of (frame := .payload) fun _ _ => rfl,
    appends_of (frame := .metadataPush) fun _ _ => rfl,
    appends_of (frame := .resume) fun _ _ => rfl, appends_of (frame := .resumeOk) fun _ _ => rfl,
    appends_total (bytes := fun u => be 3 u.intoUsize) fun u buf =>
      congrArg Outcome.ok ((C22_inverse u).2.2.2.2 buf),
    appends_total (bytes := fun v => be 2 v.major.toNat ++ be 2 v.minor.toNat) fun v buf =>
      congrArg Outcome.ok (version_encode_eq v buf),
    appends_total (bytes := fun p => p.metadata.getD [] ++ p.data.getD []) fun p buf =>
      congrArg Outcome.ok (payload_appends p buf)⟩

private theorem like_of {α : Type} [Encode α] {frame : α → Frame}
    (h : ∀ v buf, Encode.encode v buf = (frame v).encode buf)
    (hl : ∀ v, Encode.len v = (frame v).len) : LikeFrame frame := by
  intro v
  refine ⟨h v [], hl v, ?_⟩
  have := (C79_not_empty (frame v)).2
  rw [Encode.isEmpty, hl v]
  exact beq_false_of_ne (by omega)

/-- **C97**, a frame type writes and counts what the `Frame` made of it does, and is never empty. -/
theorem C97_frame_types :
    LikeFrame Frame.setup ∧ LikeFrame Frame.error ∧ LikeFrame Frame.lease ∧
    LikeFrame Frame.keepalive ∧ LikeFrame Frame.requestResponse ∧ LikeFrame Frame.requestFnf ∧
    LikeFrame Frame.requestStream ∧ LikeFrame Frame.requestChannel ∧ LikeFrame Frame.requestN ∧
    LikeFrame Frame.cancel ∧ LikeFrame Frame.payload ∧ LikeFrame Frame.metadataPush ∧
    LikeFrame Frame.resume ∧ LikeFrame Frame.resumeOk := by
  refine ⟨?_, ?_, ?_, ?_, ?_, ?_, ?_, ?_, ?_, ?_, ?_, ?_, ?_, ?_⟩ <;>
    exact like_of (fun _ _ => rfl) fun _ => rfl

/-- **C97**, the three bytes of a `U24` are its value, most significant byte first. -/
theorem C97_u24 (u : U24) : Writes u (be 3 u.intoUsize) := by
  refine ⟨congrArg Outcome.ok (((C22_inverse u).2.2.2.2 []).trans (List.nil_append _)), ?_, ?_⟩
  · rw [be_length]; rfl
  · exact ⟨fun h => (nomatch h), fun h => absurd (congrArg List.length h) (by rw [be_length]; decide)⟩

/-- **C97**, the four bytes of a version are its numbers, and order versions as bytes. -/
theorem C97_version (v w : Version) :
    Writes v (be 2 v.major.toNat ++ be 2 v.minor.toNat) ∧
    ∀ a b, Encode.toBytes v = .ok a → Encode.toBytes w = .ok b →
      (v.cmp w = .lt ↔ a.map BitVec.toNat < b.map BitVec.toNat) ∧ (v = w ↔ a = b) := by
  have e : ∀ v : Version, Encode.toBytes v = .ok (be 2 v.major.toNat ++ be 2 v.minor.toNat) :=
    fun v => congrArg Outcome.ok ((version_encode_eq v []).trans (List.nil_append _))
  refine ⟨⟨e v, ?_, ?_⟩, ?_⟩
  · rw [List.length_append, be_length, be_length]; rfl
  · refine ⟨fun h => (nomatch h), fun h => absurd (congrArg List.length h) ?_⟩
    rw [List.length_append, be_length, be_length]
    decide
  · intro a b ha hb
    rw [e, Outcome.ok.injEq] at ha hb
    subst ha hb
    have h1 := v.major.isLt
    have h2 := v.minor.isLt
    have h3 := w.major.isLt
    have h4 := w.minor.isLt
    constructor
    · rw [(C23_lexicographic v w).1, VersionLt]
      simp only [be, List.cons_append, List.nil_append, List.map_cons, List.map_nil,
        List.cons_lt_cons_iff, BitVec.toNat_ofNat, List.lt_irrefl, and_false, or_false]
      norm_num
      omega
    · refine ⟨fun h => by rw [h], fun h => ?_⟩
      simp only [be, List.cons_append, List.nil_append, List.cons.injEq, ← BitVec.toNat_inj,
        BitVec.toNat_ofNat, and_true] at h
      norm_num at h
      obtain ⟨vm, vn⟩ := v
      obtain ⟨wm, wn⟩ := w
      simp only [Version.mk.injEq, ← BitVec.toNat_inj]
      simp only at h h1 h2 h3 h4
      omega

/-- **C97**, a payload is written as its metadata followed by its data, with no length; it is empty iff
both parts are absent or empty. -/
theorem C97_payload (p : Payload) :
    Writes p (p.metadata.getD [] ++ p.data.getD []) := by
  refine ⟨congrArg Outcome.ok ((payload_appends p []).trans (List.nil_append _)), ?_, ?_⟩
  · rw [List.length_append]
    exact (C59_accessors p).1
  · exact (C59_accessors p).2.1.trans List.append_eq_nil_iff.symm

/-- **C97**, so a payload cannot be read back from the bytes that `Encode` writes for it, not even one
with two non-empty parts; frames put the length of the metadata in front. -/
theorem C97_payload_no_decoder :
    ¬ ∃ read : Bytes → Payload, ∀ (m d : Bytes), m ≠ [] → d ≠ [] →
      ∃ b, Encode.toBytes (⟨some m, some d⟩ : Payload) = .ok b ∧ read b = ⟨some m, some d⟩ := by
  rintro ⟨read, h⟩
  obtain ⟨b, h1, h2⟩ := h [1#8] [2#8, 3#8] (by decide) (by decide)
  obtain ⟨b', h3, h4⟩ := h [1#8, 2#8] [3#8] (by decide) (by decide)
  have e : b = b' := Outcome.ok.inj (h1.symm.trans h3)
  subst e
  exact absurd (h2.symm.trans h4) (by decide)

example : Encode.toBytes (U24.new 1#8 0x203#16) = .ok [1, 2, 3] ∧
    Encode.toBytes (Version.new 1#16 258#16) = .ok [0, 1, 1, 2] ∧
    Encode.toBytes (⟨some [7], some [8, 9]⟩ : Payload) = .ok [7, 8, 9] ∧
    Encode.isEmpty (⟨some [], none⟩ : Payload) = true := by decide

end Binate
