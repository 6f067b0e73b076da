import Verif.Lemmas.View

/-! # Accessors and equality

C104. Frames implement `PartialEq`. Two frames that a caller cannot tell apart with their accessors
should be equal. -/

namespace Binate

open Spec

/-- **C104, refuted as stated.** A REQUEST_RESPONSE frame with empty metadata and one without
metadata are built and sent. All accessors of the two frames that the peer decodes agree (in
particular, both have no metadata), but the frames are not equal: the METADATA bit, which no accessor
shows, differs. -/
theorem C104_received_false : ∃ f g b c f' g',
    (NewCall.requestResponse 1#32 false ⟨some [], none⟩).run true = .ok f ∧
    (NewCall.requestResponse 1#32 false ⟨none, none⟩).run true = .ok g ∧
    f.toBytes = .ok b ∧ g.toBytes = .ok c ∧ decode b = .ok f' [] ∧ decode c = .ok g' [] ∧
    view f' = view g' ∧ f' ≠ g' := by
  refine ⟨.requestResponse ⟨1#32, ⟨0x80#16⟩, ⟨some [], none⟩⟩,
    .requestResponse ⟨1#32, ⟨0#16⟩, ⟨none, none⟩⟩, _, _,
    .requestResponse ⟨1#32, ⟨0x80#16⟩, ⟨none, none⟩⟩, .requestResponse ⟨1#32, ⟨0#16⟩, ⟨none, none⟩⟩,
    rfl, rfl, rfl, rfl, by decide +kernel, by decide +kernel, ?_, by decide⟩
  exact view_ext ⟨rfl, by decide, fun i a b h => by cases h⟩

/-- **C104, refuted as stated.** Flags that the protocol does not define for a frame type are kept and
compared, but not shown. -/
theorem C104_flags_false : ∃ b c f g, decode b = .ok f [] ∧ decode c = .ok g [] ∧
    view f = view g ∧ f ≠ g ∧ hasMetadata f = hasMetadata g ∧ flagBit f 7 = flagBit g 7 := by
  refine ⟨[0, 0, 0, 1, 0x10, 0x10, 0, 0, 0], [0, 0, 0, 1, 0x10, 0, 0, 0, 0],
    .requestResponse ⟨1#32, ⟨0x10#16⟩, ⟨none, none⟩⟩, .requestResponse ⟨1#32, ⟨0#16⟩, ⟨none, none⟩⟩,
    by decide +kernel, by decide +kernel, ?_, by decide, rfl, rfl⟩
  exact view_ext ⟨rfl, by decide, fun i a b h => by cases h⟩

/-- **C104.** What the accessors do not show, for all frames whatsoever: all accessors of two frames
agree exactly if the frames are of the same type and differ at most in flag bits without an accessor
and in SETUP MIME types neither of which is ASCII. -/
theorem C104_hidden (f g : Frame) : view f = view g ↔ DifferHidden f g :=
  ⟨differHidden_of_view, view_ext⟩

/-- **C104, what holds.** Frames whose hidden flags are as the protocol wants them and whose MIME
types are ASCII are equal as soon as all their accessors agree. -/
theorem C104_equal_partial {f g : Frame} (hf : Plain f) (hg : Plain g) (ha : AsciiMimes f)
    (h : view f = view g) : f = g := by
  have d := differHidden_of_view h
  have ht := type_bare d.bare
  refine eq_of_bare d.bare ?_ ?_
  · have hs := shownBits_type ht
    have hm := hasMetadata_bare d.bare
    have hi := flagsField_type ht
    cases e : flagsField f with
    | none =>
      cases e' : flagsField g with
      | none => rfl
      | some y => rw [e, e'] at hi; cases hi
    | some x =>
      cases e' : flagsField g with
      | none => rw [e, e'] at hi; cases hi
      | some y =>
        congr 1
        refine flags_ext fun k => ?_
        by_cases hk : k ∈ shownBits f
        · have := d.flags k hk
          rw [flagBit, flagBit, e, e'] at this
          exact Option.some.inj this
        · rw [hf x e k hk, hg y e' k (hs ▸ hk), hm]
  · have len : (mimes f).length = (mimes g).length := by
      cases f <;> cases g <;> first | rfl | cases ht
    refine List.ext_getElem len fun i h1 h2 => ?_
    rcases d.mimes i _ _ (List.getElem?_eq_getElem h1) (List.getElem?_eq_getElem h2) with e | e
    · exact e
    · exact absurd (ha _ (List.getElem_mem h1)) e.1

/-- **C104.** The constructors and the SETUP builder set the flags that no accessor shows as the
protocol wants them: METADATA exactly if there is metadata, and no other one. -/
theorem C104_constructors {dbg : Bool} {f : Frame} (hf : Built dbg f) : Plain f := built_plain hf

/-- **C104, what holds.** The frames that the constructors and the SETUP builder make, with any
arguments, are such frames: no two of them look alike without being equal, unless they are SETUP
frames with MIME types that are not ASCII. -/
theorem C104_built_partial {dbg dbg' : Bool} {f g : Frame} (hf : Built dbg f) (hg : Built dbg' g)
    (ha : AsciiMimes f) (h : view f = view g) : f = g :=
  C104_equal_partial (built_plain hf) (built_plain hg) ha h

/-- The exception is needed: two MIME types that are not ASCII look alike. -/
theorem C104_mime_false : ∃ f g, SetupFrameBuilder.build true [.setDataMimetype [0xC3#8, 0xA9#8]] = .ok f ∧
    SetupFrameBuilder.build true [.setDataMimetype [0xC3#8, 0xA8#8]] = .ok g ∧
    view (.setup f) = view (.setup g) ∧ f ≠ g := by
  refine ⟨_, _, rfl, rfl, ?_, by decide⟩
  refine view_ext ⟨rfl, by decide, fun i a b h1 h2 => ?_⟩
  rcases i with _ | _ | i
  · cases h1; cases h2; exact .inl rfl
  · cases h1; cases h2; exact .inr ⟨by decide, by decide⟩
  · cases h1

/-- Two ways to build the same SETUP frame: the hypotheses of `C104_built_partial` hold. -/
example : ∃ f g, SetupFrameBuilder.build true [.setLeaseFlag, .setMetadata [7#8]] = .ok f ∧
    SetupFrameBuilder.build false [.setMetadata [6#8], .setMetadata [7#8], .setLeaseFlag] = .ok g ∧
    AsciiMimes (.setup f) ∧ view (.setup f) = view (.setup g) := by
  refine ⟨_, _, rfl, rfl, ?_, ?_⟩
  · unfold AsciiMimes; decide
  refine view_ext ⟨rfl, by decide, fun i a b h1 h2 => ?_⟩
  rcases i with _ | _ | i
  · cases h1; cases h2; exact .inl rfl
  · cases h1; cases h2; exact .inl rfl
  · cases h1

/-- Frames that look different. -/
example : view (.cancel ⟨1#32⟩) ≠ view (.cancel ⟨3#32⟩) := by
  intro h
  have := ((C104_hidden _ _).1 h).bare
  revert this
  decide

end Binate
