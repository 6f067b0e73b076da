import Verif.Lemmas.Shown

/-! # `Debug` output of frames

C86. -/

namespace Binate

open Spec

/-- **C86**: two frames have the same `Debug` text only if they are the same frame. Nothing is left
out of the text, and no payload can imitate the text of other fields. -/
theorem C86_injective (f g : Frame) : f.debug = g.debug ↔ f = g := by
  refine ⟨fun h => frame_text_inj ?_, fun h => by rw [h]⟩
  exact String.ofList_injective h

/-- **C86**: whatever the bytes of a frame are, its `Debug` text is printable ASCII: no line break and
no terminal control sequence gets into a log. -/
theorem C86_printable (f : Frame) : PrintableAscii f.debug := by
  intro c hc
  rw [Frame.debug, String.toList_ofList] at hc
  have := printable_frame f c hc
  omega

/-- **C86**: the text shows the kind of the frame and every field under its name, in the order of the
declaration; numbers are decimal. Flags are shown by the names of exactly the bits that are set, with
all names of a bit that has several, or `(empty)`; bits without a name as a number. -/
theorem C86_text (f : Frame) : f.debug = shownFrame f := by
  rw [Frame.debug, debug_frame, String.ofList_toList]

/-- **C86**: bytes are shown as a byte string literal which, read back, stands for exactly these
bytes. -/
theorem C86_literal (b : Bytes) (l : List Nat) :
    Literal (shownBytes b).toList l ↔ l = b.map (·.toNat) := by
  rw [← debug_bytes]
  exact ⟨fun h => literal_unique h (literal_bytes b), fun h => h ▸ literal_bytes b⟩

/-- **C86**, the values that also occur alone. -/
theorem C86_values (v : Version) (p : Payload) (u : U24) :
    String.ofList v.debugText = shownVersion v ∧ String.ofList p.debugText = shownPayload p ∧
    String.ofList u.debugText = s!"U24({u.hi.toNat}, {u.lo.toNat})" := by
  refine ⟨?_, ?_, ?_⟩
  · rw [debug_version, String.ofList_toList]
  · rw [debug_payload, String.ofList_toList]
  · unfold U24.debugText
    rw [debug_nat, debug_nat]
    generalize toString u.hi.toNat = a
    generalize toString u.lo.toNat = b
    rw [← String.toList_inj]
    simp only [String.toList_ofList, toString_text, String.toList_append]

/-- Non-vacuity: a bit with three names, quotes and a line break in the payload, and two payloads
that would look alike without the escapes. -/
example : (Frame.requestResponse ⟨5#32, ⟨0x1C0#16⟩, ⟨some [0x41#8, 0x22#8, 0x0A#8], none⟩⟩).debug =
      "RequestResponse(RequestResponseFrame { stream_id: 5, flags: IGNORE | METADATA | FOLLOWS | " ++
        "RESUME | RESPOND, payload: Payload { metadata: Some(b\"A\\\"\\n\"), data: None } })" ∧
    (Frame.cancel ⟨7#32⟩).debug = "Cancel(CancelFrame { stream_id: 7 })" ∧
    debugBytes [0x5C#8, 0x6E#8] ≠ debugBytes [0x0A#8] ∧
    shownFlags 0x20 = "COMPLETE | LEASE" ∧ shownFlags 0 = "(empty)" ∧
    shownFlags 0x8013 = "NEXT | 0x8003" ∧ shownBytes [0x41#8, 0x80#8] = "b\"A\\x80\"" := by
  decide +kernel

end Binate
