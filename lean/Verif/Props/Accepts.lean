import Verif.Lemmas.RoundTrip
import Verif.Lemmas.Constructors
import Verif.Spec.Protocol

/-! # Properties of the frames that `decode` accepts

C94. -/

namespace Binate

open Spec

/-- **C94**, the frames that `decode` returns are exactly the well-formed ones without a byte field
that is present but empty: nothing else is ever returned, and each of them is, for some bytes. -/
theorem C94_accepts_iff (f : Frame) :
    (∃ b rest, (Frame.decode : Dec Bytes Frame) b = .ok f rest) ↔ WellFormed f ∧ NoEmpty f := by
  constructor
  · rintro ⟨b, rest, h⟩
    exact ⟨parses_wellFormed (decode_iff.1 h), parses_noEmpty (decode_iff.1 h)⟩
  · rintro ⟨hw, hn⟩
    exact ⟨layout 16 f, [], by rw [decode_layout hw, normalize_noEmpty hn]⟩

/-- The claim that `decode` rejects whatever breaks a documented requirement. -/
def C94_statement : Prop :=
  ∀ (r : Rule) (b rest : Bytes) (f : Frame),
    (Frame.decode : Dec Bytes Frame) b = .ok f rest → r.Holds b f

/-- **C94** is false: REQUEST_N frames that request nothing are accepted. -/
theorem C94_protocol_false : ¬ C94_statement := by
  intro h
  exact absurd (h .requestN [0#8, 0#8, 0#8, 1#8, 0x20#8, 0#8, 0#8, 0#8, 0#8, 0#8] []
    (.requestN ⟨1#32, 0#32⟩) rfl) (by simp [Rule.Holds])

/-- **C94**, which of the requirements `decode` enforces, exactly. -/
theorem C94_enforced_partial (r : Rule) :
    (∀ (b rest : Bytes) (f : Frame), (Frame.decode : Dec Bytes Frame) b = .ok f rest → r.Holds b f) ↔
      r ∈ [Rule.connectionStream, .streamIdWidth, .countWidth, .positionWidth, .tokenLength,
        .errorStream] := by
  constructor
  · intro h
    cases r <;> first | decide | exfalso
    · exact absurd (h [0#8, 0#8, 0#8, 1#8, 0x2c#8, 0#8, 0x80#8, 0#8, 0#8, 0#8] []
        (.error ⟨1#32, 0x80000000#32, none⟩) rfl) (by simp [Rule.Holds])
    · exact absurd (h [0#8, 0#8, 0#8, 1#8, 0x20#8, 0#8, 0#8, 0#8, 0#8, 0#8] []
        (.requestN ⟨1#32, 0#32⟩) rfl) (by simp [Rule.Holds])
    · exact absurd (h [0#8, 0#8, 0#8, 1#8, 0x18#8, 0#8, 0#8, 0#8, 0#8, 0#8, 0#8, 0#8, 0#8] []
        (.requestStream ⟨1#32, ⟨0#16⟩, 0#32, ⟨none, none⟩⟩) rfl) (by simp [Rule.Holds])
    · exact absurd (h [0#8, 0#8, 0#8, 0#8, 0x04#8, 0#8, 0#8, 1#8, 0#8, 0#8, 0#8, 0#8, 0#8, 0#8, 0#8,
        0#8, 0#8, 1#8, 0#8, 0#8, 0#8, 0#8, 0#8] []
        (.setup ⟨⟨0#16⟩, ⟨1#16, 0#16⟩, 0#32, 1#32, none, [], [], ⟨none, none⟩⟩) rfl)
        (by simp [Rule.Holds])
    · exact absurd (h [0#8, 0#8, 0#8, 0#8, 0x04#8, 0#8, 0#8, 1#8, 0#8, 0#8, 0#8, 0#8, 0#8, 1#8, 0#8,
        0#8, 0#8, 0#8, 0#8, 0#8, 0#8, 0#8, 0#8] []
        (.setup ⟨⟨0#16⟩, ⟨1#16, 0#16⟩, 1#32, 0#32, none, [], [], ⟨none, none⟩⟩) rfl)
        (by simp [Rule.Holds])
    · exact absurd (h [0#8, 0#8, 0#8, 1#8, 0x28#8, 0#8, 0#8, 0#8, 0#8] []
        (.payload ⟨1#32, ⟨0#16⟩, ⟨none, none⟩⟩) rfl) (by simp [Rule.Holds])
  · intro hr b rest f h
    have hp := decode_iff.1 h
    have hw := parses_wellFormed hp
    simp only [List.mem_cons, List.not_mem_nil, or_false] at hr
    rcases hr with rfl | rfl | rfl | rfl | rfl | rfl
    · obtain ⟨hd, body, sid, fl, rfl, ⟨s, w, rfl, hs, -, hsid, -⟩, hb⟩ := hp
      have ht : ((s ++ w) ++ body).take 4 = s := by
        rw [List.append_assoc, ← hs]; exact List.take_left
      cases hb <;> first | trivial | (simp only [Rule.Holds, ht]; exact hsid.symm)
    · cases f <;> simp only [Rule.Holds] <;> simp only [WellFormed] at hw <;>
        first | exact hw.1 | exact hw
    · cases f <;> simp only [Rule.Holds] <;> simp only [WellFormed] at hw
      · exact ⟨hw.2.1, hw.2.2.1⟩
      · exact hw
      · exact hw.2.2.1
      · exact hw.2.2.1
      · exact hw.2
    · cases f <;> simp only [Rule.Holds] <;> simp only [WellFormed] at hw
      · exact hw
      · exact hw.2
      · exact hw
    · cases f <;> simp only [Rule.Holds] <;> simp only [WellFormed] at hw
      · intro t ht; have := hw.2.2.2.2.1 t ht; omega
      · omega
    · cases f <;> simp only [Rule.Holds] <;> simp only [WellFormed] at hw
      exact ⟨hw.2.1, fun hc => Nat.pos_of_ne_zero (hw.2.2 hc)⟩

/-- The requirements are compatible: a REQUEST_N frame that meets all of them is accepted. -/
example : (Frame.decode : Dec Bytes Frame)
      [0#8, 0#8, 0#8, 1#8, 0x20#8, 0#8, 0#8, 0#8, 0#8, 7#8] = .ok (.requestN ⟨1#32, 7#32⟩) [] ∧
    ∀ r : Rule, r.Holds [0#8, 0#8, 0#8, 1#8, 0x20#8, 0#8, 0#8, 0#8, 0#8, 7#8]
      (.requestN ⟨1#32, 7#32⟩) :=
  ⟨rfl, fun r => by cases r <;> simp [Rule.Holds]⟩

end Binate
