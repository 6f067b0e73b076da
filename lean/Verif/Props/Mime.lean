import Verif.Lemmas.Text

/-! # Properties of the well-known MIME types (C50, C51) -/

namespace Binate

open Spec WellKnownMimeType

/-! ## C50 -/

/-- **C50.** A string is recognised exactly when it is one of the 47 listed ones. -/
theorem C50_listed (v : String) :
    (fromStr v ≠ UNPARSEABLE ↔ v ∈ mimeStrings) ∧ mimeStrings.length = 47 := by
  refine ⟨?_, rfl⟩
  rcases fromStr_cases v with h | ⟨h1, h2⟩
  · refine ⟨fun _ => ?_, fun _ => mimeTable_ne _ h⟩
    rw [← mimeTable_strings]
    exact List.mem_map.2 ⟨_, h, rfl⟩
  · exact ⟨fun h => absurd h2 h, fun h => absurd h h1⟩

/-- **C50**: different recognised strings give different types. -/
theorem C50_injective {v w : String} (h : fromStr v = fromStr w) (hv : fromStr v ≠ UNPARSEABLE) :
    v = w := by
  rcases fromStr_cases v with h1 | h1
  · rcases fromStr_cases w with h2 | h2
    · exact mimeTable_inj _ h1 _ h2 h
    · exact absurd (h.trans h2.2) hv
  · exact absurd h1.2 hv

/-- **C50**: the type is the one that carries the name of the string: in upper case, with
underscores for punctuation. -/
theorem C50_names {v : String} (hv : fromStr v ≠ UNPARSEABLE) :
    (fromStr v).debug.toList = screaming v := by
  rcases fromStr_cases v with h | h
  · exact mimeTable_names _ h
  · exact absurd h.2 hv

/-- **C50**: every type but UNPARSEABLE comes from exactly one string. -/
theorem C50_all_types {t : WellKnownMimeType} (h : t ≠ UNPARSEABLE) :
    ∃ v, fromStr v = t ∧ ∀ w, fromStr w = t → w = v := by
  obtain ⟨p, hp, rfl⟩ := List.mem_map.1 (mimeTable_all t h)
  have e : fromStr p.1 = p.2 := by
    rw [fromStr_find]
    revert p
    decide
  exact ⟨p.1, e, fun w hw => C50_injective (hw.trans e.symm) (by rw [hw]; exact h)⟩

example : fromStr "application/json" = APPLICATION_JSON ∧ fromStr "Application/json" = UNPARSEABLE := by
  decide

/-! ## C51 -/

/-- **C51**, refuted: no depth of recursion is enough to convert `application/json` back. -/
theorem C51_into_str_false : ¬ ∀ t, t ≠ UNPARSEABLE →
    ∃ fuel s, intoStr fuel t = .ok s ∧ fromStr s = t := by
  intro h
  obtain ⟨fuel, s, e, -⟩ := h APPLICATION_JSON (by decide)
  rw [intoStr_diverges (by decide)] at e
  cases e

/-- **C51**: the conversion never returns, for any type but UNPARSEABLE. -/
theorem C51_never_returns {t : WellKnownMimeType} (h : t ≠ UNPARSEABLE) (fuel : Nat) :
    intoStr fuel t = .diverge := intoStr_diverges h fuel

example : intoStr 1000 APPLICATION_JSON = .diverge := C51_never_returns (by decide) 1000

/-- **C51**, UNPARSEABLE (*missing*: the well-known types, for which it is false): converted to
the empty string, which parses to UNPARSEABLE. -/
theorem C51_unparseable_partial (fuel : Nat) :
    intoStr (fuel + 1) UNPARSEABLE = .ok "" ∧ fromStr "" = UNPARSEABLE := by
  refine ⟨?_, by decide⟩
  rw [intoStr, if_pos rfl]

end Binate
