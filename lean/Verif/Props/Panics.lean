import Verif.Lemmas.Panics

/-! # Panic messages

C85. -/

namespace Binate

open Spec

/-- **C85**, `new`: in debug builds a constructor panics exactly when some argument is out of range,
and the message names the first parameter at fault and the requirement that it breaks. -/
theorem C85_new (c : NewCall) (m : String) :
    c.run true = .panic m ↔ c.faults.head? = some m := by
  rcases run_fault c with ⟨f, h1, h2⟩ | ⟨m', rest, h1, h2⟩
  · rw [h1, h2]
    exact ⟨fun h => (nomatch h), fun h => (nomatch h)⟩
  · rw [h1, h2, List.head?_cons, Outcome.panic.injEq, Option.some.injEq]

/-- **C85**, `new` in release builds: no message at all. -/
theorem C85_new_release (c : NewCall) (m : String) : c.run false ≠ .panic m := by
  obtain ⟨f, h⟩ := run_ok_passes.2 (show Passes false c from fun h => (nomatch h))
  rw [h]
  exact fun h => (nomatch h)

/-- **C85**, the SETUP builder: the first call with an argument at fault panics, and the message says
which. The limits for the token and the MIME types hold in release builds too. -/
theorem C85_builder (dbg : Bool) (calls : List SetupCall) (m : String) :
    SetupFrameBuilder.build dbg calls = .panic m ↔
      calls.findSome? (setupFault dbg) = some m := by
  rcases run_setup_fault dbg calls SetupFrameBuilder.default with ⟨f, h1, h2⟩ | ⟨m', h1, h2⟩
  · rw [SetupFrameBuilder.build, h1, h2]
    exact ⟨fun h => (nomatch h), fun h => (nomatch h)⟩
  · rw [SetupFrameBuilder.build, h1, h2, Outcome.panic.injEq, Option.some.injEq]

/-- Non-vacuity: REQUEST_STREAM with two faults, and one fault in the second parameter only. -/
example : (NewCall.requestStream 0x80000000#32 true 0#32 ⟨none, none⟩).run true =
      .panic "stream_id MUST be <= MAX_U31 (0x7FFFFFFF)" ∧
    (NewCall.requestStream 7#32 true 0#32 ⟨none, none⟩).run true =
      .panic "initial_request_n MUST be non-zero" :=
  ⟨(C85_new _ _).2 (by decide), (C85_new _ _).2 (by decide)⟩
/-- Non-vacuity: every resume token that is too long, in the middle of other calls. -/
example (dbg : Bool) (t : Bytes) (h : 65535 < t.length) : SetupFrameBuilder.build dbg
      [.setLeaseFlag, .setResumeToken t, .setVersion 1 1] =
    .panic "assertion failed: token.len() <= 65_535" := by
  rw [C85_builder]
  simp only [List.findSome?_cons, setupFault, if_pos h]

end Binate
