import Verif.Lemmas.Ctor
import Verif.Props.Codec

/-! # Properties of the public constructors and the SETUP builder

C17–C21. -/

namespace Binate

open Spec

/-! ## C17 -/

/-- **C17**, debug builds: a constructor call returns exactly when all documented range
requirements hold, and panics otherwise. -/
theorem C17_debug (c : NewCall) :
    (c.InRange → ∃ f, c.run true = .ok f) ∧ (¬ c.InRange → ∃ m, c.run true = .panic m) := by
  refine ⟨fun h => run_ok_passes.2 fun _ => h, fun h => run_no_diverge ?_⟩
  intro hf
  exact h (run_ok_passes.1 hf rfl)

/-- **C17**, both profiles: in-range numbers are returned unchanged by the accessors, the frame
has the right type, and the byte arguments are stored unchanged. -/
theorem C17_in_range {dbg : Bool} {c : NewCall} (h : c.InRange) :
    ∃ f, c.run dbg = .ok f ∧ values31 f = c.args31 ∧ values63 f = c.args63 ∧
      blobsOf f = c.blobs ∧ Spec.typeNumber f = c.typeNumber := by
  obtain ⟨f, hf⟩ := run_ok_passes.2 (show Passes dbg c from fun _ => h)
  have s := run_stores hf
  refine ⟨f, hf, ?_, ?_, s.blobs, s.type⟩
  · rw [s.v31]
    refine (List.map_congr_left (g := id) fun a ha => ?_).trans (List.map_id _)
    split
    · rfl
    · exact Nat.mod_eq_of_lt (h.1 a ha)
  · rw [s.v63]
    refine (List.map_congr_left (g := id) fun a ha => ?_).trans (List.map_id _)
    exact Nat.mod_eq_of_lt (h.2.1 a ha)

/-- **C17**, release builds, everything except LEASE: the call never panics and each number loses
exactly its top bit. -/
theorem C17_release_partial {c : NewCall} (hl : c.isLease = false) :
    ∃ f, c.run false = .ok f ∧ values31 f = c.args31.map (· % 2 ^ 31) ∧
      values63 f = c.args63.map (· % 2 ^ 63) ∧ blobsOf f = c.blobs ∧
      Spec.typeNumber f = c.typeNumber := by
  obtain ⟨f, hf⟩ := run_ok_passes.2 (show Passes false c from fun h => (nomatch h))
  have s := run_stores hf
  refine ⟨f, hf, ?_, s.v63, s.blobs, s.type⟩
  rw [s.v31, hl]; rfl

/-- **C17** is false for LEASE in release builds: the accessors return the full 32-bit values. -/
theorem C17_release_false :
    ¬ ∀ c : NewCall, ∃ f, c.run false = .ok f ∧ values31 f = c.args31.map (· % 2 ^ 31) := by
  intro h
  obtain ⟨f, h1, h2⟩ := h (.lease 0x80000000#32 0#32 none)
  cases h1
  revert h2; decide

/-- **C17**, LEASE in release builds: both numbers are kept whole. -/
theorem C17_lease_release (t n : U32) (m : Option Bytes) :
    (NewCall.lease t n m).run false = .ok (.lease ⟨t, n, m⟩) := rfl

example : (NewCall.requestStream 1#32 true 5#32 ⟨none, none⟩).InRange := by
  refine ⟨?_, ?_, ?_⟩ <;> intro a ha <;>
    simp only [NewCall.args31, NewCall.args63, NewCall.argsPos, List.mem_cons,
      List.not_mem_nil, or_false] at ha <;> rcases ha with rfl | rfl <;> decide
example : ¬ (NewCall.requestStream 1#32 true 0#32 ⟨none, none⟩).InRange :=
  fun h => absurd (h.2.2 0 (by decide)) (by decide)
example : ∃ f, (NewCall.cancel 0x80000005#32).run false = .ok f ∧ values31 f = [5] :=
  ⟨_, rfl, by decide⟩
example : ∃ m, (NewCall.cancel 0x80000005#32).run true = .panic m := ⟨_, rfl⟩

/-! ## C18 -/

/-- **C18.** The flags given to a constructor are the flags that the receiver reads, and the flag
word on the wire has no others; METADATA is set exactly when metadata was given. -/
theorem C18_flags_survive {dbg : Bool} {c : NewCall} {f : Frame} (h : c.run dbg = .ok f)
    (hf : ∀ s fl p, c = .payload s fl p → FlagsOk fl) (hs : Sendable f) :
    ∃ b g, f.toBytes = .ok b ∧ decode b = .ok g [] ∧ isFollows? g = c.followsArg ∧
      isComplete? g = c.completeArg ∧ isNext? g = c.nextArg ∧ isRespond? g = c.respondArg ∧
      u16At b 4 = c.typeNumber * 1024 +
        flagsValue 16 false c.metadataGiven (c.followsArg.getD (c.respondArg.getD false))
          (c.completeArg.getD false) (c.nextArg.getD false) := by
  have hw := built_wellFormed (run_built h hf) hs
  obtain ⟨k1, k2, k3, k4, k5⟩ := run_flags h
  obtain ⟨n2, n3, n4, n5⟩ := normalize_flags f
  refine ⟨_, _, toBytes_wellFormed hw, decode_layout hw, n2.trans k2, n3.trans k3, n4.trans k4,
    n5.trans k5, ?_⟩
  obtain ⟨sid, rest, e⟩ := layout_header f
  rw [e, u16At_header rest (typeNumber_lt f) (Nat.lt_trans (layoutFlags_lt f) (by decide)), k1,
    (run_stores h).type]
  rfl

example : ∃ f, (NewCall.payload 1#32 ⟨0x1F0#16⟩ ⟨none, some [1#8]⟩).run true = .ok f ∧
    Sendable f ∧ FlagsOk ⟨0x1F0#16⟩ ∧ f.toBytes =
      .ok [0#8, 0#8, 0#8, 1#8, 0x28#8, 0x70#8, 0#8, 0#8, 0#8, 1#8] :=
  ⟨_, rfl, by show metaLen _ < _; decide, by decide, by decide⟩

/-! ## C19 -/

/-- **C19** is false: the code 0x80000000 lies in the documented application range but is
truncated to 0 in release builds and panics in debug builds. -/
theorem C19_error_codes_false :
    ¬ ∀ (dbg : Bool) (sid code : U32) (d : Option Bytes), DocumentedCode code.toNat →
      LegalPair sid.toNat code.toNat → ∃ f b g, ErrorFrame.new dbg sid code d = .ok f ∧
        (Frame.error f).toBytes = .ok b ∧ decode b = .ok (.error g) [] ∧ g.code = code := by
  intro h
  obtain ⟨f, b, g, h1, h2, h3, h4⟩ := h false 1#32 0x80000000#32 none
    (.inr (.inr (by decide))) ⟨by decide, fun h => by rcases h with ⟨_, h⟩ | h | h <;> simp at h,
      fun _ => by decide⟩
  cases h1
  cases h2
  rw [show decode _ = .ok (.error ⟨1#32, 0#32, none⟩) [] from rfl] at h3
  cases h3
  revert h4; decide

/-- **C19**, for the codes up to `MAX_U31`: with a legal stream id, in both profiles, the receiver
gets the same code on the same stream. -/
theorem C19_error_codes_partial {dbg : Bool} {sid code : U32} {d : Option Bytes}
    (hc : code.toNat < 2 ^ 31) (hl : LegalPair sid.toNat code.toNat) :
    ∃ f b g, ErrorFrame.new dbg sid code d = .ok f ∧ (Frame.error f).toBytes = .ok b ∧
      decode b = .ok (.error g) [] ∧ g.code = code ∧ g.streamId = sid ∧ g.data = normOpt d := by
  have hn : ErrorFrame.new dbg sid code d = .ok ⟨sid, code, d⟩ := by
    rw [ErrorFrame.new, dam31_ok fun _ => hl.1, dam31_ok fun _ => hc, masked31 hl.1, masked31 hc]
    rfl
  have hw : WellFormed (.error ⟨sid, code, d⟩) := hl
  exact ⟨_, _, _, hn, toBytes_wellFormed hw, decode_layout hw, rfl, rfl, rfl⟩

/-- **C19**, the codes above `MAX_U31`: debug builds panic, release builds send the code without
its top bit. -/
theorem C19_error_codes_high {sid code : U32} {d : Option Bytes} (hc : 2 ^ 31 ≤ code.toNat)
    (hs : sid.toNat < 2 ^ 31) :
    (∃ m, ErrorFrame.new true sid code d = .panic m) ∧
    ∃ f, ErrorFrame.new false sid code d = .ok f ∧ f.code.toNat = code.toNat - 2 ^ 31 := by
  constructor
  · obtain ⟨m, hm⟩ := dam31_panic hc
    refine ⟨m, ?_⟩
    rw [ErrorFrame.new, dam31_ok fun _ => hs, hm]; rfl
  · refine ⟨_, rfl, ?_⟩
    have := code.isLt
    rw [and_max31]; omega

example : DocumentedCode 0x201 ∧ LegalPair 1 0x201 :=
  ⟨.inr (.inl ⟨by decide, by decide⟩), by decide,
    fun h => by rcases h with ⟨_, h⟩ | h | h <;> simp at h, fun _ => by decide⟩
example : DocumentedCode 0xFFFFFFFE := .inr (.inr (by decide))

/-! ## C20 -/

/-- **C20** is false: `set_resume_flag()` alone builds a frame that nobody can read back, and a
256-byte MIME type is announced with length 0. -/
theorem C20_setup_round_trip_false :
    (∃ f b, SetupFrameBuilder.build true [.setResumeFlag] = .ok f ∧
      (Frame.setup f).toBytes = .ok b ∧ ∀ g r, decode b ≠ .ok g r) ∧
    (∃ f b, SetupFrameBuilder.build true [.setMetadataMimetype (List.replicate 256 65#8)] = .ok f ∧
      (Frame.setup f).toBytes = .ok b ∧ ∀ r, decode b ≠ .ok (.setup f) r) := by
  constructor
  · refine ⟨_, _, rfl, rfl, ?_⟩
    intro g r h
    revert h
    generalize hd : decode _ = x
    have e : x = .err .inComplete (x.casesOn (fun _ s => s) (fun _ s => s) (fun _ => []) []) := by
      subst hd; rfl
    rw [e]; exact fun h => nomatch h
  · refine ⟨_, _, mime256_build, mime256_toBytes, ?_⟩
    intro r h
    have := (parses_wellFormed (decode_iff.1 h)).2.2.2.2.2.1
    rw [List.length_replicate] at this
    omega

/-- **C20**, complete characterisation: a built SETUP frame is read back as it was sent exactly
when a resume token was given if the RESUME flag was set, both MIME types in force have at most
255 bytes, the metadata in force has less than 2^24 bytes, and neither metadata nor data is
present but empty. -/
theorem C20_setup_round_trip_partial {dbg : Bool} {calls : List SetupCall} {f : SetupFrame}
    (h : SetupFrameBuilder.build dbg calls = .ok f) :
    (∃ b, (Frame.setup f).toBytes = .ok b ∧ decode b = .ok (.setup f) []) ↔
      (calls.any setsResume = calls.any isTokenCall ∧
        (lastOr defaultMime metadataMimeArg calls).length ≤ 255 ∧
        (lastOr defaultMime dataMimeArg calls).length ≤ 255 ∧
        (optBytes (lastOr none metadataArg calls)).length < 2 ^ 24 ∧
        lastOr none metadataArg calls ≠ some [] ∧ lastOr none dataArg calls ≠ some []) := by
  have d := build_describes h
  have hb : Built dbg (.setup f) := .setup h
  rw [C01_round_trip_iff hb]
  simp only [Sendable, NoEmpty, optFields, List.mem_cons, List.not_mem_nil, or_false, not_or,
    d.resume, d.token, d.metadataMime, d.dataMime, d.payload, lastOr_token]
  constructor
  · rintro ⟨⟨h1, h2, h3, h4⟩, h5, h6⟩
    exact ⟨h1.symm, h2, h3, h4, fun e => h5 e.symm, fun e => h6 e.symm⟩
  · rintro ⟨h1, h2, h3, h4, h5, h6⟩
    exact ⟨⟨h1.symm, h2, h3, h4⟩, fun e => h5 e.symm, fun e => h6 e.symm⟩

/-- **C20**, complete characterisation up to present-but-empty fields: without the last two
conditions. -/
theorem C20_up_to_empty_partial {dbg : Bool} {calls : List SetupCall} {f : SetupFrame}
    (h : SetupFrameBuilder.build dbg calls = .ok f) :
    (∃ b, (Frame.setup f).toBytes = .ok b ∧ decode b = .ok (normalize (.setup f)) []) ↔
      (calls.any setsResume = calls.any isTokenCall ∧
        (lastOr defaultMime metadataMimeArg calls).length ≤ 255 ∧
        (lastOr defaultMime dataMimeArg calls).length ≤ 255 ∧
        (optBytes (lastOr none metadataArg calls)).length < 2 ^ 24) := by
  have d := build_describes h
  have hb : Built dbg (.setup f) := .setup h
  rw [C02_sendable_iff hb]
  simp only [Sendable, d.resume, d.token, d.metadataMime, d.dataMime, d.payload, lastOr_token]
  exact ⟨fun h => ⟨h.1.symm, h.2⟩, fun h => ⟨h.1.symm, h.2⟩⟩

example (dbg : Bool) : ∃ calls f, SetupFrameBuilder.build dbg calls = .ok f ∧
    calls.any setsResume = calls.any isTokenCall ∧ calls.any setsResume = true :=
  ⟨_, _, sampleSetup_built dbg, by decide, by decide⟩

/-! ## C21 -/

/-- **C21.** The built frame is the one described by the calls: each field holds the argument of
the last call that sets it, or the documented default, and each flag is set exactly when a
corresponding call was made. -/
theorem C21_last_write_wins {dbg : Bool} {calls : List SetupCall} {f : SetupFrame}
    (h : SetupFrameBuilder.build dbg calls = .ok f) : Describes calls f := build_describes h

/-- **C21**, exactly the legal call sequences build a frame, all others panic. -/
theorem C21_accepts (dbg : Bool) (calls : List SetupCall) :
    ((∀ c ∈ calls, Legal dbg c) → ∃ f, SetupFrameBuilder.build dbg calls = .ok f) ∧
    (¬ (∀ c ∈ calls, Legal dbg c) → ∃ m, SetupFrameBuilder.build dbg calls = .panic m) := by
  refine ⟨run_ok_iff.2, fun h => ?_⟩
  cases hr : SetupFrameBuilder.build dbg calls with
  | ok f => exact absurd (run_ok_iff.1 ⟨f, hr⟩) h
  | panic m => exact ⟨m, rfl⟩
  | diverge => exact absurd hr run_no_diverge'

/-- **C21**, independent calls commute: swapping two neighbouring calls that set different things
changes nothing. -/
theorem C21_order {dbg : Bool} {xs ys : List SetupCall} {a b : SetupCall} {f : SetupFrame}
    (hab : slot a ≠ slot b) (h : SetupFrameBuilder.build dbg (xs ++ a :: b :: ys) = .ok f) :
    SetupFrameBuilder.build dbg (xs ++ b :: a :: ys) = .ok f := by
  have hl := run_ok_iff.1 ⟨f, h⟩
  obtain ⟨g, hg⟩ := (C21_accepts dbg (xs ++ b :: a :: ys)).1 (by
    intro c hc
    apply hl c
    simp only [List.mem_append, List.mem_cons] at hc ⊢
    rcases hc with h | h | h | h
    · exact .inl h
    · exact .inr (.inr (.inl h))
    · exact .inr (.inl h)
    · exact .inr (.inr (.inr h)))
  have df := build_describes h
  have dg := build_describes hg
  rw [hg, describes_unique (describes_swap hab dg) df]

example : SetupFrameBuilder.build true [.setData [1#8], .setData [2#8]] ≠
    SetupFrameBuilder.build true [.setData [2#8], .setData [1#8]] := by decide

end Binate
