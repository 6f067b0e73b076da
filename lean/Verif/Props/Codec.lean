import Verif.Lemmas.Reserved

/-! # Properties of the wire codec on contiguous buffers

C01–C06, C08–C16, C56, C58. -/

namespace Binate

open Spec

/-! ## Sample frames for the non-vacuity checks -/

/-- A SETUP frame with token, metadata and data. -/
def sampleSetup : SetupFrame :=
  { flags := (Flags.empty.union Flags.RESUME).union Flags.METADATA
    version := ⟨1#16, 0#16⟩, keepaliveInterval := 5#32, keepaliveTimeout := 7#32
    resumeToken := some [1#8, 2#8], metadataMimetype := [97#8], dataMimetype := [98#8]
    payload := ⟨some [3#8], some [4#8, 5#8]⟩ }

/-- A fire-and-forget request with metadata and data. -/
def sampleFnf : RequestFnfFrame :=
  { streamId := 3#32, flags := Flags.FOLLOWS.union Flags.METADATA
    payload := ⟨some [3#8], some [4#8, 5#8]⟩ }

theorem sampleSetup_built (dbg : Bool) : SetupFrameBuilder.build dbg
    [.setKeepaliveInterval 5#32, .setKeepaliveTimeout 7#32, .setResumeToken [1#8, 2#8],
     .setMetadataMimetype [97#8], .setDataMimetype [98#8], .setMetadata [3#8],
     .setData [4#8, 5#8]] = .ok sampleSetup := by
  cases dbg <;> decide

theorem sampleSetup_wellFormed : WellFormed (.setup sampleSetup) := by
  refine ⟨by decide, by decide, by decide, by decide, ?_, by decide, by decide, by decide⟩
  intro t ht; cases ht; decide

theorem sampleFnf_wellFormed : WellFormed (.requestFnf sampleFnf) :=
  ⟨by decide, by decide, by decide⟩

/-! ## C01 -/

/-- **C01.** A frame built by any public constructor, respecting the sender's obligations, and
without present-but-empty fields, is received as it was sent. -/
theorem C01_round_trip {dbg : Bool} {f : Frame} (hb : Built dbg f) (hs : Sendable f)
    (he : NoEmpty f) : ∃ b, f.toBytes = .ok b ∧ decode b = .ok f [] :=
  have hw := built_wellFormed hb hs
  ⟨_, toBytes_wellFormed hw, by
    have := decode_layout hw
    rwa [normalize_noEmpty he] at this⟩

/-- **C01**, the conditions are necessary: a constructed frame survives encode/decode exactly when
it is `Sendable` and has no present-but-empty field. -/
theorem C01_round_trip_iff {dbg : Bool} {f : Frame} (hb : Built dbg f) :
    (∃ b, f.toBytes = .ok b ∧ decode b = .ok f []) ↔ Sendable f ∧ NoEmpty f := by
  constructor
  · rintro ⟨b, -, h⟩
    have hp := decode_iff.1 h
    refine ⟨?_, parses_noEmpty hp⟩
    have hw := parses_wellFormed hp
    cases f with
    | setup v =>
      obtain ⟨_, _, _, h4, _, h6, h7, h8⟩ := hw
      exact ⟨h4, by omega, by omega, h8⟩
    | lease v => exact hw
    | error v => exact hw.2
    | resume v =>
      have : _ < 65536 := hw.1
      show _ ≤ 65535
      omega
    | keepalive v => exact wellFormed_meta (f := .keepalive v) hw
    | requestResponse v => exact wellFormed_meta (f := .requestResponse v) hw
    | requestFnf v => exact wellFormed_meta (f := .requestFnf v) hw
    | requestStream v => exact wellFormed_meta (f := .requestStream v) hw
    | requestChannel v => exact wellFormed_meta (f := .requestChannel v) hw
    | requestN v => exact wellFormed_meta (f := .requestN v) hw
    | cancel v => exact wellFormed_meta (f := .cancel v) hw
    | payload v => exact wellFormed_meta (f := .payload v) hw
    | metadataPush v => exact wellFormed_meta (f := .metadataPush v) hw
    | resumeOk v => exact wellFormed_meta (f := .resumeOk v) hw
  · rintro ⟨hs, he⟩; exact C01_round_trip hb hs he

example : Built true (.setup sampleSetup) ∧ Sendable (.setup sampleSetup) ∧
    NoEmpty (.setup sampleSetup) :=
  ⟨.setup (sampleSetup_built true), ⟨by decide, by decide, by decide, by decide⟩,
    by simp [NoEmpty, optFields, sampleSetup]⟩

example : Built false (.requestFnf sampleFnf) ∧ Sendable (.requestFnf sampleFnf) ∧
    NoEmpty (.requestFnf sampleFnf) :=
  ⟨.requestFnf (s := 3#32) (fo := true) (p := ⟨some [3#8], some [4#8, 5#8]⟩) (by decide),
    (by decide : metaLen (.requestFnf sampleFnf) < 2 ^ 24),
    by simp [NoEmpty, optFields, sampleFnf]⟩

/-! ## C02 -/

/-- **C02.** `decode (encode f)` is `f` with present-but-empty optional fields made absent, for
every well-formed frame. -/
theorem C02_empty_vs_absent {f : Frame} (h : WellFormed f) :
    ∃ b, f.toBytes = .ok b ∧ decode b = .ok (normalize f) [] :=
  ⟨_, toBytes_wellFormed h, decode_layout h⟩

/-- **C02**, exactly which constructed frames: `Sendable` is necessary, too. -/
theorem C02_sendable_iff {dbg : Bool} {f : Frame} (hb : Built dbg f) :
    (∃ b, f.toBytes = .ok b ∧ decode b = .ok (normalize f) []) ↔ Sendable f := by
  constructor
  · rintro ⟨b, -, h⟩
    have hw := parses_wellFormed (decode_iff.1 h)
    have hn : ∀ o : Option Bytes, optBytes (normOpt o) = optBytes o := by
      intro o
      cases o with
      | none => rfl
      | some l => cases l <;> rfl
    cases f with
    | setup v =>
      obtain ⟨_, _, _, h4, _, h6, h7, h8⟩ := hw
      refine ⟨h4, by dsimp only at h6; omega, by dsimp only at h7; omega, ?_⟩
      simpa only [normPayload, hn] using h8
    | lease v => exact hw
    | error v => exact hw.2
    | resume v =>
      have : _ < 65536 := hw.1
      show _ ≤ 65535
      omega
    | keepalive v => exact (by decide : 0 < 2 ^ 24)
    | requestResponse v =>
      simpa only [Sendable, metaLen, payloadOf, normalize, normPayload, hn] using
        wellFormed_meta hw
    | requestFnf v =>
      simpa only [Sendable, metaLen, payloadOf, normalize, normPayload, hn] using
        wellFormed_meta hw
    | requestStream v =>
      simpa only [Sendable, metaLen, payloadOf, normalize, normPayload, hn] using
        wellFormed_meta hw
    | requestChannel v =>
      simpa only [Sendable, metaLen, payloadOf, normalize, normPayload, hn] using
        wellFormed_meta hw
    | requestN v => exact wellFormed_meta (f := .requestN v) hw
    | cancel v => exact wellFormed_meta (f := .cancel v) hw
    | payload v =>
      simpa only [Sendable, metaLen, payloadOf, normalize, normPayload, hn] using
        wellFormed_meta hw
    | metadataPush v => exact wellFormed_meta (f := .metadataPush v) hw
    | resumeOk v => exact wellFormed_meta (f := .resumeOk v) hw
  · intro hs
    exact C02_empty_vs_absent (built_wellFormed hb hs)

example : WellFormed (.requestFnf { sampleFnf with payload := ⟨some [], some [1#8]⟩ }) ∧
    normalize (.requestFnf { sampleFnf with payload := ⟨some [], some [1#8]⟩ }) =
      .requestFnf { sampleFnf with payload := ⟨none, some [1#8]⟩ } :=
  ⟨⟨by decide, by decide, by decide⟩, rfl⟩

/-! ## C03 -/

/-- **C03** as stated is false: `len()` of a SETUP frame without token is not the number of bytes
`encode` writes. -/
theorem C03_len_false : ¬ ∀ (f : Frame) (b : Bytes), f.toBytes = .ok b → f.len = b.length := by
  intro h
  have := h (.setup SetupFrameBuilder.default) _ (by decide : _ = Outcome.ok
    (layout 16 (.setup SetupFrameBuilder.default)))
  revert this
  decide

/-- **C03**, what holds: `len()` is the encoded length for every frame except SETUP frames
without a resume token, for which it is exactly 2 too large. -/
theorem C03_len_partial (f : Frame) (buf b : Bytes) (h : f.encode buf = .ok (buf ++ b)) :
    ((∀ v, f = .setup v → v.resumeToken ≠ none) → f.len = b.length) ∧
    (∀ v, f = .setup v → v.resumeToken = none → f.len = b.length + 2) := by
  rw [encode_append] at h
  obtain ⟨b', h1, h2⟩ := Outcome.bind_eq_ok.1 h
  have hb : b' = b := by
    simp only [Outcome.ok.injEq] at h2
    exact List.append_cancel_left h2
  subst hb
  rw [encode_length h1]
  constructor
  · intro hn
    cases f <;> first | rfl | skip
    rename_i v
    have := hn v rfl
    simp only [lenExcess, this, if_false, Nat.add_zero]
  · rintro v rfl hn
    simp only [lenExcess, hn, if_true]

example : (Frame.setup sampleSetup).encode [9#8] =
    .ok ([9#8] ++ layout 16 (.setup sampleSetup)) := encode_wellFormed sampleSetup_wellFormed _

/-! ## C04 -/

/-- **C04.** `encode` keeps what is in the buffer and appends bytes (or panics) independently of
the contents. -/
theorem C04_encode_appends (f : Frame) (buf : Bytes) :
    (∀ b, f.toBytes = .ok b → f.encode buf = .ok (buf ++ b)) ∧
    (∀ m, f.toBytes = .panic m → f.encode buf = .panic m) ∧
    f.toBytes ≠ .diverge := by
  refine ⟨?_, ?_, ?_⟩
  · intro b h
    rw [encode_append, show f.encode [] = .ok b from h]; rfl
  · intro m h
    rw [encode_append, show f.encode [] = .panic m from h]; rfl
  · have key : ∀ (p : Payload) (x : Bytes), encodePayloadWithLen p x ≠ .diverge := by
      intro p x h
      by_cases hm : (optBytes p.metadata).length < 2 ^ 24
      · rw [encodePayloadWithLen_ok hm] at h; cases h
      · obtain ⟨m, h1⟩ := encodePayloadWithLen_panic (Nat.not_lt.1 hm) x
        rw [h1] at h; cases h
    have no : ∀ b : Bytes, Outcome.ok b ≠ .diverge := fun b h => by cases h
    cases f with
    | setup v => exact key _ _
    | requestResponse v => exact key _ _
    | requestFnf v => exact key _ _
    | requestStream v => exact key _ _
    | requestChannel v => exact key _ _
    | payload v => exact key _ _
    | error v => exact no _
    | lease v => exact no _
    | keepalive v => exact no _
    | requestN v => exact no _
    | cancel v => exact no _
    | metadataPush v => exact no _
    | resume v => exact no _
    | resumeOk v => exact no _

/-- **C04**, sequences: encoding frames one after the other into a buffer gives the
concatenation of their encodings. -/
theorem C04_encode_many (fs : List Frame) (bs : List Bytes)
    (h : fs.map Frame.toBytes = bs.map Outcome.ok) (buf : Bytes) :
    fs.foldlM (fun buf f => f.encode buf) buf = Outcome.ok (buf ++ bs.flatten) := by
  induction fs generalizing bs buf with
  | nil =>
    cases bs with
    | nil => simp
    | cons b bs => cases h
  | cons f fs ih =>
    cases bs with
    | nil => cases h
    | cons b bs =>
      simp only [List.map_cons, List.cons.injEq] at h
      rw [List.foldlM_cons, (C04_encode_appends f buf).1 b h.1]
      rw [show (Outcome.ok (buf ++ b) >>= fun s' => fs.foldlM (fun buf f => f.encode buf) s') =
        fs.foldlM (fun buf f => f.encode buf) (buf ++ b) from rfl, ih bs h.2]
      simp

example : [Frame.setup sampleSetup, .requestFnf sampleFnf].map Frame.toBytes =
    [layout 16 (.setup sampleSetup), layout 16 (.requestFnf sampleFnf)].map Outcome.ok := by
  simp only [List.map, toBytes_wellFormed sampleSetup_wellFormed,
    toBytes_wellFormed sampleFnf_wellFormed]

/-- `encode` panics exactly when the metadata of a payload-carrying frame does not fit in its
24-bit length field. -/
theorem C04_encode_panics_iff (f : Frame) (buf : Bytes) :
    (∃ m, f.encode buf = .panic m) ↔ 2 ^ 24 ≤ metaLen f := encode_panic_iff f buf

example : ∃ f, 2 ^ 24 ≤ metaLen f :=
  ⟨.requestFnf { sampleFnf with payload := ⟨some (List.replicate (2 ^ 24) 0#8), none⟩ },
    by simp only [metaLen, payloadOf, optBytes, List.length_replicate]; exact Nat.le_refl _⟩

/-! ## C05 -/

/-- **C05** as stated is false: a header with frame type 0x3F makes `decode` panic. -/
theorem C05_no_panic_false : ∃ b m, decode b = .panic m :=
  ⟨[0, 0, 0, 0, 0xFC, 0], "not implemented", by decide⟩

/-- **C05**, what holds: `decode` panics exactly on inputs of at least six bytes with type 0x3F,
and always terminates. -/
theorem C05_no_panic_partial (b : Bytes) :
    ((∃ m, decode b = .panic m) ↔ 6 ≤ b.length ∧ typeOf b = 0x3F) ∧ decode b ≠ .diverge := by
  rcases decode_cases b with ⟨h, e⟩ | ⟨h, hk, h63, v, hv, e⟩ | ⟨h, hk, e⟩ |
    ⟨h, hc, h0, v, hv, e⟩ | ⟨h, hk, hc, hn, s, hs, e⟩ | ⟨h, hk, hn, hc, h0, v, hv, e⟩ |
    ⟨h, hk, hn, hc, h0, e⟩ | ⟨h, hk, hc, hn, hcode, f, s, hs, e⟩ <;>
  rw [e] <;> refine ⟨⟨?_, ?_⟩, fun h => nomatch h⟩ <;> try (rintro ⟨m, h⟩; cases h; done)
  · rintro ⟨h1, -⟩; omega
  · rintro ⟨-, h1⟩; exact absurd h1 h63
  · rintro -; exact ⟨h, hk⟩
  · rintro -; exact ⟨_, rfl⟩
  · rintro ⟨-, h1⟩; unfold ConnectionType at hc; omega
  · rintro ⟨-, h1⟩; unfold KnownType at hk; omega
  · rintro ⟨-, h1⟩; omega
  · rintro ⟨-, h1⟩; omega
  · rintro ⟨-, h1⟩; unfold KnownType at hk; omega

/-! ## C06 -/

/-- **C06.** A decoded frame can be encoded again, and decodes to itself. -/
theorem C06_reencode {b rest : Bytes} {f : Frame} (h : decode b = .ok f rest) :
    ∃ b', f.toBytes = .ok b' ∧ decode b' = .ok f [] := by
  have hp := decode_iff.1 h
  have hw := parses_wellFormed hp
  refine ⟨_, toBytes_wellFormed hw, ?_⟩
  have := decode_layout hw
  rwa [normalize_noEmpty (parses_noEmpty hp)] at this

-- input with a reserved bit set and a stray metadata flag: decodes, and re-encodes differently
example : decode [0x80, 0, 0, 3, 0x15, 0x0F, 0, 0, 0, 7] =
    .ok (.requestFnf ⟨3#32, ⟨0x100#16⟩, ⟨none, some [7#8]⟩⟩) [] := by decide

/-! ## C08 -/

/-- **C08** as stated is false: the flags are not at the bit positions of the diagrams (weights
0x200 .. 0x20). -/
theorem C08_layout_false : ¬ ∀ f : Frame, WellFormed f → f.toBytes = .ok (layout 32 f) := by
  intro h
  have := h _ sampleFnf_wellFormed
  revert this
  decide

/-- **C08**, what holds: every frame whose flag word is a legal `Flags` value and whose metadata
fits is encoded as in the diagrams, with the five flags one bit lower (weights 0x100 .. 0x10). -/
theorem C08_layout_partial {f : Frame} (hf : FrameFlagsOk f) (hm : metaLen f < 2 ^ 24) :
    f.toBytes = .ok (layout 16 f) := by
  rw [Frame.toBytes, encode_layout hf hm]; rfl

example : FrameFlagsOk (.setup sampleSetup) ∧ metaLen (.setup sampleSetup) < 2 ^ 24 ∧
    layout 16 (.requestFnf sampleFnf) = [0, 0, 0, 3, 0x14, 0xC0, 0, 0, 1, 3, 4, 5] :=
  ⟨wellFormed_flags sampleSetup_wellFormed, by decide, by decide⟩

/-! ## C09 -/

/-- What a caller sees of a decode result: the frame or the error, the panic. -/
inductive Same : Res Bytes Frame → Res Bytes Frame → Prop
  | ok (f rest) : Same (.ok f rest) (.ok f rest)
  | err (e s s') : s.length = s'.length → Same (.err e s) (.err e s')
  | panic (m) : Same (.panic m) (.panic m)

/-- **C09.** Changing reserved bits changes neither the decoded frame, nor the unread bytes after
it, nor the error. -/
theorem C09_reserved_bits {b b' : Bytes} (h : AgreeExceptReserved b b') :
    Same (decode b) (decode b') ∨
      ∃ s s', decode b = .err .inComplete s ∧ decode b' = .err .inComplete s' := by
  have hl : b.length = b'.length := h.1
  by_cases h6 : b.length < 6
  · right
    exact ⟨b, b', decode_short h6, decode_short (by omega)⟩
  have h6' := Nat.not_lt.1 h6
  obtain ⟨ht, hs⟩ := agree_header h h6'
  have hsym := agree_reserved_symm h h6'
  have len_drop : ∀ n, (b.drop n).length = (b'.drop n).length := by
    intro n; rw [List.length_drop, List.length_drop, hl]
  rcases decode_cases b with ⟨_, e⟩ | ⟨_, hk, h63, v, hv, e⟩ | ⟨_, hk, e⟩ |
    ⟨_, hc, h0, v, hv, e⟩ | ⟨_, hk, hc, hn, s, _, e⟩ | ⟨_, hk, hn, hc, h0, v, hv, e⟩ |
    ⟨_, hk, hn, hc, h0, e⟩ | ⟨_, hk, hc, hn, hcode, f, s, _, e⟩
  · omega
  · left
    rcases decode_cases b' with ⟨_, e'⟩ | ⟨_, hk', h63', v', hv', e'⟩ | ⟨_, hk', e'⟩ |
      ⟨_, hc', h0', v', hv', e'⟩ | ⟨_, hk', hc', hn', s', _, e'⟩ |
      ⟨_, hk', hn', hc', h0', v', hv', e'⟩ | ⟨_, hk', hn', hc', h0', e'⟩ |
      ⟨_, hk', hc', hn', hcode', f', s', _, e'⟩ <;> rw [ht] at *
    · omega
    · have : v = v' := BitVec.eq_of_toNat_eq (by rw [hv, hv'])
      subst this
      rw [e, e']; exact .err _ _ _ (len_drop 6)
    · exact absurd hk' h63
    · unfold ConnectionType at hc'; unfold KnownType at hk; omega
    · exact absurd hk' hk
    · unfold KnownType at hk; omega
    · unfold KnownType at hk; omega
    · exact absurd hk' hk
  · left
    rcases decode_cases b' with ⟨_, e'⟩ | ⟨_, hk', h63', v', hv', e'⟩ | ⟨_, hk', e'⟩ |
      ⟨_, hc', h0', v', hv', e'⟩ | ⟨_, hk', hc', hn', s', _, e'⟩ |
      ⟨_, hk', hn', hc', h0', v', hv', e'⟩ | ⟨_, hk', hn', hc', h0', e'⟩ |
      ⟨_, hk', hc', hn', hcode', f', s', _, e'⟩ <;> rw [ht] at *
    · omega
    · exact absurd hk h63'
    · rw [e, e']; exact .panic _
    · unfold ConnectionType at hc'; omega
    · unfold KnownType at hk'; omega
    · omega
    · omega
    · unfold KnownType at hk'; omega
  · left
    rcases decode_cases b' with ⟨_, e'⟩ | ⟨_, hk', h63', v', hv', e'⟩ | ⟨_, hk', e'⟩ |
      ⟨_, hc', h0', v', hv', e'⟩ | ⟨_, hk', hc', hn', s', _, e'⟩ |
      ⟨_, hk', hn', hc', h0', v', hv', e'⟩ | ⟨_, hk', hn', hc', h0', e'⟩ |
      ⟨_, hk', hc', hn', hcode', f', s', _, e'⟩ <;> rw [ht] at * <;> try rw [hs] at *
    · omega
    · unfold ConnectionType at hc; unfold KnownType at hk'; omega
    · unfold ConnectionType at hc; omega
    · have : v = v' := BitVec.eq_of_toNat_eq (by rw [hv, hv'])
      subst this
      rw [e, e']; exact .err _ _ _ (len_drop 6)
    · exact absurd (hc' hc) h0
    · unfold ConnectionType at hc; omega
    · unfold ConnectionType at hc; omega
    · exact absurd (hc' hc) h0
  · right
    rcases decode_cases b' with ⟨_, e'⟩ | ⟨_, hk', h63', v', hv', e'⟩ | ⟨_, hk', e'⟩ |
      ⟨_, hc', h0', v', hv', e'⟩ | ⟨_, hk', hc', hn', s', _, e'⟩ |
      ⟨_, hk', hn', hc', h0', v', hv', e'⟩ | ⟨_, hk', hn', hc', h0', e'⟩ |
      ⟨_, hk', hc', hn', hcode', f', s', _, e'⟩
    · omega
    · rw [ht] at hk'; exact absurd hk hk'
    · rw [ht] at hk'; unfold KnownType at hk; omega
    · rw [ht] at hc'; rw [hs] at h0'; exact absurd (hc hc') h0'
    · exact ⟨_, _, e, e'⟩
    · rw [ht] at hk'
      rw [need, hk'] at hn; rw [need, ht, hk'] at hn'
      simp only [bodyNeed] at hn hn'; omega
    · rw [ht] at hk'
      rw [need, hk'] at hn; rw [need, ht, hk'] at hn'
      simp only [bodyNeed] at hn hn'; omega
    · have : decode b = _ := decode_iff.2 (parses_agree (decode_iff.1 e') hsym)
      rw [e] at this; cases this
  · left
    have hcode := codeOf_agree h hk
    rcases decode_cases b' with ⟨_, e'⟩ | ⟨_, hk', h63', v', hv', e'⟩ | ⟨_, hk', e'⟩ |
      ⟨_, hc', h0', v', hv', e'⟩ | ⟨_, hk', hc', hn', s', _, e'⟩ |
      ⟨_, hk', hn', hc', h0', v', hv', e'⟩ | ⟨_, hk', hn', hc', h0', e'⟩ |
      ⟨_, hk', hc', hn', hcode', f', s', _, e'⟩
    · omega
    · rw [ht] at hk'; unfold KnownType at hk'; omega
    · rw [ht] at hk'; omega
    · rw [ht] at hc'; unfold ConnectionType at hc'; omega
    · rw [need, hk] at hn; rw [need, ht, hk] at hn'
      simp only [bodyNeed] at hn hn'; omega
    · have : v = v' := BitVec.eq_of_toNat_eq (by rw [hv, hv', hs])
      subst this
      rw [e, e']; exact .err _ _ _ (len_drop 10)
    · rw [hs] at h0'; exact absurd h0' h0
    · rw [ht] at hcode'; rw [hcode, hs] at hcode'
      exact absurd ((hcode' hk).1 hc) h0
  · left
    have hcode := codeOf_agree h hk
    rcases decode_cases b' with ⟨_, e'⟩ | ⟨_, hk', h63', v', hv', e'⟩ | ⟨_, hk', e'⟩ |
      ⟨_, hc', h0', v', hv', e'⟩ | ⟨_, hk', hc', hn', s', _, e'⟩ |
      ⟨_, hk', hn', hc', h0', v', hv', e'⟩ | ⟨_, hk', hn', hc', h0', e'⟩ |
      ⟨_, hk', hc', hn', hcode', f', s', _, e'⟩
    · omega
    · rw [ht] at hk'; unfold KnownType at hk'; omega
    · rw [ht] at hk'; omega
    · rw [ht] at hc'; unfold ConnectionType at hc'; omega
    · rw [need, hk] at hn; rw [need, ht, hk] at hn'
      simp only [bodyNeed] at hn hn'; omega
    · rw [hs] at h0'; exact absurd h0 h0'
    · rw [e, e']; exact .err _ _ _ (len_drop 10)
    · rw [ht] at hcode'; rw [hcode, hs] at hcode'
      exact absurd h0 ((hcode' hk).2 hc)
  · left
    have := decode_iff.2 (parses_agree (decode_iff.1 e) h)
    rw [show decode b' = _ from this, e]; exact .ok _ _

-- REQUEST_N with all reserved bits (stream id, word bit 9, low nibble, request n) flipped
example : AgreeExceptReserved [0x00, 0, 0, 3, 0x20, 0x00, 0x00, 0, 0, 7]
    [0x80, 0, 0, 3, 0x22, 0x0F, 0x80, 0, 0, 7] := by
  refine ⟨rfl, fun i => ?_⟩
  match i with
  | 0 | 1 | 2 | 3 | 4 | 5 | 6 | 7 | 8 | 9 => decide
  | n + 10 => simp

/-! ## C10 -/

/-- **C10.** A connection-level frame on a non-zero stream is rejected whatever follows the
header; an accepted one was on stream 0. -/
theorem C10_connection_frames (b : Bytes) (h6 : 6 ≤ b.length) (hc : ConnectionType (typeOf b)) :
    (streamIdOf b ≠ 0 →
      decode b = .err (.invalidStreamId "0" (BitVec.ofNat 32 (streamIdOf b))) (b.drop 6)) ∧
    (∀ f rest, decode b = .ok f rest → streamIdOf b = 0 ∧ ConnectionType (typeNumber f)) := by
  constructor
  · intro h0
    rcases decode_cases b with ⟨h, e⟩ | ⟨h, hk, h63, v, hv, e⟩ | ⟨h, hk, e⟩ |
      ⟨h, hc, h0, v, hv, e⟩ | ⟨h, hk, hc', hn, s, hs, e⟩ | ⟨h, hk, hn, hc', h0, v, hv, e⟩ |
      ⟨h, hk, hn, hc', h0, e⟩ | ⟨h, hk, hc', hn, hcode, f, s, hs, e⟩
    · omega
    · unfold ConnectionType at hc; unfold KnownType at hk; omega
    · unfold ConnectionType at hc; omega
    · rw [← hv, BitVec.ofNat_toNat, BitVec.setWidth_eq]; exact e
    · exact absurd (hc' hc) h0
    · unfold ConnectionType at hc; omega
    · unfold ConnectionType at hc; omega
    · exact absurd (hc' hc) h0
  · intro f rest h
    have ht := (parses_typeOf (decode_iff.1 h)).2
    refine ⟨?_, ht ▸ hc⟩
    obtain ⟨hd, body, sid, fl, rfl, hh, hb⟩ := decode_iff.1 h
    rw [(header_fields hh).2]
    rw [ht] at hc
    cases hb <;> first | rfl | (unfold ConnectionType at hc; simp [typeNumber] at hc)

example : 6 ≤ [0, 0, 0, 5, 0x0C, 0, 1, 2].length ∧
    ConnectionType (typeOf [0, 0, 0, 5, 0x0C, 0, 1, 2]) ∧
    streamIdOf [0, 0, 0, 5, 0x0C, 0, 1, 2] ≠ 0 := by decide

/-! ## C11 -/

/-- **C11.** A decoded ERROR frame has stream id 0 when its code is a setup/resume/connection
code and a non-zero stream id when it is one of the predefined stream codes. -/
theorem C11_error_accepted {b rest : Bytes} {f : ErrorFrame} (h : decode b = .ok (.error f) rest) :
    (ConnectionCode f.code.toNat → f.streamId = 0#32) ∧
    (StreamCode f.code.toNat → f.streamId ≠ 0#32) := by
  have hw := parses_wellFormed (decode_iff.1 h)
  refine ⟨fun hc => BitVec.eq_of_toNat_eq (hw.2.1 hc), fun hc h0 => hw.2.2 hc (by rw [h0]; rfl)⟩

/-- **C11**, the opposite combinations are rejected. -/
theorem C11_error_rejected (b : Bytes) (h10 : 10 ≤ b.length) (ht : typeOf b = 11) :
    (ConnectionCode (codeOf b) → streamIdOf b ≠ 0 →
      decode b = .err (.invalidStreamId "0" (BitVec.ofNat 32 (streamIdOf b))) (b.drop 10)) ∧
    (StreamCode (codeOf b) → streamIdOf b = 0 →
      decode b = .err (.invalidStreamId "> 0" 0#32) (b.drop 10)) ∧
    ((ConnectionCode (codeOf b) → streamIdOf b = 0) → (StreamCode (codeOf b) → streamIdOf b ≠ 0) →
      ∃ f, decode b = .ok (.error f) [] ∧ f.code.toNat = codeOf b ∧
        f.streamId.toNat = streamIdOf b) := by
  have disj : ConnectionCode (codeOf b) → ¬ StreamCode (codeOf b) := by
    unfold ConnectionCode StreamCode; omega
  rcases decode_cases b with ⟨h, e⟩ | ⟨h, hk, h63, v, hv, e⟩ | ⟨h, hk, e⟩ |
    ⟨h, hc, h0, v, hv, e⟩ | ⟨h, hk, hc', hn, s, hs, e⟩ | ⟨h, hk, hn, hc', h0, v, hv, e⟩ |
    ⟨h, hk, hn, hc', h0, e⟩ | ⟨h, hk, hc', hn, hcode, f, s, hs, e⟩
  · omega
  · unfold KnownType at hk; omega
  · omega
  · unfold ConnectionType at hc; omega
  · rw [need, ht] at hn; simp only [bodyNeed] at hn; omega
  · refine ⟨fun _ _ => ?_, fun h1 => absurd h1 (disj hc'), fun h1 => absurd (h1 hc') h0⟩
    rw [← hv, BitVec.ofNat_toNat, BitVec.setWidth_eq]; exact e
  · exact ⟨fun h1 => absurd hc' (disj h1), fun _ _ => e, fun _ h1 => absurd h0 (h1 hc')⟩
  · refine ⟨fun h1 h2 => absurd ((hcode ht).1 h1) h2, fun h1 h2 => absurd h2 ((hcode ht).2 h1),
      fun _ _ => ?_⟩
    obtain ⟨hd, body, sid, fl, rfl, hh, hb⟩ := decode_iff.1 e
    have htf := (header_fields (body := body) hh).1
    rw [ht] at htf
    have hsid := (header_fields (body := body) hh).2
    cases hb <;> first | (simp [typeNumber] at htf; done) | skip
    case error cb db f h2 h5 h1 h3 h4 _ _ =>
    refine ⟨f, e, ?_, by rw [hsid]; exact h1⟩
    rw [codeOf_append (header_six hh) h2.1, h2.2, Nat.mod_eq_of_lt]
    have := beVal_lt cb
    rwa [h2.1] at this

example : 10 ≤ [0, 0, 0, 5, 0x2C, 0, 0, 0, 1, 1].length ∧
    typeOf [0, 0, 0, 5, 0x2C, 0, 0, 0, 1, 1] = 11 ∧
    ConnectionCode (codeOf [0, 0, 0, 5, 0x2C, 0, 0, 0, 1, 1]) ∧
    streamIdOf [0, 0, 0, 5, 0x2C, 0, 0, 0, 1, 1] ≠ 0 := by decide
example : decode [0, 0, 0, 5, 0x2C, 0, 0, 0, 2, 1] = .ok (.error ⟨5#32, 0x201#32, none⟩) [] := by
  decide

/-! ## C12 -/

/-- **C12.** `UnrecognizedFrameType(t)` is returned exactly for headers with unknown type `t`. -/
theorem C12_unknown_type (b : Bytes) (v : U16) :
    (∃ s, decode b = .err (.unrecognizedFrameType v) s) ↔
      6 ≤ b.length ∧ v.toNat = typeOf b ∧ ¬ KnownType (typeOf b) ∧ typeOf b ≠ 0x3F := by
  rcases decode_cases b with ⟨h, e⟩ | ⟨h, hk, h63, v, hv, e⟩ | ⟨h, hk, e⟩ |
    ⟨h, hc, h0, v, hv, e⟩ | ⟨h, hk, hc', hn, s, hs, e⟩ | ⟨h, hk, hn, hc', h0, v, hv, e⟩ |
    ⟨h, hk, hn, hc', h0, e⟩ | ⟨h, hk, hc', hn, hcode, f, s, hs, e⟩ <;> rw [e] <;>
  refine ⟨?_, ?_⟩ <;> try (rintro ⟨s, h⟩; cases h; done)
  · rintro ⟨h, -⟩; omega
  · rintro ⟨s, h'⟩; cases h'; exact ⟨h, hv, hk, h63⟩
  · rintro ⟨-, h1, -⟩
    rename_i v'
    have : v' = v := BitVec.eq_of_toNat_eq (by rw [h1, hv])
    subst this
    exact ⟨_, rfl⟩
  · rintro ⟨-, -, -, h1⟩; exact absurd hk h1
  · rintro ⟨-, -, h1, -⟩; unfold ConnectionType at hc; unfold KnownType at h1; omega
  · rintro ⟨-, -, h1, -⟩; exact absurd hk h1
  · rintro ⟨-, -, h1, -⟩; unfold KnownType at h1; omega
  · rintro ⟨-, -, h1, -⟩; unfold KnownType at h1; omega
  · rintro ⟨-, -, h1, -⟩; exact absurd hk h1

example : decode [0, 0, 0, 1, 0x40, 0, 9] = .err (.unrecognizedFrameType 16#16) [9] := by decide

/-! ## C13 -/

/-- **C13.** `InComplete` is returned exactly when the header is not complete, or the header is
acceptable and the bytes end before the last field that must be there (`need`). -/
theorem C13_incomplete_iff (b : Bytes) :
    (∃ s, decode b = .err .inComplete s) ↔
      b.length < 6 ∨ (KnownType (typeOf b) ∧ (ConnectionType (typeOf b) → streamIdOf b = 0) ∧
        b.length < need b) := by
  rcases decode_cases b with ⟨h, e⟩ | ⟨h, hk, h63, v, hv, e⟩ | ⟨h, hk, e⟩ |
    ⟨h, hc, h0, v, hv, e⟩ | ⟨h, hk, hc', hn, s, hs, e⟩ | ⟨h, hk, hn, hc', h0, v, hv, e⟩ |
    ⟨h, hk, hn, hc', h0, e⟩ | ⟨h, hk, hc', hn, hcode, f, s, hs, e⟩ <;> rw [e] <;>
  refine ⟨?_, ?_⟩ <;> try (rintro ⟨s, h⟩; cases h; done)
  · rintro -; exact .inl h
  · rintro -; exact ⟨_, rfl⟩
  · rintro (h1 | ⟨h1, -⟩)
    · omega
    · exact absurd h1 hk
  · rintro (h1 | ⟨h1, -⟩)
    · omega
    · unfold KnownType at h1; omega
  · rintro (h1 | ⟨-, h1, -⟩)
    · omega
    · exact absurd (h1 hc) h0
  · rintro -; exact .inr ⟨hk, hc', hn⟩
  · rintro -; exact ⟨_, rfl⟩
  · rintro (h1 | ⟨-, -, h1⟩) <;> omega
  · rintro (h1 | ⟨-, -, h1⟩) <;> omega
  · rintro (h1 | ⟨-, -, h1⟩) <;> omega

-- REQUEST_FNF announcing 2 bytes of metadata with 1 present; and complete with 2
example : decode [0, 0, 0, 1, 0x14, 0, 0, 0, 2, 9] = .err .inComplete [9] ∧
    need [0, 0, 0, 1, 0x14, 0, 0, 0, 2, 9] = 11 ∧
    decode [0, 0, 0, 1, 0x14, 0, 0, 0, 2, 9, 9] =
      .ok (.requestFnf ⟨1#32, ⟨0#16⟩, ⟨some [9#8, 9#8], none⟩⟩) [] := by decide

/-! ## C14 -/

/-- **C14.** More bytes after a complete frame only extend its trailing byte field, or stay
unread when the frame has none. -/
theorem C14_extension {b rest : Bytes} {f : Frame} (h : decode b = .ok f rest) (s : Bytes) :
    decode (b ++ s) = .ok (extend s f) (extendRest f rest s) :=
  decode_iff.2 (parses_extend (decode_iff.1 h) s)

/-- **C14**, errors: more bytes do not change an error other than `InComplete`. -/
theorem C14_extension_error {b r : Bytes} {e : DecodeError} (h : decode b = .err e r)
    (he : e ≠ .inComplete) (s : Bytes) : decode (b ++ s) = .err e (r ++ s) := by
  have at6 : ∀ i, i < b.length → byteAt (b ++ s) i = byteAt b i := by
    intro i hi; unfold byteAt; rw [getD_append, if_pos hi]
  have drop : ∀ n, n ≤ b.length → (b ++ s).drop n = b.drop n ++ s := by
    intro n hn; rw [List.drop_append_of_le_length hn]
  have hl : b.length ≤ (b ++ s).length := by rw [List.length_append]; omega
  have ht : 6 ≤ b.length → typeOf (b ++ s) = typeOf b := by
    intro h6; unfold typeOf; rw [at6 4 (by omega)]
  have hs : 6 ≤ b.length → streamIdOf (b ++ s) = streamIdOf b := by
    intro h6; unfold streamIdOf
    rw [at6 0 (by omega), at6 1 (by omega), at6 2 (by omega), at6 3 (by omega)]
  have hcd : 10 ≤ b.length → codeOf (b ++ s) = codeOf b := by
    intro h6; unfold codeOf
    rw [at6 6 (by omega), at6 7 (by omega), at6 8 (by omega), at6 9 (by omega)]
  rcases decode_cases b with ⟨h6, e1⟩ | ⟨h6, hk, h63, v, hv, e1⟩ | ⟨h6, hk, e1⟩ |
    ⟨h6, hc, h0, v, hv, e1⟩ | ⟨h6, hk, hc', hn, s', hs', e1⟩ | ⟨h6, hk, hn, hc', h0, v, hv, e1⟩ |
    ⟨h6, hk, hn, hc', h0, e1⟩ | ⟨h6, hk, hc', hn, hcode, f, s', hs', e1⟩ <;>
  rw [show decode b = _ from e1] at h <;> cases h
  · exact absurd rfl he
  · obtain ⟨s', h'⟩ := (C12_unknown_type (b ++ s) v).2
      ⟨by omega, by rw [ht h6, hv], by rw [ht h6]; exact hk, by rw [ht h6]; exact h63⟩
    rw [h']
    congr 1
    rcases decode_cases (b ++ s) with ⟨_, e'⟩ | ⟨_, hk', h63', v', hv', e'⟩ | ⟨_, hk', e'⟩ |
      ⟨_, hc', h0', v', hv', e'⟩ | ⟨_, hk', hc', hn', s', _, e'⟩ |
      ⟨_, hk', hn', hc', h0', v', hv', e'⟩ | ⟨_, hk', hn', hc', h0', e'⟩ |
      ⟨_, hk', hc', hn', hcode', f', s', _, e'⟩ <;>
    rw [show decode (b ++ s) = _ from e'] at h' <;> cases h'
    exact drop 6 h6
  · rw [← drop 6 h6]
    have := (C10_connection_frames (b ++ s) (by omega) (by rw [ht h6]; exact hc)).1
      (by rw [hs h6]; exact h0)
    rw [this, hs h6, ← hv, BitVec.ofNat_toNat, BitVec.setWidth_eq]
  · exact absurd rfl he
  · have h10 : 10 ≤ b.length := by rw [need, hk] at hn; simp only [bodyNeed] at hn; omega
    rw [← drop 10 h10]
    have := (C11_error_rejected (b ++ s) (by omega) (by rw [ht h6]; exact hk)).1
      (by rw [hcd h10]; exact hc') (by rw [hs h6]; exact h0)
    rw [this, hs h6, ← hv, BitVec.ofNat_toNat, BitVec.setWidth_eq]
  · have h10 : 10 ≤ b.length := by rw [need, hk] at hn; simp only [bodyNeed] at hn; omega
    rw [← drop 10 h10]
    exact (C11_error_rejected (b ++ s) (by omega) (by rw [ht h6]; exact hk)).2.1
      (by rw [hcd h10]; exact hc') (by rw [hs h6]; exact h0)

example : decode [0, 0, 0, 3, 0x20, 0, 0, 0, 0, 7, 1] = .ok (.requestN ⟨3#32, 7#32⟩) [1] ∧
    decode ([0, 0, 0, 3, 0x20, 0, 0, 0, 0, 7, 1] ++ [2]) =
      .ok (.requestN ⟨3#32, 7#32⟩) [1, 2] := by decide

/-! ## C15 -/

/-- **C15.** `decode` takes bytes from the front only; on success it consumes exactly as many
bytes as the canonical encoding of the frame has, and everything unless the frame kind ends with
a fixed field. -/
theorem C15_consumes_front (b : Bytes) :
    (∀ f rest, decode b = .ok f rest →
      rest <:+ b ∧ b.length = (layout 16 f).length + rest.length ∧ (¬ FixedEnd f → rest = [])) ∧
    (∀ e rest, decode b = .err e rest → rest <:+ b) := by
  constructor
  · intro f rest h
    have hp := decode_iff.1 h
    refine ⟨?_, parses_length hp, fun hf => ?_⟩
    · rcases decode_cases b with ⟨h6, e1⟩ | ⟨h6, hk, h63, v, hv, e1⟩ | ⟨h6, hk, e1⟩ |
        ⟨h6, hc, h0, v, hv, e1⟩ | ⟨h6, hk, hc', hn, s', hs', e1⟩ |
        ⟨h6, hk, hn, hc', h0, v, hv, e1⟩ |
        ⟨h6, hk, hn, hc', h0, e1⟩ | ⟨h6, hk, hc', hn, hcode, f, s', hs', e1⟩ <;>
      rw [show decode b = _ from e1] at h <;> cases h
      exact hs'.trans (List.drop_suffix _ _)
    · obtain ⟨hd, body, sid, fl, rfl, hh, hb⟩ := hp
      exact body_rest_nil hb hf
  · intro e rest h
    rcases decode_cases b with ⟨h6, e1⟩ | ⟨h6, hk, h63, v, hv, e1⟩ | ⟨h6, hk, e1⟩ |
      ⟨h6, hc, h0, v, hv, e1⟩ | ⟨h6, hk, hc', hn, s', hs', e1⟩ |
      ⟨h6, hk, hn, hc', h0, v, hv, e1⟩ |
      ⟨h6, hk, hn, hc', h0, e1⟩ | ⟨h6, hk, hc', hn, hcode, f, s', hs', e1⟩ <;>
    rw [show decode b = _ from e1] at h <;> cases h
    · exact List.suffix_refl _
    · exact List.drop_suffix _ _
    · exact List.drop_suffix _ _
    · exact hs'.trans (List.drop_suffix _ _)
    · exact List.drop_suffix _ _
    · exact List.drop_suffix _ _

example : ∃ f rest, decode [0, 0, 0, 3, 0x24, 0, 1, 2] = .ok f rest ∧ rest = [1, 2] ∧
    FixedEnd f := ⟨.cancel ⟨3#32⟩, _, by decide, rfl, trivial⟩

/-! ## C16 -/

/-- **C16.** Well-formed frames with equal encodings are equal up to empty versus absent fields. -/
theorem C16_injective {f g : Frame} (hf : WellFormed f) (hg : WellFormed g)
    (h : f.toBytes = g.toBytes) :
    normalize f = normalize g ∧ (NoEmpty f → NoEmpty g → f = g) := by
  rw [toBytes_wellFormed hf, toBytes_wellFormed hg] at h
  simp only [Outcome.ok.injEq] at h
  have h1 := decode_layout hf
  rw [h, decode_layout hg] at h1
  simp only [Res.ok.injEq, and_true] at h1
  refine ⟨h1.symm, fun n1 n2 => ?_⟩
  rw [normalize_noEmpty n1, normalize_noEmpty n2] at h1
  exact h1.symm

example : WellFormed (.lease ⟨1#32, 2#32, none⟩) ∧
    WellFormed (.requestFnf ⟨1#32, Flags.empty, ⟨some [], none⟩⟩) ∧
    Frame.toBytes (.requestFnf ⟨1#32, Flags.empty, ⟨some [], none⟩⟩) =
      Frame.toBytes (.requestFnf ⟨1#32, Flags.empty, ⟨none, some []⟩⟩) :=
  ⟨⟨by decide, by decide⟩, ⟨by decide, by decide, by decide⟩, by decide⟩

/-! ## C56 -/

/-- **C56.** `decode` accepts exactly the declarative grammar. -/
theorem C56_grammar (b rest : Bytes) (f : Frame) :
    decode b = .ok f rest ↔ Parses b f rest := decode_iff

example : Parses (layout 16 (.setup sampleSetup)) (.setup sampleSetup) [] :=
  layout_parses sampleSetup_wellFormed

/-! ## C58 -/

/-- **C58** as stated is false. -/
theorem C58_retry_false : ¬ ∀ (b b' s rest : Bytes) (f : Frame),
    decode b = .err .inComplete b' → decode (b ++ s) = .ok f rest →
    decode (b' ++ s) = .ok f rest := by
  intro h
  have := h [0, 0, 0, 1, 0x20, 0, 0, 0] [0, 0] [0, 5] [] (.requestN ⟨1#32, 5#32⟩)
    (by decide) (by decide)
  revert this
  decide

/-- **C58**, what holds: with fewer than six bytes nothing is consumed, so the call can be
retried. -/
theorem C58_retry_partial {b b' : Bytes} (h : decode b = .err .inComplete b') (h6 : b.length < 6)
    (s : Bytes) : decode (b' ++ s) = decode (b ++ s) := by
  rw [show decode b = _ from decode_short h6] at h
  cases h; rfl

/-- **C58**, the failure is systematic: with six or more bytes a retry on the same buffer never
gives the frame. -/
theorem C58_retry_never {b b' : Bytes} (h : decode b = .err .inComplete b') (h6 : 6 ≤ b.length)
    (s : Bytes) {f : Frame} {rest : Bytes} (hf : decode (b ++ s) = .ok f rest) :
    decode (b' ++ s) ≠ .ok f rest := by
  intro h'
  have l1 := parses_length (decode_iff.1 hf)
  have l2 := parses_length (decode_iff.1 h')
  rw [List.length_append] at l1 l2
  have : b'.length ≤ b.length - 6 := by
    rcases decode_cases b with ⟨h6, e1⟩ | ⟨h6, hk, h63, v, hv, e1⟩ | ⟨h6, hk, e1⟩ |
      ⟨h6, hc, h0, v, hv, e1⟩ | ⟨h6, hk, hc', hn, s', hs', e1⟩ |
      ⟨h6, hk, hn, hc', h0, v, hv, e1⟩ |
      ⟨h6, hk, hn, hc', h0, e1⟩ | ⟨h6, hk, hc', hn, hcode, f, s', hs', e1⟩ <;>
    rw [show decode b = _ from e1] at h <;> cases h
    · omega
    · have := hs'.length_le
      rw [List.length_drop] at this
      exact this
  omega

example : decode [0, 0, 0, 1, 0x20] = .err .inComplete [0, 0, 0, 1, 0x20] ∧
    decode [0, 0, 0, 1, 0x20, 0, 0] = .err .inComplete [0] ∧
    decode ([0, 0, 0, 1, 0x20, 0, 0] ++ [0, 0, 5]) = .ok (.requestN ⟨1#32, 5#32⟩) [] := by decide

end Binate
