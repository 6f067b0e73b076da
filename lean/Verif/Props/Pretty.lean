import Verif.Lemmas.Pretty
import Verif.Lemmas.Constructors
import Verif.Props.Debug

/-! # `Debug` output with `{:#?}`, and of the other types

C95 and C96. -/

namespace Binate

open Spec

/-- **C95**: with `{:#?}` every field of a frame is on its own line, indented by its depth, with the
same words as in the short form. -/
theorem C95_lines (f : Frame) : f.debugPretty = ofLines (frameLines f) := by
  rw [Frame.debugPretty, ofLines_pretty (good_frame f), lines_frame]

/-- **C95**: the long form is the short one with line breaks and indentation. The exception are flag
bits without a name, which no frame has that is built or decoded (`C95_named`). -/
theorem C95_same {f : Frame} (h : FrameFlagsOk f) : oneLine f.debugPretty = f.debug := by
  rw [Frame.debugPretty, oneLine_pretty (good_frame f) (same_frame h), plain_frame, Frame.debug]

/-- **C95**: a frame that a constructor or a builder returns has only flag bits with a name, and so
has one that the decoder returns. -/
theorem C95_named (f : Frame) :
    (∀ dbg, Built dbg f → FrameFlagsOk f) ∧
    (∀ b rest : Bytes, (Frame.decode : Dec Bytes Frame) b = .ok f rest → FrameFlagsOk f) :=
  ⟨fun _ h => built_flags h, fun _ _ h => wellFormed_flags (parses_wellFormed (decode_iff.1 h))⟩

/-- **C95**: two frames have the same long text only if they are the same frame. -/
theorem C95_injective {f g : Frame} (hf : FrameFlagsOk f) (hg : FrameFlagsOk g) :
    f.debugPretty = g.debugPretty ↔ f = g := by
  refine ⟨fun h => (C86_injective f g).1 ?_, fun h => by rw [h]⟩
  rw [← C95_same hf, ← C95_same hg, h]

/-- **C95**: apart from line breaks, the long text is printable ASCII, whatever the bytes of the frame
are. -/
theorem C95_printable (f : Frame) :
    ∀ c ∈ f.debugPretty.toList, c = '\n' ∨ 0x20 ≤ c.toNat ∧ c.toNat ≤ 0x7E := by
  intro c hc
  rw [Frame.debugPretty, String.toList_ofList] at hc
  exact (chars_pretty (good_frame f) c hc).imp id fun h => ⟨h.1, Nat.le_of_lt_succ h.2⟩

/-- **C95**: the number of line breaks follows from the kind of the frame and from which of its
optional parts are there; no content adds a line. -/
theorem C95_breaks (f : Frame) : f.debugPretty.toList.count '\n' = frameBreaks f := by
  have h1 := count_pretty (good_frame f)
  have h2 := length_frame f
  rw [lines_frame] at h1
  rw [Frame.debugPretty, String.toList_ofList]
  omega

/-- Non-vacuity: a payload with a quote and a line break. Bits without a name get two prefixes. -/
example : (Frame.payload ⟨5#32, ⟨0x20#16⟩, ⟨some [0x22#8, 0x0A#8], none⟩⟩).debugPretty =
      "Payload(\n    PayloadFrame {\n        stream_id: 5,\n        flags: COMPLETE | LEASE,\n" ++
      "        payload: Payload {\n            metadata: Some(\n" ++
      "                b\"\\\"\\n\",\n            ),\n            data: None,\n        },\n    },\n)" ∧
    oneLine "Cancel(\n    CancelFrame {\n        stream_id: 7,\n    },\n)" =
      "Cancel(CancelFrame { stream_id: 7 })" ∧
    shownFlagsAlternate 0x8010 = "NEXT | 0x0x8000" ∧ shownFlags 0x8010 = "NEXT | 0x8000" ∧
    FrameFlagsOk (.cancel ⟨7#32⟩) ∧
    FrameFlagsOk (.payload ⟨5#32, ⟨0x20#16⟩, ⟨some [0x22#8, 0x0A#8], none⟩⟩) := by
  refine ⟨by decide +kernel, by decide +kernel, by decide +kernel, by decide +kernel,
    (fun _ h => nomatch h), ?_⟩
  intro fl h
  cases h
  decide

/-- **C96**, values that also occur in frames: the long form. -/
theorem C96_values (v : Version) (u : U24) (p : Payload) :
    Shows v.debugTree.forms (versionLines v) ∧
    Shows u.debugTree.forms (wrappedAll "U24" [number u.hi.toNat, number u.lo.toNat]) ∧
    Shows p.debugTree.forms (payloadLines p) := by
  refine ⟨shows_tree (good_Version v) (same_Version v) (lines_version v), ?_,
    shows_tree (good_Payload p) (same_Payload p) (lines_payload p)⟩
  refine shows_tree (good_tuples (goodText_of (by decide) (by decide)) ?_) (same_tuples ?_) ?_
  · intro t ht
    simp only [List.mem_cons, List.not_mem_nil, or_false] at ht
    rcases ht with rfl | rfl <;> exact good_number _
  · intro t ht
    simp only [List.mem_cons, List.not_mem_nil, or_false] at ht
    rcases ht with rfl | rfl <;> rfl
  · exact (lines_tuples "U24" _ (List.cons_ne_nil _ _)).trans
      (by rw [List.map_cons, List.map_cons, List.map_nil, lines_number, lines_number])

/-- **C96**, the payload builder: it shows the payload it has so far. -/
theorem C96_payloadBuilder (p : Payload) :
    Shows (PayloadBuilder.debugTree p).forms (wrapped "PayloadBuilder" (payloadLines p)) :=
  shows_tree (good_tuple (goodText_of (by decide) (by decide)) (good_Payload p))
    (same_tuple (same_Payload p)) (by rw [PayloadBuilder.debugTree, lines_tuple, lines_payload])

/-- **C96**, the chunks of a payload: the size and what is left. -/
theorem C96_chunks (c : PayloadChunks) :
    Shows c.debugTree.forms (record "PayloadChunks" [("chunk_size", number c.chunkSize),
      ("metadata", optionLines c.metadata), ("data", optionLines c.data)]) := by
  refine shows_tree (good_struct (goodText_of (by decide) (by decide)) ?_) (same_struct ?_) ?_
  · intro f hf
    simp only [List.mem_cons, List.not_mem_nil, or_false] at hf
    rcases hf with rfl | rfl | rfl
    · exact ⟨goodText_of (by dsimp only; decide) (by dsimp only; decide), good_number _⟩
    · exact ⟨goodText_of (by dsimp only; decide) (by dsimp only; decide), good_option _⟩
    · exact ⟨goodText_of (by dsimp only; decide) (by dsimp only; decide), good_option _⟩
  · intro f hf
    simp only [List.mem_cons, List.not_mem_nil, or_false] at hf
    rcases hf with rfl | rfl | rfl
    · exact same_same _
    · exact same_option _
    · exact same_option _
  · have := lines_struct "PayloadChunks" [("chunk_size", debugNumber c.chunkSize),
      ("metadata", debugOptionTree c.metadata), ("data", debugOptionTree c.data)]
      (List.cons_ne_nil _ _)
    simp only [List.map_cons, List.map_nil, lines_number, lines_option] at this
    exact this

/-- **C96**, the SETUP builder after any sequence of calls: it shows what the frame built from it would
hold. -/
theorem C96_setupBuilder {dbg : Bool} {calls : List SetupCall} {b : SetupFrame}
    (h : SetupFrameBuilder.build dbg calls = .ok b) :
    Shows (SetupFrameBuilder.debugTree b).forms (record "SetupFrameBuilder"
      [("flags", word (shownFlags b.flags.bits.toNat)), ("version", versionLines b.version),
       ("keepalive_interval", number b.keepaliveInterval.toNat),
       ("keepalive_timeout", number b.keepaliveTimeout.toNat),
       ("resume_token", optionLines b.resumeToken),
       ("metadata_mimetype", word (shownBytes b.metadataMimetype)),
       ("data_mimetype", word (shownBytes b.dataMimetype)),
       ("payload", payloadLines b.payload)]) := by
  have hfl := (setupInv_build h).1
  refine shows_tree (good_struct (goodText_of (by decide) (by decide)) ?_) (same_struct ?_) ?_
  · intro f hf
    simp only [List.mem_cons, List.not_mem_nil, or_false] at hf
    rcases hf with rfl | rfl | rfl | rfl | rfl | rfl | rfl | rfl <;>
      refine ⟨goodText_of (by dsimp only; decide) (by dsimp only; decide), ?_⟩
    · exact good_flags _
    · exact good_Version _
    · exact good_number _
    · exact good_number _
    · exact good_option _
    · exact good_bytes _
    · exact good_bytes _
    · exact good_Payload _
  · intro f hf
    simp only [List.mem_cons, List.not_mem_nil, or_false] at hf
    rcases hf with rfl | rfl | rfl | rfl | rfl | rfl | rfl | rfl
    · exact same_flags hfl
    · exact same_Version _
    · exact same_same _
    · exact same_same _
    · exact same_option _
    · exact same_same _
    · exact same_same _
    · exact same_Payload _
  · have := lines_struct "SetupFrameBuilder"
      [("flags", b.flags.debugTree), ("version", b.version.debugTree),
       ("keepalive_interval", debugNumber b.keepaliveInterval.toNat),
       ("keepalive_timeout", debugNumber b.keepaliveTimeout.toNat),
       ("resume_token", debugOptionTree b.resumeToken),
       ("metadata_mimetype", .same (debugBytes b.metadataMimetype)),
       ("data_mimetype", .same (debugBytes b.dataMimetype)), ("payload", b.payload.debugTree)]
      (List.cons_ne_nil _ _)
    simp only [List.map_cons, List.map_nil, lines_number, lines_option, lines_bytes, lines_flags,
      lines_version, lines_payload] at this
    have e : shownFlags b.flags.bits.toNat = shownFlagsAlternate b.flags.bits.toNat := by
      have hs : b.flags.debugText = b.flags.debugAlternate := same_flags hfl
      rw [debug_flags, flags_alternate] at hs
      exact String.toList_inj.1 hs
    rw [e]
    exact this

/-- **C96**, the request counter: it shows what `load` returns, as a signed number. -/
theorem C96_counter (c : RequestCounter) :
    Shows c.debugTree.forms (wrapped "RequestCounter" (word (toString c.load))) :=
  shows_int "RequestCounter" (goodText_of (by decide) (by decide)) c.word.toInt

/-- **C96**, the provider of stream ids: it shows a signed 32-bit number, and its lowest 31 bits are
the next candidate. -/
theorem C96_streamIds (p : StreamIdProvider) :
    ∃ n : Int, Shows p.debugTree.forms (wrapped "StreamIdProvider" (word (toString n))) ∧
      -(2 ^ 31) ≤ n ∧ n < 2 ^ 31 ∧ n % 2 ^ 31 = p.draw.1.toNat := by
  refine ⟨p.word.toInt, shows_int "StreamIdProvider" (goodText_of (by decide) (by decide)) _,
    BitVec.le_toInt _, BitVec.toInt_lt, ?_⟩
  have e : p.draw.1.toNat = p.word.toNat % 2 ^ 31 := by
    show (p.word &&& 0x7FFFFFFF#32).toNat = _
    rw [BitVec.toNat_and]
    exact Nat.and_two_pow_sub_one_eq_mod _ 31
  rw [e, BitVec.toInt_eq_toNat_cond]
  have := p.word.isLt
  split <;> omega

/-- **C96**: what the provider shows after `k` draws: the first id plus `2 * k`, as a number of 32 bits
with sign. From `2 ^ 30` draws on it is negative at times, although ids are not. -/
theorem C96_streamIds_after (k : Nat) (client : Bool) :
    let p := (fun q : StreamIdProvider => q.draw.2)^[k]
      (if client then StreamIdProvider.newForClient else StreamIdProvider.newForServer)
    ∃ n : Int, Shows p.debugTree.forms (wrapped "StreamIdProvider" (word (toString n))) ∧
      -(2 ^ 31) ≤ n ∧ n < 2 ^ 31 ∧ n % 2 ^ 32 = ((if client then 1 else 2) + 2 * k : Int) % 2 ^ 32 := by
  intro p
  refine ⟨p.word.toInt, shows_int "StreamIdProvider" (goodText_of (by decide) (by decide)) _,
    BitVec.le_toInt _, BitVec.toInt_lt, ?_⟩
  have e : p.word.toNat = ((if client then 1 else 2) + 2 * k) % 2 ^ 32 := by
    show ((fun q : StreamIdProvider => q.draw.2)^[k] _).word.toNat = _
    induction k with
    | zero => cases client <;> rfl
    | succ k ih =>
      rw [Function.iterate_succ_apply']
      show (_ + 2#32 : U32).toNat = _
      rw [BitVec.toNat_add, ih]
      simp only [BitVec.toNat_ofNat]
      omega
  rw [BitVec.toInt_eq_toNat_cond]
  have := p.word.isLt
  cases client <;> simp only [Bool.false_eq_true, if_true, if_false] at e ⊢ <;> split <;> omega

/-- **C96**, the error that the keepalive watchdog reports shows its name only, in both forms. -/
theorem C96_timeout : Timeout.debugTree.forms = ("Timeout", "Timeout") := by
  rw [Timeout.debugTree, DebugTree.forms, DebugTree.same, DebugTree.plain, DebugTree.pretty,
    String.ofList_toList]

/-- **C96**, frame types: the name that the protocol has for the number, in both forms, and another
one for each type. -/
theorem C96_frameType (t : FrameType) :
    (∀ name, t.debugTree.forms = (name, name) ↔ (t.value.toNat, name) ∈ frameTypeNames) ∧
    ∀ u : FrameType, t.debugTree.forms = u.debugTree.forms → t = u := by
  have h : ∀ s : String, (DebugTree.same s.toList).forms = (s, s) := by
    intro s
    rw [DebugTree.forms, DebugTree.same, DebugTree.plain, DebugTree.pretty, String.ofList_toList]
  have e : ∀ t : FrameType, ∃ s, t.debugTree.forms = (s, s) ∧
      frameTypeNames.filter (·.1 == t.value.toNat) = [(t.value.toNat, s)] := by
    intro t
    cases t <;> exact ⟨_, h _, rfl⟩
  have iff : ∀ t : FrameType, ∀ name, t.debugTree.forms = (name, name) ↔
      (t.value.toNat, name) ∈ frameTypeNames := by
    intro t name
    obtain ⟨s, h1, h2⟩ := e t
    have : (t.value.toNat, name) ∈ frameTypeNames ↔
        (t.value.toNat, name) ∈ frameTypeNames.filter (·.1 == t.value.toNat) := by
      rw [List.mem_filter]
      exact ⟨fun h => ⟨h, beq_self_eq_true _⟩, fun h => h.1⟩
    rw [this, h2, List.mem_singleton, h1]
    constructor
    · intro h
      rw [(Prod.mk.inj h).1]
    · intro h
      rw [(Prod.mk.inj h).2]
  refine ⟨iff t, ?_⟩
  intro u hu
  obtain ⟨s, h1, -⟩ := e t
  have m1 := (iff t s).1 h1
  have m2 := (iff u s).1 (hu ▸ h1)
  have key : ∀ x ∈ frameTypeNames, ∀ y ∈ frameTypeNames, x.2 = y.2 → x.1 = y.1 := by decide
  have := key _ m1 _ m2 rfl
  have inj : ∀ t u : FrameType, t.value.toNat = u.value.toNat → t = u := by
    intro t u
    cases t <;> cases u <;> decide
  exact inj t u this

/-- **C96**, the status of a connection. The message of an error is shown as `Debug` of strings writes
it, of which only that it has no line break is used. -/
theorem C96_status (d : String → Text) (s : RSocketMachine.ConnectionStatus)
    (hd : ∀ msg, '\n' ∉ d msg) :
    (s.debugTree d).forms = match s with
    | .unconnected => ("Unconnected", "Unconnected")
    | .connecting => ("Connecting", "Connecting")
    | .connected => ("Connected", "Connected")
    | .closed => ("Closed", "Closed")
    | .error msg =>
      ("Error(" ++ String.ofList (d msg) ++ ")", "Error(\n    " ++ String.ofList (d msg) ++ ",\n)") := by
  have h : ∀ s : String, (DebugTree.same s.toList).forms = (s, s) := by
    intro s
    rw [DebugTree.forms, DebugTree.same, DebugTree.plain, DebugTree.pretty, String.ofList_toList]
  cases s with
  | error msg =>
    have hm := hd msg
    have hp : padAdapter true (d msg ++ ",\n".toList) = "    ".toList ++ (d msg ++ ",\n".toList) := by
      have := pad_begin (t := d msg ++ [',']) [] (by simpa using hm)
      simpa [padAdapter] using this
    show (DebugTree.tuple "Error".toList [.same (d msg)]).forms = _
    rw [DebugTree.forms, plain_tuple, plain_same, debugVariant, DebugTree.tuple, List.foldr_cons,
      List.foldr_nil, DebugTree.pretty, DebugFields.pretty, DebugFields.pretty, DebugTree.same,
      DebugTree.pretty, List.nil_append, hp]
    refine Prod.ext ?_ ?_
    · rw [← String.toList_inj]
      simp only [String.toList_ofList, String.toList_append]
      rfl
    · rw [← String.toList_inj]
      simp only [String.toList_ofList, String.toList_append]
      simp
  | _ => exact h _

/-- **C96**, decode errors. -/
theorem C96_decodeError {e : DecodeError}
    (h : ∀ x n, e = .invalidStreamId x n → PrintableAscii x) :
    Shows e.debugTree.forms (decodeErrorLines e) ∧ e.debugTree.forms.1 = e.debug :=
  ⟨shows_tree (good_DecodeError h) (same_DecodeError e) (lines_DecodeError e), plain_DecodeError e⟩

/-- **C96**, errors: the kind, and the source if there is one. In the short form for any source; in the
long one for errors without a source and for those that come from the decoder. -/
theorem C96_error (e : Error) (d : String → DebugTree)
    (h : ∀ x n, e.kind = .decode (.invalidStreamId x n) → PrintableAscii x) :
    (e.debugTree d).forms.1 = e.debug (fun s => (d s).forms.1) ∧
    (e.source = none → (∀ x, e.kind ≠ .decode x) →
      Shows (e.debugTree d).forms (wrapped "binate::Error" (word e.kind.debug))) ∧
    (∀ x, e = Error.ofDecodeError x → (∀ s, d s = x.debugTree) → Shows (e.debugTree d).forms
      (wrappedAll "binate::Error" [wrapped "Decode" (decodeErrorLines x), decodeErrorLines x])) := by
  refine ⟨plain_Error d e, ?_, ?_⟩
  · intro hs hk
    have e1 : e.debugTree d = .tuple "binate::Error".toList [e.kind.debugTree] := by
      unfold Error.debugTree
      rw [hs]
    rw [e1]
    refine shows_tree (good_tuple (goodText_of (by decide) (by decide)) (good_Kind h))
      (same_tuple (same_Kind _)) ?_
    rw [lines_tuple, lines_Kind _ hk, lines_same]
  · rintro x rfl hd
    have hx : x.debugTree.Good := good_DecodeError fun y n hy => h y n (by rw [hy]; rfl)
    have e1 : (Error.ofDecodeError x).debugTree d =
        .tuple "binate::Error".toList [(Kind.decode x).debugTree, x.debugTree] := by
      show DebugTree.tuple _ [_, d _] = _
      rw [hd]
      rfl
    rw [e1]
    refine shows_tree (good_tuples (goodText_of (by decide) (by decide)) ?_) (same_tuples ?_) ?_
    · intro t ht
      simp only [List.mem_cons, List.not_mem_nil, or_false] at ht
      rcases ht with rfl | rfl
      · exact good_Kind h
      · exact hx
    · intro t ht
      simp only [List.mem_cons, List.not_mem_nil, or_false] at ht
      rcases ht with rfl | rfl
      · exact same_Kind _
      · exact same_DecodeError x
    · rw [lines_tuples _ _ (List.cons_ne_nil _ _), List.map_cons, List.map_cons, List.map_nil,
        Kind.debugTree, lines_tuple, lines_DecodeError]

/-- Non-vacuity: a counter below zero, a provider after a wrap, a builder, an error. -/
example : (RequestCounter.mk 0xFFFFFFFF#32).debugTree.forms =
      ("RequestCounter(-1)", "RequestCounter(\n    -1,\n)") ∧
    (StreamIdProvider.mk 0x80000001#32).debugTree.forms.1 = "StreamIdProvider(-2147483647)" ∧
    SetupFrameBuilder.build true [] = .ok SetupFrameBuilder.default ∧
    (PayloadBuilder.debugTree ⟨none, some [0x41#8]⟩).forms.1 =
      "PayloadBuilder(Payload { metadata: None, data: Some(b\"A\") })" ∧
    (PayloadChunks.mk 4 none none).debugTree.forms.2 =
      "PayloadChunks {\n    chunk_size: 4,\n    metadata: None,\n    data: None,\n}" ∧
    (DecodeError.invalidStreamId "> 0" 0#32).debugTree.forms.1 =
      "InvalidStreamId { expected: \"> 0\", found: 0 }" ∧
    PrintableAscii "> 0" ∧
    ((Error.ofDecodeError .inComplete).debugTree fun _ => DecodeError.inComplete.debugTree).forms.2 =
      "binate::Error(\n    Decode(\n        InComplete,\n    ),\n    InComplete,\n)" := by
  refine ⟨by decide +kernel, by decide +kernel, rfl, by decide +kernel, by decide +kernel,
    by decide +kernel, ?_, by decide +kernel⟩
  unfold PrintableAscii
  decide

end Binate
