import Verif.Props.Access
import Verif.Props.Chunks
import Verif.Props.Constructors
import Verif.Lemmas.Display

/-! # Properties of texts, MIME types over the wire and documented constraints

C64, C66, C69, C74, C76, C79. -/

namespace Binate

open Spec WellKnownMimeType

/-! ## C64 -/

/-- **C64.** Whatever strings of at most 255 bytes a client sets as MIME types, the server that
parses the strings it reads from the decoded SETUP frame gets the same well-known types as the
client that parses its own strings (and unrecognised for unrecognised, also when the accessor
returns nothing). -/
theorem C64_same_type {dbg : Bool} {calls : List SetupCall} {f : SetupFrame} {s t : String}
    (h : SetupFrameBuilder.build dbg calls = .ok f)
    (hr : calls.any setsResume = calls.any isTokenCall)
    (hl : (optBytes (lastOr none metadataArg calls)).length < 2 ^ 24)
    (hm : lastOr defaultMime metadataMimeArg calls = strBytes s) (hs : (utf8 s).length ≤ 255)
    (hd : lastOr defaultMime dataMimeArg calls = strBytes t) (ht : (utf8 t).length ≤ 255) :
    ∃ b g, (Frame.setup f).toBytes = .ok b ∧ decode b = .ok (.setup g) [] ∧
      (g.metadataMimetypeStr.map fromStr).getD UNPARSEABLE = fromStr s ∧
      (g.dataMimetypeStr.map fromStr).getD UNPARSEABLE = fromStr t := by
  have len : ∀ s, (strBytes s).length = (utf8 s).length := fun s => List.length_map _
  obtain ⟨b, g, h1, h2, h3⟩ := C71_setup h hr (by rw [hm, len]; exact hs)
    (by rw [hd, len]; exact ht) hl
  have e1 : g.metadataMimetypeStr = SetupFrame.mimeStr (strBytes s) := by
    apply Option.ext
    intro x
    rw [h3.metadataMime x, C54_mime_str, hm]
  have e2 : g.dataMimetypeStr = SetupFrame.mimeStr (strBytes t) := by
    apply Option.ext
    intro x
    rw [h3.dataMime x, C54_mime_str, hd]
  exact ⟨b, g, h1, h2, by rw [e1]; exact (mimeStr_strBytes s).1,
    by rw [e2]; exact (mimeStr_strBytes t).1⟩

/-- **C64** for the listed types: every pair of them can be set, survives the wire and is
recognised, and no listed string is too long for the builder. -/
theorem C64_listed (dbg : Bool) {a d : WellKnownMimeType} (ha : a ≠ UNPARSEABLE)
    (hd : d ≠ UNPARSEABLE) : ∃ s t f b g, fromStr s = a ∧ fromStr t = d ∧
      SetupFrameBuilder.build dbg
        [.setMetadataMimetype (strBytes s), .setDataMimetype (strBytes t)] = .ok f ∧
      (Frame.setup f).toBytes = .ok b ∧ decode b = .ok (.setup g) [] ∧
      g.metadataMimetypeStr.map fromStr = some a ∧ g.dataMimetypeStr.map fromStr = some d := by
  obtain ⟨s, hs, -⟩ := C50_all_types ha
  obtain ⟨t, ht, -⟩ := C50_all_types hd
  have all : ∀ t ∈ mimeStrings, (utf8 t).length ≤ 255 := by decide
  have ls := all s ((C50_listed s).1.1 (by rw [hs]; exact ha))
  have lt := all t ((C50_listed t).1.1 (by rw [ht]; exact hd))
  have len : ∀ s, (strBytes s).length = (utf8 s).length := fun s => List.length_map _
  obtain ⟨f, hf⟩ := (C21_accepts dbg
      [.setMetadataMimetype (strBytes s), .setDataMimetype (strBytes t)]).1 (by
    intro c hc
    rcases List.mem_cons.1 hc with rfl | hc
    · show (strBytes s).length ≤ 256
      rw [len]; omega
    · rcases List.mem_cons.1 hc with rfl | hc
      · show (strBytes t).length ≤ 256
        rw [len]; omega
      · cases hc)
  obtain ⟨b, g, h1, h2, h3, h4⟩ := C64_same_type hf rfl (Nat.two_pow_pos 24) rfl ls rfl lt
  refine ⟨s, t, f, b, g, hs, ht, hf, h1, h2, ?_, ?_⟩
  · cases hx : g.metadataMimetypeStr with
    | none => rw [hx, hs] at h3; exact absurd h3.symm ha
    | some x => rw [hx] at h3; exact congrArg some (h3.trans hs)
  · cases hx : g.dataMimetypeStr with
    | none => rw [hx, ht] at h4; exact absurd h4.symm hd
    | some x => rw [hx] at h4; exact congrArg some (h4.trans ht)

/-- **C64**, the condition on the calls is needed: after `set_resume_flag` without `set_resume_token` the
frame of the default types is sent and the server cannot read it. -/
theorem C64_flag_needed (dbg : Bool) : ∃ f b, SetupFrameBuilder.build dbg [.setResumeFlag] = .ok f ∧
    (Frame.setup f).toBytes = .ok b ∧ ∀ g rest, decode b ≠ .ok (.setup g) rest := by
  have key : ∀ d, (match SetupFrameBuilder.build d [.setResumeFlag] with
      | .ok f => match (Frame.setup f).toBytes with
        | .ok b => match decode b with
          | .ok _ _ => false
          | _ => true
        | _ => false
      | _ => false) = true := by decide +kernel
  have key := key dbg
  split at key <;> try cases key
  rename_i f hf
  split at key <;> try cases key
  rename_i b hb
  refine ⟨f, b, hf, hb, fun g rest h => ?_⟩
  rw [h] at key
  cases key

example : ∃ s, fromStr s = APPLICATION_JSON ∧ strBytes s =
    [0x61, 0x70, 0x70, 0x6C, 0x69, 0x63, 0x61, 0x74, 0x69, 0x6F, 0x6E, 0x2F, 0x6A, 0x73, 0x6F, 0x6E] :=
  ⟨"application/json", by decide, by decide⟩

/-! ## C66 -/

/-- **C66** is false: `PayloadChunks` claims to be an `ExactSizeIterator`, but the hint of a
payload of one byte is not the number of chunks. -/
theorem C66_exact_false : ¬ ∀ (p : Payload) (size : Nat) (c : PayloadChunks) (n : Nat),
    p.chunks size = .ok c → Yields c n → HintExact c.sizeHint n := by
  intro h
  have := h ⟨none, some [1]⟩ 1 ⟨1, none, some [1]⟩ 1 rfl ⟨1, _, rfl, rfl⟩
  cases this

/-- **C66**, what holds (*missing*: exactness): the hint is a valid bound for every iterator. -/
theorem C66_valid_partial {c : PayloadChunks} {n : Nat} (_ : Yields c n) : HintOk c.sizeHint n :=
  ⟨Nat.zero_le _, nofun⟩

/-- **C66**: and it is never exact. -/
theorem C66_never (c : PayloadChunks) (n : Nat) : ¬ HintExact c.sizeHint n := nofun

example : Yields ⟨1, none, some [1, 2]⟩ 2 := ⟨2, _, rfl, rfl⟩

/-! ## C69 -/

/-- **C69** is false for the sender: even with debug assertions a client can send a keepalive
interval of 0, and a PAYLOAD frame with neither COMPLETE nor NEXT. Without them it can ask for 0
items. -/
theorem C69_sender_false :
    (∃ f, Built true (.setup f) ∧ ¬ Documented (.setup f)) ∧
    (∃ f, Built true (.payload f) ∧ ¬ Documented (.payload f)) ∧
    (∃ f, Built false (.requestN f) ∧ ¬ Documented (.requestN f)) ∧
    (∃ f, Built false (.requestStream f) ∧ ¬ Documented (.requestStream f)) ∧
    (∃ f, Built false (.requestChannel f) ∧ ¬ Documented (.requestChannel f)) := by
  refine ⟨⟨_, .setup (calls := [.setKeepaliveInterval 0#32]) rfl, ?_⟩,
    ⟨_, .payload (s := 1#32) (fl := ⟨0#16⟩) (p := ⟨none, none⟩) (by decide) rfl, ?_⟩,
    ⟨_, .requestN (s := 1#32) (n := 0#32) rfl, ?_⟩,
    ⟨_, .requestStream (s := 1#32) (fo := false) (n := 0#32) (p := ⟨none, none⟩) rfl, ?_⟩,
    ⟨_, .requestChannel (s := 1#32) (fo := false) (c := false) (n := 0#32) (p := ⟨none, none⟩) rfl,
      ?_⟩⟩
  · intro h; exact absurd (h.1 0 (by decide)) (by decide)
  · intro h; exact absurd (h.2 _ rfl) (by decide)
  · intro h; exact absurd (h.1 0 (by decide)) (by decide)
  · intro h; exact absurd (h.1 0 (by decide)) (by decide)
  · intro h; exact absurd (h.1 0 (by decide)) (by decide)

/-- **C69** is false for the receiver: it accepts such frames from the peer. -/
theorem C69_receiver_false :
    (∃ b f, decode b = .ok (.setup f) [] ∧ ¬ Documented (.setup f)) ∧
    (∃ b f, decode b = .ok (.payload f) [] ∧ ¬ Documented (.payload f)) ∧
    (∃ b f, decode b = .ok (.requestN f) [] ∧ ¬ Documented (.requestN f)) := by
  refine ⟨⟨[0, 0, 0, 0, 0x04, 0, 0, 1, 0, 0, 0, 0, 0, 0, 0, 0, 0, 1, 0, 0, 0, 0, 0], _, rfl, ?_⟩,
    ⟨[0, 0, 0, 1, 0x28, 0, 0, 0, 0], _, rfl, ?_⟩,
    ⟨[0, 0, 0, 1, 0x20, 0, 0, 0, 0, 0], _, rfl, ?_⟩⟩
  · intro h; exact absurd (h.1 0 (by decide)) (by decide)
  · intro h; exact absurd (h.2 _ rfl) (by decide)
  · intro h; exact absurd (h.1 0 (by decide)) (by decide)

/-- **C69**, exact for the frames with a request count: the frame is as documented exactly when
the count given is not a multiple of 2^31. With debug assertions that is always so. -/
theorem C69_counts_partial {dbg : Bool} {c : NewCall} {f : Frame} (h : c.run dbg = .ok f)
    (hp : ∀ s fl p, c ≠ .payload s fl p) :
    (Documented f ↔ ∀ n ∈ c.argsPos, n % 2 ^ 31 ≠ 0) ∧ (dbg = true → Documented f) := by
  have ty := (run_stores h).type
  have v := (run_stores h).v31
  have hn : ∀ p, f ≠ .payload p := by
    rintro p rfl
    cases c <;> first | exact absurd rfl (hp _ _ _) | cases ty
  have pos : mustBePositive f = c.argsPos.map (· % 2 ^ 31) := by
    cases c <;> cases f <;> first
      | (cases ty; done)
      | rfl
      | (have e := (List.cons.inj (List.cons.inj v).2).1
         exact congrArg (fun x => [x]) e)
  have iff : Documented f ↔ ∀ n ∈ c.argsPos, n % 2 ^ 31 ≠ 0 := by
    unfold Documented
    rw [pos]
    constructor
    · intro hd n hn
      have := hd.1 _ (List.mem_map.2 ⟨n, hn, rfl⟩)
      exact Nat.pos_iff_ne_zero.1 this
    · intro hd
      refine ⟨fun n hn => ?_, fun p h => absurd h (hn p)⟩
      obtain ⟨m, hm, rfl⟩ := List.mem_map.1 hn
      exact Nat.pos_iff_ne_zero.2 (hd m hm)
  refine ⟨iff, fun hd => iff.2 fun n hn => ?_⟩
  subst hd
  have r := run_ok_passes.1 ⟨f, h⟩ rfl
  have h1 := r.2.2 n hn
  have h2 : n < 2 ^ 31 := r.1 n (by
    cases c <;> first | (cases hn; done) | exact List.mem_cons_of_mem _ hn)
  rw [Nat.mod_eq_of_lt h2]
  omega

/-- **C69**, exact for SETUP, in both profiles: the last interval and the last timeout given must
not be multiples of 2^31. -/
theorem C69_setup_partial {dbg : Bool} {calls : List SetupCall} {f : SetupFrame}
    (h : SetupFrameBuilder.build dbg calls = .ok f) : Documented (.setup f) ↔
      (lastOr 30000#32 intervalArg calls).toNat % 2 ^ 31 ≠ 0 ∧
      (lastOr 60000#32 timeoutArg calls).toNat % 2 ^ 31 ≠ 0 := by
  have d := build_describes h
  rw [← d.interval, ← d.timeout]
  constructor
  · intro hd
    exact ⟨Nat.pos_iff_ne_zero.1 (hd.1 _ (by simp [mustBePositive])),
      Nat.pos_iff_ne_zero.1 (hd.1 _ (by simp [mustBePositive]))⟩
  · rintro ⟨h1, h2⟩
    refine ⟨fun n hn => ?_, nofun⟩
    simp only [mustBePositive, List.mem_cons, List.not_mem_nil, or_false] at hn
    omega

/-- **C69**, exact for PAYLOAD, in both profiles: the caller must give COMPLETE or NEXT. -/
theorem C69_payload_partial {dbg : Bool} {sid : U32} {fl : Flags} {p : Payload} {f : PayloadFrame}
    (h : PayloadFrame.new dbg sid fl p = .ok f) : Documented (.payload f) ↔
      fl.bits.toNat.testBit 5 = true ∨ fl.bits.toNat.testBit 4 = true := by
  have h' : (NewCall.payload sid fl p).run dbg = .ok (.payload f) := wrap_eq_ok.2 ⟨f, h, rfl⟩
  obtain ⟨-, -, h1, h2, -⟩ := run_flags h'
  have e1 : f.flags.bits.toNat.testBit 5 = fl.bits.toNat.testBit 5 :=
    (contains_complete _).symm.trans (Option.some.inj h1)
  have e2 : f.flags.bits.toNat.testBit 4 = fl.bits.toNat.testBit 4 :=
    (contains_next _).symm.trans (Option.some.inj h2)
  rw [← e1, ← e2]
  exact ⟨fun hd => hd.2 f rfl, fun hd => ⟨nofun, fun q hq => by cases hq; exact hd⟩⟩

/-- With debug assertions, REQUEST_N of 1 is built and as documented. -/
example : ∃ f, (NewCall.requestN 1#32 1#32).run true = .ok f ∧ Documented f :=
  ⟨_, rfl, (C69_counts_partial (c := .requestN 1#32 1#32) (dbg := true) rfl nofun).2 rfl⟩

/-! ## C74 -/

/-- **C74.** A version is shown as two decimal numerals with a dot between them, and different
versions are shown differently. -/
theorem C74_version (v w : Version) :
    (∃ a b, v.display.toList = a ++ '.' :: b ∧ Numeral a v.major.toNat ∧ Numeral b v.minor.toNat) ∧
    (v.display = w.display ↔ v = w) := by
  have shape : ∀ v : Version, v.display.toList =
      Nat.toDigits 10 v.major.toNat ++ '.' :: Nat.toDigits 10 v.minor.toNat := by
    intro v
    show (String.ofList (Nat.toDigits 10 v.major.toNat) ++ "." ++
      String.ofList (Nat.toDigits 10 v.minor.toNat)).toList = _
    simp only [String.toList_append, String.toList_ofList, List.append_assoc]
    rfl
  refine ⟨⟨_, _, shape v, numeral_toDigits _, numeral_toDigits _⟩, ?_, fun h => by rw [h]⟩
  intro h
  have h := congrArg String.toList h
  rw [shape, shape] at h
  have dig : ∀ n, ∀ c ∈ Nat.toDigits 10 n, c.isDigit = true :=
    fun n c hc => Nat.isDigit_of_mem_toDigits (by omega) (by omega) hc
  obtain ⟨e1, e2⟩ := digits_suffix (p := Char.isDigit) (by decide) (dig _) (dig _) h
  have e1 := BitVec.eq_of_toNat_eq (toDigits_inj (by omega) (by omega) e1)
  have e2 := BitVec.eq_of_toNat_eq (toDigits_inj (by omega) (by omega) e2)
  obtain ⟨a, b⟩ := v
  obtain ⟨c, d⟩ := w
  cases e1; cases e2; rfl

example : (Version.new 1#16 20#16).display = "1.20" := by decide

/-! ## C76 -/

/-- **C76.** `source()` returns what the error was made with; for a converted decode error a source
that shows the decode error's text, for a converted I/O error that error. -/
theorem C76_source (k : Kind) (s : Option String) (d : DecodeError) (t : String) :
    (Error.new k s).getSource = s ∧ (Error.ofDecodeError d).getSource = some d.display ∧
    (Error.ofIoError t).getSource = some t := ⟨rfl, rfl, rfl⟩

/-- **C76.** The `Debug` text of an error is `binate::Error(` and the name of its kind. For decode
errors the decode error follows in parentheses. Then comes the source, if any. Unlike the message
(C48), it names REJECTED properly. -/
theorem C76_debug (sd : String → String) (e : Error) :
    ∃ detail, (e.debug sd).toList = "binate::Error(".toList ++ kindName e.kind ++ detail ++
        (match e.source with | some s => ", ".toList ++ (sd s).toList | none => []) ++ [')'] ∧
      ((∀ d, e.kind ≠ .decode d) → detail = []) ∧
      ∀ d, e.kind = .decode d → detail = ('(' :: d.debug.toList) ++ [')'] := by
  obtain ⟨k, s⟩ := e
  have fin : ∀ (a b : String), (match s with
      | some source => "binate::Error(" ++ a ++ ", " ++ sd source ++ ")"
      | none => "binate::Error(" ++ a ++ ")").toList = "binate::Error(".toList ++ a.toList ++
        (match s with | some s => ", ".toList ++ (sd s).toList | none => []) ++ [')'] := by
    intro a _
    cases s with
    | none =>
      simp only [String.toList_append, List.append_nil]
      rfl
    | some s =>
      simp only [String.toList_append, List.append_assoc]
      rfl
  refine ⟨match k with | .decode d => ('(' :: d.debug.toList) ++ [')'] | _ => [],
    (fin k.debug "").trans ?_, ?_, ?_⟩
  · refine congrArg (fun x => x ++ _ ++ [')']) ?_
    rw [List.append_assoc]
    refine congrArg (fun x => _ ++ x) ?_
    cases k with
    | decode d =>
      show ("Decode(" ++ d.debug ++ ")").toList = _
      rw [String.toList_append, String.toList_append]
      rfl
    | _ =>
      rw [List.append_nil]
      clear fin
      simp only
      decide
  · intro h
    cases k <;> first | rfl | exact absurd rfl (h _)
  · rintro d rfl
    rfl

/-- **C76**: the `Debug` texts of two different decode errors made by the decoder differ. -/
theorem C76_decode_distinct {d d' : DecodeError} (h : d.debug = d'.debug) : d = d' := by
  have second : ∀ e : DecodeError, e.debug.toList[2]? = some (match e with
      | .inComplete => 'C'
      | .unrecognizedFrameType _ => 'r'
      | .invalidStreamId _ _ => 'v') := by
    have get : ∀ {l m : List Char} {c : Char}, l[2]? = some c → (l ++ m)[2]? = some c := by
      intro l m c h
      obtain ⟨hl, -⟩ := List.getElem?_eq_some_iff.1 h
      rw [List.getElem?_append_left hl, h]
    intro e
    cases e with
    | inComplete => decide
    | unrecognizedFrameType v =>
      show ("UnrecognizedFrameType(" ++ fmtDec v.toNat ++ ")").toList[2]? = _
      rw [String.toList_append, String.toList_append]
      exact get (get (c := 'r') (by decide))
    | invalidStreamId x n =>
      show ("InvalidStreamId { expected: \"" ++ x ++ "\", found: " ++ fmtDec n.toNat ++
        " }").toList[2]? = _
      rw [String.toList_append, String.toList_append, String.toList_append, String.toList_append]
      exact get (get (get (get (c := 'v') (by decide))))
  have h3 := congrArg (fun s => s.toList[2]?) h
  simp only [second] at h3
  have h := congrArg String.toList h
  have dig : ∀ n, ∀ c ∈ Nat.toDigits 10 n, c.isDigit = true :=
    fun n c hc => Nat.isDigit_of_mem_toDigits (by omega) (by omega) hc
  cases d with
  | inComplete => cases d' <;> first | rfl | cases h3
  | unrecognizedFrameType v =>
    cases d' with
    | inComplete => cases h3
    | invalidStreamId => cases h3
    | unrecognizedFrameType v' =>
      change ("UnrecognizedFrameType(" ++ fmtDec v.toNat ++ ")").toList =
        ("UnrecognizedFrameType(" ++ fmtDec v'.toNat ++ ")").toList at h
      simp only [String.toList_append, fmtDec, String.toList_ofList] at h
      have h := List.append_cancel_left (List.append_cancel_right h)
      rw [BitVec.eq_of_toNat_eq (toDigits_inj (by omega) (by omega) h)]
  | invalidStreamId x n =>
    cases d' with
    | inComplete => cases h3
    | unrecognizedFrameType v' => cases h3
    | invalidStreamId x' n' =>
      have shape : ∀ (x : String) (n : U32), (DecodeError.invalidStreamId x n).debug.toList =
          "InvalidStreamId { expected: \"".toList ++ ((x.toList ++ "\", found:".toList) ++
            ' ' :: Nat.toDigits 10 n.toNat) ++ " }".toList := by
        intro x n
        show ("InvalidStreamId { expected: \"" ++ x ++ "\", found: " ++ fmtDec n.toNat ++
          " }").toList = _
        rw [String.toList_append, String.toList_append, String.toList_append,
          String.toList_append,
          show "\", found: ".toList = "\", found:".toList ++ [' '] from by decide]
        unfold fmtDec
        rw [String.toList_ofList]
        generalize "InvalidStreamId { expected: \"".toList = a
        generalize "\", found:".toList = b
        generalize " }".toList = c
        simp only [String.toList_ofList, List.append_assoc, List.singleton_append]
      rw [shape, shape] at h
      have h := List.append_cancel_left (List.append_cancel_right h)
      obtain ⟨e1, e2⟩ := digits_suffix (p := Char.isDigit) (by decide) (dig _) (dig _) h
      have e1 := String.toList_inj.1 (List.append_cancel_right e1)
      have e2 := BitVec.eq_of_toNat_eq (toDigits_inj (by omega) (by omega) e2)
      rw [e1, e2]

example : Error.debug id ⟨.rejected, none⟩ = "binate::Error(Rejected)" := by decide
example : Error.debug id ⟨.decode (.unrecognizedFrameType 15), none⟩ =
    "binate::Error(Decode(UnrecognizedFrameType(15)))" := by decide

/-! ## C79 -/

/-- **C79.** No frame is empty, and none claims to be: `len` is at least the six bytes of a header. -/
theorem C79_not_empty (f : Frame) : f.isEmpty = false ∧ 6 ≤ f.len := by
  have h : 6 ≤ f.len := by
    cases f with
    | setup f =>
      show 6 ≤ f.len
      simp only [SetupFrame.len]
      split <;> omega
    | requestN f => exact (by decide : 6 ≤ 10)
    | resumeOk f => exact (by decide : 6 ≤ 14)
    | resume f =>
      show 6 ≤ 12 + f.resumeToken.length + 16
      omega
    | cancel f => exact Nat.le_refl 6
    | _ => exact Nat.le_add_right_of_le (by decide)
  refine ⟨?_, h⟩
  unfold Frame.isEmpty
  rw [beq_eq_false_iff_ne]
  omega

end Binate
