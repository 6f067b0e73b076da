import Verif.Spec.Text

/-! # Texts -/

namespace Binate

open Spec

/-! ## Digits -/

theorem digitChar_inj {m n : Nat} (hm : m < 16) (hn : n < 16)
    (h : Nat.digitChar m = Nat.digitChar n) : m = n := by
  have key : ∀ a : Fin 16, ∀ b : Fin 16, Nat.digitChar a.1 = Nat.digitChar b.1 → a = b := by decide
  exact congrArg Fin.val (key ⟨m, hm⟩ ⟨n, hn⟩ h)

theorem toDigits_inj {b : Nat} (h1 : 1 < b) (h2 : b ≤ 16) :
    ∀ {m n : Nat}, Nat.toDigits b m = Nat.toDigits b n → m = n := by
  intro m
  induction m using Nat.strongRecOn with
  | _ m ih =>
    intro n h
    rw [Nat.toDigits_eq_if h1 (n := m), Nat.toDigits_eq_if h1 (n := n)] at h
    have lm : m % b < b := Nat.mod_lt _ (by omega)
    have ln : n % b < b := Nat.mod_lt _ (by omega)
    by_cases hm : m < b <;> by_cases hn : n < b
    · rw [if_pos hm, if_pos hn, List.cons.injEq] at h
      exact digitChar_inj (by omega) (by omega) h.1
    · rw [if_pos hm, if_neg hn] at h
      have := congrArg List.length h
      rw [List.length_append] at this
      have := Nat.length_toDigits_pos (b := b) (n := n / b)
      simp only [List.length_cons, List.length_nil] at *
      omega
    · rw [if_neg hm, if_pos hn] at h
      have := congrArg List.length h
      rw [List.length_append] at this
      have := Nat.length_toDigits_pos (b := b) (n := m / b)
      simp only [List.length_cons, List.length_nil] at *
      omega
    · rw [if_neg hm, if_neg hn] at h
      obtain ⟨e1, e2⟩ := List.append_inj' h rfl
      have e1 := ih (m / b) (Nat.div_lt_self (by omega) h1) e1
      have e2 := digitChar_inj (by omega) (by omega) (List.cons.inj e2).1
      rw [← Nat.div_add_mod m b, ← Nat.div_add_mod n b, e1, e2]

theorem fmtHex_inj {m n : Nat} (h : fmtHex m = fmtHex n) : m = n := by
  have := congrArg String.toList h
  simp only [fmtHex, String.toList_append, String.toList_ofList] at this
  exact toDigits_inj (by omega) (by omega) (List.append_cancel_left this)

/-- A list cut at the last non-digit. -/
theorem digits_suffix {p : Char → Bool} {l l' d d' : List Char} {c : Char} (hc : p c = false)
    (hd : ∀ x ∈ d, p x = true) (hd' : ∀ x ∈ d', p x = true)
    (h : l ++ c :: d = l' ++ c :: d') : l = l' ∧ d = d' := by
  have h := congrArg List.reverse h
  simp only [List.reverse_append, List.reverse_cons, List.append_assoc, List.singleton_append] at h
  have t : ∀ (d r : List Char), (∀ x ∈ d, p x = true) → (d.reverse ++ c :: r).takeWhile p =
      d.reverse := by
    intro d r hd
    rw [List.takeWhile_append_of_pos (by simpa using hd), List.takeWhile_cons_of_neg (by simp [hc]),
      List.append_nil]
  have e := congrArg (List.takeWhile p) h
  rw [t _ _ hd, t _ _ hd'] at e
  rw [e] at h
  have h := List.append_cancel_left h
  exact ⟨List.reverse_inj.1 (List.cons.inj h).2, List.reverse_inj.1 e⟩

/-- The third character tells the variant. -/
theorem display_third (e : DecodeError) : e.display.toList[2]? =
    some (match e with
      | .inComplete => 'c'
      | .unrecognizedFrameType _ => 'r'
      | .invalidStreamId _ _ => 'v') := by
  have get : ∀ {l m : List Char} {c : Char}, l[2]? = some c → (l ++ m)[2]? = some c := by
    intro l m c h
    obtain ⟨hl, -⟩ := List.getElem?_eq_some_iff.1 h
    rw [List.getElem?_append_left hl, h]
  cases e with
  | inComplete => decide
  | unrecognizedFrameType v =>
    show ("unrecognized frame type " ++ fmtHex v.toNat).toList[2]? = _
    rw [String.toList_append]
    exact get (c := 'r') (by decide)
  | invalidStreamId x n =>
    show ("invalid stream ID (expected " ++ x ++ ", found " ++ fmtDec n.toNat ++ ")").toList[2]? = _
    rw [String.toList_append, String.toList_append, String.toList_append, String.toList_append]
    exact get (get (get (get (c := 'v') (by decide))))

theorem found_toList : ", found ".toList = ", found".toList ++ [' '] := by decide

theorem display_inj {e e' : DecodeError} (h : e.display = e'.display) : e = e' := by
  have h3 := congrArg (fun s => s.toList[2]?) h
  simp only [display_third] at h3
  have h := congrArg String.toList h
  cases e with
  | inComplete =>
    cases e' with
    | inComplete => rfl
    | unrecognizedFrameType => cases h3
    | invalidStreamId => cases h3
  | unrecognizedFrameType v =>
    cases e' with
    | inComplete => cases h3
    | unrecognizedFrameType v' =>
      change ("unrecognized frame type " ++ fmtHex v.toNat).toList =
        ("unrecognized frame type " ++ fmtHex v'.toNat).toList at h
      rw [String.toList_append, String.toList_append] at h
      have := fmtHex_inj (String.toList_inj.1 (List.append_cancel_left h))
      rw [BitVec.eq_of_toNat_eq this]
    | invalidStreamId => cases h3
  | invalidStreamId x n =>
    cases e' with
    | inComplete => cases h3
    | unrecognizedFrameType v' => cases h3
    | invalidStreamId x' n' =>
      have dig : ∀ n, ∀ c ∈ Nat.toDigits 10 n, c.isDigit = true :=
        fun n c hc => Nat.isDigit_of_mem_toDigits (by omega) (by omega) hc
      have shape : ∀ (x : String) (n : U32), (DecodeError.invalidStreamId x n).display.toList =
          "invalid stream ID (expected ".toList ++ ((x.toList ++ ", found".toList) ++
            ' ' :: Nat.toDigits 10 n.toNat) ++ ")".toList := by
        intro x n
        show ("invalid stream ID (expected " ++ x ++ ", found " ++ fmtDec n.toNat ++ ")").toList = _
        rw [String.toList_append, String.toList_append, String.toList_append,
          String.toList_append, found_toList]
        unfold fmtDec
        rw [String.toList_ofList]
        generalize "invalid stream ID (expected ".toList = a
        generalize ", found".toList = b
        generalize ")".toList = c
        simp only [String.toList_ofList, List.append_assoc, List.singleton_append]
      rw [shape, shape] at h
      have h := List.append_cancel_left (List.append_cancel_right h)
      obtain ⟨e1, e2⟩ := digits_suffix (p := Char.isDigit) (by decide) (dig _) (dig _) h
      have e1 := String.toList_inj.1 (List.append_cancel_right e1)
      have e2 := BitVec.eq_of_toNat_eq (toDigits_inj (by omega) (by omega) e2)
      rw [e1, e2]

/-! ## MIME types -/

open WellKnownMimeType in
/-- Strings and types, in the order of mimetype.rs. -/
def mimeTable : List (String × WellKnownMimeType) := [
  ("application/avro", APPLICATION_AVRO),
  ("application/cbor", APPLICATION_CBOR),
  ("application/graphql", APPLICATION_GRAPHQL),
  ("application/gzip", APPLICATION_GZIP),
  ("application/javascript", APPLICATION_JAVASCRIPT),
  ("application/json", APPLICATION_JSON),
  ("application/octet-stream", APPLICATION_OCTET_STREAM),
  ("application/pdf", APPLICATION_PDF),
  ("application/vnd.apache.thrift.binary", APPLICATION_VND_APACHE_THRIFT_BINARY),
  ("application/vnd.google.protobuf", APPLICATION_VND_GOOGLE_PROTOBUF),
  ("application/xml", APPLICATION_XML),
  ("application/zip", APPLICATION_ZIP),
  ("audio/aac", AUDIO_AAC),
  ("audio/mp3", AUDIO_MP3),
  ("audio/mp4", AUDIO_MP4),
  ("audio/mpeg3", AUDIO_MPEG3),
  ("audio/mpeg", AUDIO_MPEG),
  ("audio/ogg", AUDIO_OGG),
  ("audio/opus", AUDIO_OPUS),
  ("audio/vorbis", AUDIO_VORBIS),
  ("image/bmp", IMAGE_BMP),
  ("image/gif", IMAGE_GIF),
  ("image/heic-sequence", IMAGE_HEIC_SEQUENCE),
  ("image/heic", IMAGE_HEIC),
  ("image/heif-sequence", IMAGE_HEIF_SEQUENCE),
  ("image/heif", IMAGE_HEIF),
  ("image/jpeg", IMAGE_JPEG),
  ("image/png", IMAGE_PNG),
  ("image/tiff", IMAGE_TIFF),
  ("multipart/mixed", MULTIPART_MIXED),
  ("text/css", TEXT_CSS),
  ("text/csv", TEXT_CSV),
  ("text/html", TEXT_HTML),
  ("text/plain", TEXT_PLAIN),
  ("text/xml", TEXT_XML),
  ("video/H264", VIDEO_H264),
  ("video/H265", VIDEO_H265),
  ("video/VP8", VIDEO_VP8),
  ("application/x-hessian", APPLICATION_X_HESSIAN),
  ("application/x-java-object", APPLICATION_X_JAVA_OBJECT),
  ("application/cloudevents+json", APPLICATION_CLOUDEVENTS_JSON),
  ("message/x.rsocket.mime.type.v0", MESSAGE_X_RSOCKET_MIME_TYPE_V0),
  ("message/x.rsocket.accept.time.types.v0", MESSAGE_X_RSOCKET_ACCEPT_TIME_TYPES_V0),
  ("message/x.rsocket.authentication.v0", MESSAGE_X_RSOCKET_AUTHENTICATION_V0),
  ("message/x.rsocket.tracing.zipkin.v0", MESSAGE_X_RSOCKET_TRACING_ZIPKIN_V0),
  ("message/x.rsocket.routing.v0", MESSAGE_X_RSOCKET_ROUTING_V0),
  ("message/x.rsocket.composite.metadata.v0", MESSAGE_X_RSOCKET_COMPOSITE_METADATA_V0)]

theorem fromStr_find (v : String) : WellKnownMimeType.fromStr v =
    ((mimeTable.find? fun p => decide (v = p.1)).map Prod.snd).getD .UNPARSEABLE := by
  have step : ∀ (s : String) (t : WellKnownMimeType) (rest : List (String × WellKnownMimeType)),
      (((s, t) :: rest).find? (fun p => decide (v = p.1))).map Prod.snd =
        if v = s then some t else (rest.find? fun p => decide (v = p.1)).map Prod.snd := by
    intro s t rest
    by_cases h : v = s
    · rw [List.find?_cons_of_pos (by simpa using h), if_pos h]
      rfl
    · rw [List.find?_cons_of_neg (by simpa using h), if_neg h]
  have push : ∀ (c : Prop) [Decidable c] (a : WellKnownMimeType) (b : Option WellKnownMimeType),
      (if c then some a else b).getD .UNPARSEABLE = if c then a else b.getD .UNPARSEABLE := by
    intro c _ a b
    by_cases h : c
    · rw [if_pos h, if_pos h]; rfl
    · rw [if_neg h, if_neg h]
  unfold mimeTable WellKnownMimeType.fromStr
  simp only [step, push]
  rfl

theorem mimeTable_strings : mimeTable.map Prod.fst = mimeStrings := rfl

theorem fromStr_cases (v : String) :
    (v, WellKnownMimeType.fromStr v) ∈ mimeTable ∨
    (v ∉ mimeStrings ∧ WellKnownMimeType.fromStr v = .UNPARSEABLE) := by
  rw [fromStr_find]
  cases h : mimeTable.find? fun p => decide (v = p.1) with
  | some p =>
    have h1 := List.mem_of_find?_eq_some h
    have h2 := List.find?_some h
    have h2 := of_decide_eq_true h2
    left
    rw [h2]
    exact h1
  | none =>
    right
    refine ⟨fun hv => ?_, rfl⟩
    rw [← mimeTable_strings] at hv
    obtain ⟨p, hp, e⟩ := List.mem_map.1 hv
    exact absurd (decide_eq_true e.symm) (List.find?_eq_none.1 h p hp)

theorem mimeTable_ne : ∀ p ∈ mimeTable, p.2 ≠ .UNPARSEABLE := by decide

theorem mimeTable_inj : ∀ p ∈ mimeTable, ∀ q ∈ mimeTable, p.2 = q.2 → p.1 = q.1 := by decide

theorem mimeTable_names : ∀ p ∈ mimeTable, p.2.debug.toList = screaming p.1 := by decide

theorem mimeTable_all (t : WellKnownMimeType) (h : t ≠ .UNPARSEABLE) :
    t ∈ mimeTable.map Prod.snd := by
  cases t <;> first | exact absurd rfl h | decide

theorem intoStr_diverges {t : WellKnownMimeType} (h : t ≠ .UNPARSEABLE) (fuel : Nat) :
    t.intoStr fuel = .diverge := by
  induction fuel with
  | zero => rfl
  | succ n ih => rw [WellKnownMimeType.intoStr, if_neg h, ih]

/-! ## UTF-8 -/

theorem toNat_ofNat8 {n : Nat} (h : n < 256) : (UInt8.ofNat n).toBitVec.toNat = n := by
  rw [UInt8.toNat_toBitVec, UInt8.toNat_ofNat']
  exact Nat.mod_eq_of_lt h

theorem encodeChar_eq (c : Char) :
    (String.utf8EncodeChar c).map (fun b => b.toBitVec.toNat) = scalarBytes c.toNat := by
  have hv : c.val.toNat < 0x110000 := by
    have := c.valid
    rcases this with h | h
    · exact Nat.lt_of_lt_of_le h (by decide)
    · exact h.2
  show _ = scalarBytes c.val.toNat
  unfold String.utf8EncodeChar scalarBytes
  generalize c.val.toNat = v at hv
  by_cases h1 : v ≤ 0x7f
  · rw [if_pos h1, if_pos (by omega)]
    simp only [List.map_cons, List.map_nil]
    rw [toNat_ofNat8 (by omega)]
  · rw [if_neg h1, if_neg (show ¬ v < 0x80 by omega)]
    by_cases h2 : v ≤ 0x7ff
    · rw [if_pos h2, if_pos (show v < 0x800 by omega)]
      simp only [List.map_cons, List.map_nil]
      rw [toNat_ofNat8 (by omega), toNat_ofNat8 (by omega)]
      rw [Nat.mod_eq_of_lt (show v / 64 < 0x20 by omega), Nat.add_comm, Nat.add_comm (v % 64)]
    · rw [if_neg h2, if_neg (show ¬ v < 0x800 by omega)]
      by_cases h3 : v ≤ 0xffff
      · rw [if_pos h3, if_pos (show v < 0x10000 by omega)]
        simp only [List.map_cons, List.map_nil]
        rw [toNat_ofNat8 (by omega), toNat_ofNat8 (by omega), toNat_ofNat8 (by omega)]
        rw [Nat.mod_eq_of_lt (show v / 4096 < 0x10 by omega), Nat.add_comm,
          Nat.add_comm (v / 64 % 64), Nat.add_comm (v % 64)]
      · rw [if_neg h3, if_neg (show ¬ v < 0x10000 by omega)]
        simp only [List.map_cons, List.map_nil]
        rw [toNat_ofNat8 (by omega), toNat_ofNat8 (by omega), toNat_ofNat8 (by omega),
          toNat_ofNat8 (by omega)]
        rw [Nat.mod_eq_of_lt (show v / 262144 < 8 by omega), Nat.add_comm,
          Nat.add_comm (v / 4096 % 64), Nat.add_comm (v / 64 % 64), Nat.add_comm (v % 64)]

/-- The bytes of a string are its UTF-8 encoding. -/
theorem utf8_eq (s : String) :
    s.toUTF8.data.toList.map (fun b => b.toBitVec.toNat) = utf8 s := by
  have : s.toUTF8 = s.toByteArray := rfl
  rw [this, ← String.utf8Encode_toList, List.utf8Encode, List.toList_data_toByteArray, utf8,
    List.map_flatMap]
  congr 1
  funext c
  exact encodeChar_eq c

theorem toByteArray_nats (b : Bytes) :
    (toByteArray b).data.toList.map (fun b => b.toBitVec.toNat) = nats b := by
  unfold toByteArray nats
  rw [List.toList_toArray, List.map_map]
  rfl

theorem byteArray_ext {a b : ByteArray}
    (h : a.data.toList.map (fun b => b.toBitVec.toNat) =
      b.data.toList.map (fun b => b.toBitVec.toNat)) : a = b := by
  have h : a.data.toList = b.data.toList :=
    (List.map_inj_right (by
      intro x y hxy
      exact UInt8.toBitVec_inj.1 (BitVec.eq_of_toNat_eq hxy))).1 h
  cases a; cases b
  exact congrArg ByteArray.mk (Array.toList_inj.1 h)

theorem toByteArray_eq_iff {b : Bytes} {s : String} : toByteArray b = s.toUTF8 ↔ nats b = utf8 s := by
  refine ⟨fun h => ?_, fun h => ?_⟩
  · rw [← toByteArray_nats, h, utf8_eq]
  · exact byteArray_ext (by rw [toByteArray_nats, h, utf8_eq])

/-- `from_utf8` gives the string of which the bytes are the encoding, and only that. -/
theorem fromUtf8_eq_some {b : Bytes} {s : String} : fromUtf8 b = some s ↔ nats b = utf8 s := by
  rw [← toByteArray_eq_iff]
  unfold fromUtf8 String.fromUTF8?
  by_cases h : (toByteArray b).IsValidUTF8
  · rw [dif_pos h]
    simp only [Option.some.injEq]
    constructor
    · rintro rfl
      rfl
    · intro e
      exact String.toByteArray_inj.1 e
  · rw [dif_neg h]
    refine ⟨nofun, fun e => ?_⟩
    rw [e] at h
    exact absurd s.isValidUTF8 h

theorem isAscii_iff {s : String} : isAscii s = true ↔ ∀ n ∈ utf8 s, n < 128 := by
  rw [← utf8_eq]
  unfold isAscii
  rw [List.all_eq_true]
  constructor
  · intro h n hn
    obtain ⟨b, hb, rfl⟩ := List.mem_map.1 hn
    have := of_decide_eq_true (h b hb)
    exact this
  · intro h b hb
    exact decide_eq_true (h _ (List.mem_map.2 ⟨b, hb, rfl⟩))

/-- ASCII bytes are the encoding of the string with these characters. -/
theorem utf8_ascii {ns : List Nat} (h : ∀ n ∈ ns, n < 128) :
    utf8 (String.ofList (ns.map Char.ofNat)) = ns := by
  unfold utf8
  rw [String.toList_ofList]
  induction ns with
  | nil => rfl
  | cons n ns ih =>
    have hn := h n (List.mem_cons_self ..)
    have : (Char.ofNat n).toNat = n := by
      have hv : n.isValidChar := .inl (by omega)
      unfold Char.ofNat
      rw [dif_pos hv]
      rfl
    rw [List.map_cons, List.flatMap_cons, this, ih fun m hm => h m (List.mem_cons_of_mem _ hm)]
    unfold scalarBytes
    rw [if_pos (by omega)]
    rfl

theorem readNumber_append {b : Nat} {xs ys : List Char} {a n : Nat}
    (h : readNumber b xs a = some n) : readNumber b (xs ++ ys) a = readNumber b ys n := by
  induction xs generalizing a with
  | nil => cases h; rfl
  | cons x xs ih =>
    simp only [readNumber, List.cons_append] at h ⊢
    cases hd : digitValue x with
    | none => rw [hd] at h; cases h
    | some d =>
      rw [hd] at h
      simp only at h ⊢
      by_cases hb : d < b
      · rw [if_pos hb] at h ⊢
        exact ih h
      · rw [if_neg hb] at h
        cases h

theorem digitValue_digitChar {d : Nat} (h : d < 16) : digitValue d.digitChar = some d := by
  match d, h with
  | 0, _ | 1, _ | 2, _ | 3, _ | 4, _ | 5, _ | 6, _ | 7, _ | 8, _ | 9, _ | 10, _ | 11, _ | 12, _
  | 13, _ | 14, _ | 15, _ => rfl
  | _ + 16, h => omega

/-- The digits of a number can be read back. -/
theorem readNumber_toDigits {b : Nat} (h1 : 1 < b) (h2 : b ≤ 16) (n : Nat) :
    readNumber b (Nat.toDigits b n) 0 = some n := by
  induction n using Nat.strongRecOn with
  | ind n ih =>
    rw [Nat.toDigits_eq_if h1]
    by_cases h : n < b
    · rw [if_pos h]
      simp only [readNumber, digitValue_digitChar (Nat.lt_of_lt_of_le h h2), if_pos h]
      rw [Nat.zero_mul, Nat.zero_add]
    · rw [if_neg h, readNumber_append (ih (n / b) (Nat.div_lt_self (by omega) h1))]
      have hm : n % b < b := Nat.mod_lt _ (by omega)
      simp only [readNumber, digitValue_digitChar (Nat.lt_of_lt_of_le hm h2), if_pos hm]
      rw [Nat.div_add_mod']

end Binate
