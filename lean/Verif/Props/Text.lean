import Verif.Lemmas.Text

/-! # Properties of text accessors and of payloads (C54, C55, C59) -/

namespace Binate

open Spec

/-! ## C54 -/

/-- **C54** for one MIME type field: a string is returned exactly when all bytes are ASCII, and
its characters are these bytes. -/
theorem C54_mime_str (b : Bytes) (s : String) :
    SetupFrame.mimeStr b = some s ↔
      (∀ x ∈ b, x.toNat < 128) ∧ s.toList.map Char.toNat = b.map BitVec.toNat := by
  have asc : (∀ x ∈ b, x.toNat < 128) ↔ ∀ n ∈ nats b, n < 128 := by
    unfold nats
    constructor
    · intro h n hn
      obtain ⟨x, hx, rfl⟩ := List.mem_map.1 hn
      exact h x hx
    · intro h x hx
      exact h _ (List.mem_map.2 ⟨x, hx, rfl⟩)
  have chars : ∀ ns : List Nat, (∀ n ∈ ns, n < 128) →
      (ns.map Char.ofNat).map Char.toNat = ns := by
    intro ns h
    rw [List.map_map]
    conv => rhs; rw [← List.map_id ns]
    refine List.map_congr_left fun n hn => ?_
    have hn := h n hn
    have hv : n.isValidChar := .inl (by omega)
    show (Char.ofNat n).toNat = n
    unfold Char.ofNat
    rw [dif_pos hv]
    rfl
  have key : ∀ {t : String}, (∀ n ∈ nats b, n < 128) →
      (fromUtf8 b = some t ↔ t = String.ofList ((nats b).map Char.ofNat)) := by
    intro t ha
    have h0 : fromUtf8 b = some (String.ofList ((nats b).map Char.ofNat)) :=
      fromUtf8_eq_some.2 (utf8_ascii ha).symm
    rw [h0]
    exact ⟨fun h => (Option.some.inj h).symm, fun h => by rw [h]⟩
  rw [asc]
  unfold SetupFrame.mimeStr
  constructor
  · intro h
    cases hf : fromUtf8 b with
    | none => rw [hf] at h; cases h
    | some x =>
      rw [hf] at h
      simp only at h
      by_cases ha : isAscii x = true
      · rw [if_pos ha] at h
        cases h
        have hn := fromUtf8_eq_some.1 hf
        have ha : ∀ n ∈ nats b, n < 128 := by rw [hn]; exact isAscii_iff.1 ha
        refine ⟨ha, ?_⟩
        rw [(key ha).1 hf, String.toList_ofList]
        exact chars _ ha
      · rw [if_neg ha] at h
        cases h
  · rintro ⟨ha, hs⟩
    have hs : s = String.ofList ((nats b).map Char.ofNat) := by
      apply String.toList_inj.1
      rw [String.toList_ofList]
      have : s.toList.map Char.toNat = ((nats b).map Char.ofNat).map Char.toNat := by
        rw [hs, chars _ ha]; rfl
      exact (List.map_inj_right fun x y h => Char.toNat_inj.1 h).1 this
    have hf := (key ha).2 hs
    rw [hf]
    have hx : isAscii s = true := by
      rw [isAscii_iff, ← fromUtf8_eq_some.1 hf]
      exact ha
    simp only
    rw [if_pos hx]

/-- **C54.** Both accessors return a string exactly when all bytes of their field are ASCII, and
then its characters are the bytes on the wire. -/
theorem C54_accessors (f : SetupFrame) (s : String) :
    (f.metadataMimetypeStr = some s ↔ (∀ x ∈ f.metadataMimetype, x.toNat < 128) ∧
      s.toList.map Char.toNat = f.metadataMimetype.map BitVec.toNat) ∧
    (f.dataMimetypeStr = some s ↔ (∀ x ∈ f.dataMimetype, x.toNat < 128) ∧
      s.toList.map Char.toNat = f.dataMimetype.map BitVec.toNat) :=
  ⟨C54_mime_str _ _, C54_mime_str _ _⟩

/-- **C54**: so an accessor returns something exactly for ASCII bytes. -/
theorem C54_is_some (f : SetupFrame) :
    (f.metadataMimetypeStr.isSome = true ↔ ∀ x ∈ f.metadataMimetype, x.toNat < 128) ∧
    (f.dataMimetypeStr.isSome = true ↔ ∀ x ∈ f.dataMimetype, x.toNat < 128) := by
  have key : ∀ b : Bytes, (SetupFrame.mimeStr b).isSome = true ↔ ∀ x ∈ b, x.toNat < 128 := by
    intro b
    constructor
    · intro h
      obtain ⟨s, hs⟩ := Option.isSome_iff_exists.1 h
      exact ((C54_mime_str b s).1 hs).1
    · intro h
      refine Option.isSome_iff_exists.2
        ⟨String.ofList (b.map fun x => Char.ofNat x.toNat), (C54_mime_str b _).2 ⟨h, ?_⟩⟩
      rw [String.toList_ofList, List.map_map]
      refine List.map_congr_left fun x hx => ?_
      have hn := h x hx
      have hv : x.toNat.isValidChar := .inl (by omega)
      show (Char.ofNat x.toNat).toNat = x.toNat
      unfold Char.ofNat
      rw [dif_pos hv]
      rfl
  exact ⟨key _, key _⟩

example : SetupFrame.mimeStr [0x61, 0x2F, 0x62] = some "a/b" :=
  (C54_mime_str _ _).2 ⟨by decide, by decide⟩

example : SetupFrame.mimeStr [0xC3, 0xA9] = none := by
  cases h : SetupFrame.mimeStr [0xC3, 0xA9] with
  | none => rfl
  | some s => exact absurd ((C54_mime_str _ s).1 h).1 (by decide)

/-! ## C55 -/

/-- **C55** for payloads: the text of a part is returned exactly when its bytes are the UTF-8
encoding of it; an absent part gives the empty text. -/
theorem C55_payload (p : Payload) (s : String) :
    (p.dataUtf8 = some s ↔ nats (p.data.getD []) = utf8 s) ∧
    (p.metadataUtf8 = some s ↔ nats (p.metadata.getD []) = utf8 s) := by
  have none' : (some "" = some s) ↔ nats [] = utf8 s := by
    rw [← fromUtf8_eq_some, fromUtf8_eq_some.2 (show nats [] = utf8 "" from rfl)]
  obtain ⟨m, d⟩ := p
  constructor
  · cases d with
    | none => exact none'
    | some d => exact fromUtf8_eq_some
  · cases m with
    | none => exact none'
    | some m => exact fromUtf8_eq_some

/-- **C55** for ERROR frames: an absent part gives nothing. -/
theorem C55_error_frame (f : ErrorFrame) (s : String) :
    f.dataUtf8 = some s ↔ ∃ d, f.data = some d ∧ nats d = utf8 s := by
  obtain ⟨sid, code, d⟩ := f
  cases d with
  | none => exact ⟨nofun, fun ⟨d, h, _⟩ => (nomatch h)⟩
  | some d =>
    show (some (fromUtf8 d)).join = some s ↔ _
    rw [Option.join_some, fromUtf8_eq_some]
    exact ⟨fun h => ⟨d, rfl, h⟩, fun ⟨d', h, h'⟩ => by cases h; exact h'⟩

example : (Payload.mk none (some [0xC3, 0xA9])).dataUtf8 = some "é" :=
  (C55_payload _ _).1.2 (by decide)

/-- A lone continuation byte. -/
example : (Payload.mk none (some [0x80])).dataUtf8 = none := by
  cases h : (Payload.mk none (some [0x80])).dataUtf8 with
  | none => rfl
  | some s =>
    have h := (C55_payload _ s).1.1 h
    change [0x80] = s.toList.flatMap (fun c => scalarBytes c.toNat) at h
    cases hs : s.toList with
    | nil => rw [hs] at h; cases h
    | cons c cs =>
      rw [hs, List.flatMap_cons] at h
      unfold scalarBytes at h
      split at h
      · have := (List.cons.inj h).1
        omega
      · split at h
        · cases cs <;> simp at h
        · split at h <;> cases cs <;> simp at h

/-! ## C59 -/

/-- **C59.** A built payload has the last data and the last metadata set, if any were set. -/
theorem C59_builder (calls : List PayloadBuilderCall) :
    (PayloadBuilder.build calls).data =
      (calls.filterMap fun | .setData d => some d | .setMetadata _ => none).getLast? ∧
    (PayloadBuilder.build calls).metadata =
      (calls.filterMap fun | .setMetadata m => some m | .setData _ => none).getLast? := by
  have key : ∀ (calls : List PayloadBuilderCall) (p : Payload),
      (calls.foldl PayloadBuilderCall.apply p).data =
        ((calls.filterMap fun | .setData d => some d | .setMetadata _ => none).getLast?).or p.data ∧
      (calls.foldl PayloadBuilderCall.apply p).metadata =
        ((calls.filterMap fun | .setMetadata m => some m | .setData _ => none).getLast?).or
          p.metadata := by
    intro calls
    induction calls with
    | nil => exact fun p => ⟨rfl, rfl⟩
    | cons c cs ih =>
      intro p
      rw [List.foldl_cons]
      refine ⟨(ih _).1.trans ?_, (ih _).2.trans ?_⟩
      · cases c with
        | setData d =>
          simp only [List.filterMap_cons, List.getLast?_cons]
          cases (cs.filterMap _).getLast? <;> rfl
        | setMetadata m => rw [List.filterMap_cons_none rfl]; rfl
      · cases c with
        | setData d => rw [List.filterMap_cons_none rfl]; rfl
        | setMetadata m =>
          simp only [List.filterMap_cons, List.getLast?_cons]
          cases (cs.filterMap _).getLast? <;> rfl
  have h := key calls Payload.default
  refine ⟨h.1.trans ?_, h.2.trans ?_⟩ <;> exact Option.or_none

/-- **C59**: the accessors of a payload. -/
theorem C59_accessors (p : Payload) :
    p.len = (p.metadata.getD []).length + (p.data.getD []).length ∧
    (p.isEmpty = true ↔ p.metadata.getD [] = [] ∧ p.data.getD [] = []) ∧
    p.split = (p.metadata, p.data) ∧
    (p.hasData = true ↔ p.data ≠ none) ∧ (p.hasMetadata = true ↔ p.metadata ≠ none) := by
  obtain ⟨m, d⟩ := p
  have hl : (Payload.mk m d).len = (m.getD []).length + (d.getD []).length := by
    cases m <;> cases d <;> simp [Payload.len]
  refine ⟨hl, ?_, rfl, ?_, ?_⟩
  · unfold Payload.isEmpty
    rw [hl, beq_iff_eq, Nat.add_eq_zero_iff, List.length_eq_zero_iff, List.length_eq_zero_iff]
  · cases d <;> simp [Payload.hasData]
  · cases m <;> simp [Payload.hasMetadata]

/-- **C59**: encoding appends the metadata and then the data, `len` bytes in all. -/
theorem C59_encode (p : Payload) (buf : Bytes) :
    p.encode buf = buf ++ p.metadata.getD [] ++ p.data.getD [] ∧
    (p.encode buf).length = buf.length + p.len := by
  have he : p.encode buf = buf ++ p.metadata.getD [] ++ p.data.getD [] := by
    obtain ⟨m, d⟩ := p
    cases m <;> cases d <;> simp [Payload.encode, putSlice]
  refine ⟨he, ?_⟩
  rw [he, (C59_accessors p).1, List.length_append, List.length_append, Nat.add_assoc]

example : PayloadBuilder.build [.setData [1], .setMetadata [2], .setData [3]] =
    ⟨some [2], some [3]⟩ := by decide

end Binate
