import Verif.Props.Interop
import Verif.Props.Truncate
import Verif.Props.Sizes
import Verif.Lemmas.Rsocket

/-! # Exchanging frames with a peer that follows the RSocket protocol

C132. `protocolLayout f` are the bytes of `f` as the RSocket protocol has them. -/

namespace Binate

open Spec

/-- A fire-and-forget request without metadata. -/
def plainFnf : RequestFnfFrame :=
  { streamId := 1#32, flags := Flags.empty, payload := ⟨none, some [0#8, 0#8, 1#8, 7#8, 8#8]⟩ }

theorem plainFnf_wellFormed : WellFormed (.requestFnf plainFnf) :=
  ⟨by decide, by decide, by decide⟩

/-- **C132** is false: not even a request without flags is sent as in the protocol, or read as it was
meant. -/
theorem C132_interop_false : ¬ ∀ f : Frame, WellFormed f → MetadataFlagged f →
    f.toBytes = .ok (protocolLayout f) ∧ decode (protocolLayout f) = .ok (normalize f) [] := by
  intro h
  have := (h (.requestFnf plainFnf) plainFnf_wellFormed
    (by intro fl p h1 h2; cases h1; cases h2; rfl)).2
  revert this
  decide

/-- **C132**, exactly which frames are sent as in the protocol: those that have neither a payload nor
flags. -/
theorem C132_sent_partial {f : Frame} (hf : FrameFlagsOk f) (hm : metaLen f < 2 ^ 24)
    (hmf : MetadataFlagged f) :
    f.toBytes = .ok (protocolLayout f) ↔ payloadOf f = none ∧ flagNumber f = 0 := by
  cases hp : payloadOf f with
  | none =>
    rw [protocolLayout_none hp, C131_sent_partial hf hm]
    exact ⟨fun h => ⟨rfl, h⟩, fun h => h.2⟩
  | some p =>
    refine ⟨fun h => ?_, fun h => nomatch h.1⟩
    exfalso
    cases hq : p.metadata with
    | none =>
      rw [C08_layout_partial hf hm] at h
      have e : layout 16 f = protocolLayout f := by injection h
      have := protocolLayout_length hp hq 16
      rw [e] at this
      omega
    | some m =>
      have hs : p.metadata.isSome = true := by rw [hq]; rfl
      rw [protocolLayout_some hp hs, C131_sent_partial hf hm] at h
      exact metadataFlagged_number hmf hp hs h

/-- **C132**, in particular for every frame that a public constructor makes: none that carries a
payload (SETUP, the four requests, PAYLOAD) is ever sent as in the protocol. -/
theorem C132_no_request {dbg : Bool} {f : Frame} {p : Payload} (hb : Built dbg f) (hs : Sendable f)
    (hp : payloadOf f = some p) : f.toBytes ≠ .ok (protocolLayout f) := by
  have hw := built_wellFormed hb hs
  intro h
  have := ((C132_sent_partial (wellFormed_flags hw) (wellFormed_meta hw)
    (built_metadataFlagged hb)).1 h).1
  rw [hp] at this
  cases this

/-- **C132**, exactly which frames of a peer that follows the protocol are read as it meant them:
those that have neither a payload nor flags that this side keeps. -/
theorem C132_read_partial {f : Frame} (h : WellFormed f) (hmf : MetadataFlagged f) :
    decode (protocolLayout f) = .ok (normalize f) [] ↔ payloadOf f = none ∧ Unflagged f := by
  cases hp : payloadOf f with
  | none =>
    rw [protocolLayout_none hp, C131_read_partial h]
    exact ⟨fun h => ⟨rfl, h⟩, fun h => h.2⟩
  | some p =>
    refine ⟨fun h' => ?_, fun h => nomatch h.1⟩
    exfalso
    cases hq : p.metadata with
    | none =>
      have ha := (C78_same_frame_iff (decode_layout h) h').1 ⟨rfl, rfl⟩
      have := protocolLayout_length hp hq 16
      rw [agree_length ha] at this
      omega
    | some m =>
      have hs : p.metadata.isSome = true := by rw [hq]; rfl
      rw [protocolLayout_some hp hs, C131_read_partial h, unflagged_iff (payload_keeps hp)] at h'
      exact metadataFlagged_number hmf hp hs h'

/-- **C132**, with metadata everything but the flags gets across (C131). -/
theorem C132_metadata {f : Frame} {p : Payload} (h : WellFormed f) (hl : TokenLegible f)
    (hp : payloadOf f = some p) (hm : p.metadata.isSome = true) :
    decode (protocolLayout f) = .ok (normalize (asRead f)) [] := by
  rw [protocolLayout_some hp hm]
  exact C131_flags_read h hl

/-- **C132**, without metadata: if such a request or PAYLOAD frame is accepted, the first three bytes
of its data have been taken for a length, and that many bytes after them for metadata. -/
theorem C132_data_split {f g : Frame} {d : Option Bytes} {rest : Bytes}
    (hp : payloadOf f = some ⟨none, d⟩) (hs : typeNumber f ≠ 1)
    (h : decode (protocolLayout f) = .ok g rest) :
    typeNumber g = typeNumber f ∧ rest = [] ∧ ∃ q, payloadOf g = some q ∧ Pay q (optBytes d) := by
  have hfl : ∀ fl, flagsOf 32 fl < 1024 := by
    intro fl
    rw [flagsOf_scale]
    have := flagsOf_lt fl
    omega
  have four : ∀ v, (be 4 v).length = 4 := fun _ => rfl
  cases f with
  | requestResponse v =>
    have hv : v.payload = ⟨none, d⟩ := by injection hp
    obtain ⟨ht, s, fl, hb⟩ := parses_header (by decide) (hfl _) (decode_iff.1 h)
    rw [hv] at hb
    generalize e : protocolPayload ⟨none, d⟩ = body at hb
    cases hb with
    | requestResponse _ _ h3 => exact ⟨rfl, rfl, _, rfl, by rw [← e] at h3; exact h3⟩
    | _ => cases ht
  | requestFnf v =>
    have hv : v.payload = ⟨none, d⟩ := by injection hp
    obtain ⟨ht, s, fl, hb⟩ := parses_header (by decide) (hfl _) (decode_iff.1 h)
    rw [hv] at hb
    generalize e : protocolPayload ⟨none, d⟩ = body at hb
    cases hb with
    | requestFnf _ _ h3 => exact ⟨rfl, rfl, _, rfl, by rw [← e] at h3; exact h3⟩
    | _ => cases ht
  | payload v =>
    have hv : v.payload = ⟨none, d⟩ := by injection hp
    obtain ⟨ht, s, fl, hb⟩ := parses_header (by decide) (hfl _) (decode_iff.1 h)
    rw [hv] at hb
    generalize e : protocolPayload ⟨none, d⟩ = body at hb
    cases hb with
    | payload _ _ h3 => exact ⟨rfl, rfl, _, rfl, by rw [← e] at h3; exact h3⟩
    | _ => cases ht
  | requestStream v =>
    have hv : v.payload = ⟨none, d⟩ := by injection hp
    have h' := decode_iff.1 h
    simp only [protocolLayout] at h'
    rw [hv, List.append_assoc] at h'
    obtain ⟨ht, s, fl, hb⟩ := parses_header (by decide) (hfl _) h'
    generalize e : be 4 v.initialRequestN.toNat ++ protocolPayload ⟨none, d⟩ = body at hb
    cases hb with
    | requestStream _ _ h2 h3 =>
      have := (List.append_inj e (by rw [four, h2.1])).2
      exact ⟨rfl, rfl, _, rfl, by rw [← this] at h3; exact h3⟩
    | _ => cases ht
  | requestChannel v =>
    have hv : v.payload = ⟨none, d⟩ := by injection hp
    have h' := decode_iff.1 h
    simp only [protocolLayout] at h'
    rw [hv, List.append_assoc] at h'
    obtain ⟨ht, s, fl, hb⟩ := parses_header (by decide) (hfl _) h'
    generalize e : be 4 v.initialRequestN.toNat ++ protocolPayload ⟨none, d⟩ = body at hb
    cases hb with
    | requestChannel _ _ h2 h3 =>
      have := (List.append_inj e (by rw [four, h2.1])).2
      exact ⟨rfl, rfl, _, rfl, by rw [← this] at h3; exact h3⟩
    | _ => cases ht
  | setup v => exact absurd rfl hs
  | _ => cases hp

/-- **C132**, so such a frame with less than three bytes of data is never accepted. -/
theorem C132_short {f g : Frame} {d : Option Bytes} {rest : Bytes}
    (hp : payloadOf f = some ⟨none, d⟩) (hs : typeNumber f ≠ 1) (hd : (optBytes d).length < 3) :
    decode (protocolLayout f) ≠ .ok g rest := by
  intro h
  obtain ⟨-, -, q, -, m, x, mb, e, ⟨l, e2, hl, -⟩, -⟩ := C132_data_split hp hs h
  rw [e, e2, List.length_append, List.length_append, hl] at hd
  omega

/-- **C132**, without metadata, exactly: the data are taken for a length, metadata and data, and the
frame is called incomplete if they are too short for that. This is so for all six types, but for SETUP
frames that ask for only one of resumption and leases (C131). -/
theorem C132_taken {f : Frame} {d : Option Bytes} (h : WellFormed f) (hl : TokenLegible f)
    (hp : payloadOf f = some ⟨none, d⟩) :
    (∀ q, splitData (optBytes d) = some q →
      decode (protocolLayout f) = .ok (withPayload q (asRead f)) []) ∧
    (splitData (optBytes d) = none → ∃ r, decode (protocolLayout f) = .err .inComplete r) := by
  obtain ⟨pre, e1, e2⟩ := protocolLayout_data hp
  generalize optBytes d = b at e1
  rw [e1]
  have key : ∀ c : Bytes, 3 + u24At c 0 = c.length →
      decode (pre ++ c) =
        .ok (withPayload ⟨normOpt (some (c.drop 3)), none⟩ (asRead f)) [] := by
    intro c hc
    have hm : (c.drop 3).length = u24At c 0 := by rw [List.length_drop]; omega
    have hw := C131_flags_read (withPayload_wellFormed (p := ⟨some (c.drop 3), none⟩) h
      (show (c.drop 3).length < 2 ^ 24 from hm ▸ u24_lt c)) (withPayload_legible _ hl)
    rw [e2, withPayload_read hp, hm, u24_take (by omega)] at hw
    have ec : c.take 3 ++ (c.drop 3 ++ optBytes none) = c := by
      show c.take 3 ++ (c.drop 3 ++ []) = c
      rw [List.append_nil, List.take_append_drop]
    rw [ec] at hw
    exact hw
  constructor
  · intro q hq
    unfold splitData at hq
    split at hq
    · cases hq
    rename_i hn
    have hlen : (b.drop 3).length = b.length - 3 := List.length_drop
    cases hq
    have ht : ((b.drop 3).take (u24At b 0)).length = u24At b 0 := by
      rw [List.length_take, hlen]
      omega
    have hw := C131_flags_read (withPayload_wellFormed
      (p := ⟨some ((b.drop 3).take (u24At b 0)), some (b.drop (3 + u24At b 0))⟩) h
      (show ((b.drop 3).take (u24At b 0)).length < 2 ^ 24 from (by rw [ht]; exact u24_lt b)))
      (withPayload_legible _ hl)
    rw [e2, withPayload_read hp, ht, u24_take (by omega)] at hw
    have ec : b.take 3 ++ ((b.drop 3).take (u24At b 0) ++ optBytes (some (b.drop (3 + u24At b 0)))) =
        b := by
      show b.take 3 ++ ((b.drop 3).take (u24At b 0) ++ b.drop (3 + u24At b 0)) = b
      rw [← List.drop_drop, List.take_append_drop, List.take_append_drop]
    rw [ec] at hw
    exact hw
  · intro hn
    have hshort : ∃ c : Bytes, 3 + u24At c 0 = c.length ∧ ∃ k, k < c.length ∧ b = c.take k := by
      unfold splitData at hn
      split at hn
      · rename_i hs
        exact completed b hs
      · cases hn
    obtain ⟨c, hc, k, hk, rfl⟩ := hshort
    have hd := key c hc
    have hsize := (C82_size _ (pre ++ c) []).2 hd
    have hman : mandatory (withPayload ⟨normOpt (some (c.drop 3)), none⟩ (asRead f)) =
        (pre ++ c).length := by
      unfold mandatory
      rw [withPayload_tail hp, hsize]
      rfl
    have := (C83_truncation_partial hd (pre.length + k)).1 (by
      rw [hman, List.length_append]
      omega)
    rwa [List.take_length_add_append] at this

/-- **C132**, in particular no client that follows the protocol and sends a SETUP frame without a payload,
asking for neither resumption nor leases, can connect: the frame is called incomplete. -/
theorem C132_setup {f : SetupFrame} (h : WellFormed (.setup f))
    (hr : f.flags.bits.getLsbD 6 = false) (hl : f.flags.bits.getLsbD 5 = false)
    (hp : f.payload = ⟨none, none⟩) :
    ∃ r, decode (protocolLayout (.setup f)) = .err .inComplete r :=
  (C132_taken (d := none) h (hl.trans hr.symm) (congrArg some hp)).2 rfl

example : ∃ f, SetupFrameBuilder.build true [] = .ok f ∧ WellFormed (.setup f) ∧
    f.flags.bits.getLsbD 6 = false ∧ f.flags.bits.getLsbD 5 = false ∧ f.payload = ⟨none, none⟩ := by
  refine ⟨_, rfl, ?_, rfl, rfl, rfl⟩
  simp only [WellFormed]
  decide

/-- The data of a request without metadata are read as one byte of metadata and one of data. -/
example : decode (protocolLayout (.requestFnf plainFnf)) = .ok (.requestFnf
    { streamId := 1#32, flags := Flags.empty, payload := ⟨some [7#8], some [8#8]⟩ }) [] := by
  decide

example : splitData (optBytes plainFnf.payload.data) = some ⟨some [7#8], some [8#8]⟩ := by decide

example : Built true (.requestFnf { plainFnf with flags := Flags.empty }) ∧
    Sendable (.requestFnf plainFnf) ∧ typeNumber (.requestFnf plainFnf) ≠ 1 ∧
    MetadataFlagged (.requestFnf sampleFnf) ∧ WellFormed (.requestFnf sampleFnf) ∧
    TokenLegible (.requestFnf sampleFnf) ∧ sampleFnf.payload.metadata.isSome = true :=
  ⟨.requestFnf (s := 1#32) (fo := false) (p := plainFnf.payload) (by decide), by
    show _ < _; decide, by decide, by intro fl p h1 h2; cases h1; cases h2; rfl,
    sampleFnf_wellFormed, trivial, rfl⟩

/-- CANCEL and a KEEPALIVE that asks for no answer are exchanged. -/
example : payloadOf (.cancel { streamId := 1#32 }) = none ∧
    Unflagged (.cancel { streamId := 1#32 }) ∧
    MetadataFlagged (.cancel { streamId := 1#32 }) :=
  ⟨rfl, rfl, by intro fl p h; cases h⟩

end Binate
