import Verif.Lemmas.Interop
import Verif.Lemmas.View
import Verif.Spec.Socket
import Verif.Spec.Truncate
import Verif.Spec.Rsocket

/-! # Lemmas for C132 -/

namespace Binate

open Spec

theorem protocolPayload_some {p : Payload} (h : p.metadata.isSome = true) :
    protocolPayload p = payloadBytes p := by
  cases p with
  | mk m d => cases m with
    | none => cases h
    | some m => rfl

theorem protocolPayload_none {p : Payload} (h : p.metadata = none) :
    payloadBytes p = [0, 0, 0] ++ protocolPayload p := by
  cases p with
  | mk m d =>
    cases h
    show be 3 0 ++ [] ++ optBytes d = [0, 0, 0] ++ ([] ++ optBytes d)
    rw [List.append_nil, List.nil_append]
    rfl

/-- With metadata, the protocol and the diagrams agree. -/
theorem protocolLayout_some {f : Frame} {p : Payload} (hp : payloadOf f = some p)
    (h : p.metadata.isSome = true) : protocolLayout f = layout 32 f := by
  cases f <;> cases hp <;> simp only [protocolLayout, layout, protocolPayload_some h]
  rfl

theorem protocolLayout_none {f : Frame} (hp : payloadOf f = none) :
    protocolLayout f = layout 32 f := by
  cases f <;> first | rfl | cases hp

/-- Without metadata, it has three bytes less. -/
theorem protocolLayout_length {f : Frame} {p : Payload} (hp : payloadOf f = some p)
    (h : p.metadata = none) (u : Nat) : (layout u f).length = (protocolLayout f).length + 3 := by
  have hh : ∀ s t v, (header s t v).length = 6 := fun _ _ _ => rfl
  cases f <;> cases hp
  case setup v =>
    cases ht : v.resumeToken <;>
      simp only [protocolLayout, layout, protocolPayload_none h, List.length_append, hh, ht,
        List.length_cons, List.length_nil] <;> omega
  all_goals
    simp only [protocolLayout, layout, protocolPayload_none h, List.length_append, hh,
      List.length_cons, List.length_nil]
    omega

theorem metadataFlagged_number {f : Frame} {p : Payload} (hf : MetadataFlagged f)
    (hp : payloadOf f = some p) (h : p.metadata.isSome = true) : flagNumber f ≠ 0 := by
  have key : ∀ fl : Flags, fl.bits.getLsbD 7 = true → flagsOf 1 fl ≠ 0 := by
    intro fl hb
    unfold flagsOf flagsValue
    rw [hb]
    simp
  cases f <;> cases hp <;> exact key _ (by rw [hf _ _ rfl rfl]; exact h)

theorem payload_keeps {f : Frame} {p : Payload} (hp : payloadOf f = some p) :
    keepsFlags (typeNumber f) = true := by
  cases f <;> first | rfl | cases hp

theorem built_metadataFlagged {dbg : Bool} {f : Frame} (h : Built dbg f) : MetadataFlagged f := by
  intro fl p hfl hp
  have := built_plain h fl hfl 7 (by cases f <;> simp [shownBits])
  rw [getLsbD_testBit] at this
  rw [this]
  simp [hasMetadata, hp]

theorem agree_length {b b' : Bytes} (h : AgreeExceptIgnored b b') : b.length = b'.length := h.1

/-- A header and what comes after it. -/
theorem parses_header {sid ty fl : Nat} {body rest : Bytes} {g : Frame} (ht : ty < 64)
    (hf : fl < 1024) (h : Parses (header sid ty fl ++ body) g rest) :
    typeNumber g = ty ∧ ∃ sid' fl', Body sid' fl' body g rest := by
  obtain ⟨hd, bd, sid', fl', e, hh, hb⟩ := h
  have hl : hd.length = 6 := by
    obtain ⟨s, w, rfl, hs, hw, -⟩ := hh
    rw [List.length_append, hs, hw]
  obtain ⟨e1, e2⟩ := List.append_inj e (by rw [hl]; rfl)
  subst e1 e2
  refine ⟨?_, sid', fl', hb⟩
  obtain ⟨s, w, e, hs, hw, -, hty, -⟩ := hh
  have ew := (List.append_inj (show be 4 sid ++ be 2 (ty * 1024 + fl) = s ++ w from e)
    (by rw [hs]; rfl)).2
  rw [hty, ← ew]
  show ((BitVec.ofNat 8 ((ty * 1024 + fl) / 256 ^ 1)).toNat * 256 ^ 1 +
    ((BitVec.ofNat 8 ((ty * 1024 + fl) / 256 ^ 0)).toNat * 256 ^ 0 + 0)) / 1024 = ty
  rw [BitVec.toNat_ofNat, BitVec.toNat_ofNat]
  omega

/-- A payload without metadata has its data right after the other fields; any other payload would be
written there, too. -/
theorem protocolLayout_data {f : Frame} {d : Option Bytes} (hp : payloadOf f = some ⟨none, d⟩) :
    ∃ pre, protocolLayout f = pre ++ optBytes d ∧ ∀ m x,
      layout 32 (withPayload ⟨some m, x⟩ f) = pre ++ (be 3 m.length ++ (m ++ optBytes x)) := by
  have hb : ∀ m x, payloadBytes ⟨some m, x⟩ = be 3 m.length ++ (m ++ optBytes x) :=
    fun m x => List.append_assoc _ _ _
  have hd : protocolPayload ⟨none, d⟩ = optBytes d := rfl
  cases f <;> rename_i v <;> cases v <;> cases hp <;>
    refine ⟨_, rfl, fun m x => ?_⟩ <;> simp only [withPayload, layout, hb] <;> rfl

theorem withPayload_wellFormed {f : Frame} {p : Payload} (h : WellFormed f)
    (hp : (optBytes p.metadata).length < 2 ^ 24) : WellFormed (withPayload p f) := by
  cases f <;> simp only [withPayload, WellFormed] at h ⊢ <;> tauto

theorem withPayload_legible {f : Frame} (p : Payload) (h : TokenLegible f) :
    TokenLegible (withPayload p f) := by
  cases f <;> exact h

theorem withPayload_read {f : Frame} {q : Payload} (hq : payloadOf f = some q) (p : Payload) :
    normalize (asRead (withPayload p f)) = withPayload (normPayload p) (asRead f) := by
  cases f <;> first | rfl | cases hq

theorem u24_take : ∀ {d : Bytes}, 3 ≤ d.length → be 3 (u24At d 0) = d.take 3
  | a :: b :: c :: d, _ => by
    have ha := a.isLt
    have hb := b.isLt
    have hc := c.isLt
    show [BitVec.ofNat 8 ((a.toNat * 65536 + b.toNat * 256 + c.toNat) / 256 ^ 2),
      BitVec.ofNat 8 ((a.toNat * 65536 + b.toNat * 256 + c.toNat) / 256 ^ 1),
      BitVec.ofNat 8 ((a.toNat * 65536 + b.toNat * 256 + c.toNat) / 256 ^ 0)] = [a, b, c]
    have h1 : BitVec.ofNat 8 ((a.toNat * 65536 + b.toNat * 256 + c.toNat) / 256 ^ 2) = a := by
      apply BitVec.eq_of_toNat_eq
      rw [BitVec.toNat_ofNat]
      omega
    have h2 : BitVec.ofNat 8 ((a.toNat * 65536 + b.toNat * 256 + c.toNat) / 256 ^ 1) = b := by
      apply BitVec.eq_of_toNat_eq
      rw [BitVec.toNat_ofNat]
      omega
    have h3 : BitVec.ofNat 8 ((a.toNat * 65536 + b.toNat * 256 + c.toNat) / 256 ^ 0) = c := by
      apply BitVec.eq_of_toNat_eq
      rw [BitVec.toNat_ofNat]
      omega
    rw [h1, h2, h3]

theorem u24_lt (d : Bytes) : u24At d 0 < 2 ^ 24 := by
  unfold u24At byteAt
  have h : ∀ x : U8, x.toNat < 256 := fun x => x.isLt
  have h0 := h ((d[0]?).getD 0)
  have h1 := h ((d[0 + 1]?).getD 0)
  have h2 := h ((d[0 + 2]?).getD 0)
  omega

theorem withPayload_tail {f : Frame} {p : Payload} (hp : payloadOf f = some p) (m : Option Bytes) :
    tailOf (withPayload ⟨m, none⟩ (asRead f)) = [] := by
  cases f <;> first | rfl | cases hp

theorem u24_append {d x : Bytes} (h : 3 ≤ d.length) : u24At (d ++ x) 0 = u24At d 0 := by
  match d, h with
  | _ :: _ :: _ :: _, _ => rfl

/-- What is too short for its length is the beginning of something that is not. -/
theorem completed (b : Bytes) (h : b.length < 3 ∨ b.length < 3 + u24At b 0) :
    ∃ c : Bytes, 3 + u24At c 0 = c.length ∧ ∃ k, k < c.length ∧ b = c.take k := by
  have fill : ∀ e : Bytes, 3 ≤ e.length → e.length ≤ 3 + u24At e 0 →
      ∃ c : Bytes, 3 + u24At c 0 = c.length ∧ e <+: c := by
    intro e h3 hn
    refine ⟨e ++ List.replicate (3 + u24At e 0 - e.length) 0#8, ?_, List.prefix_append ..⟩
    rw [u24_append h3, List.length_append, List.length_replicate]
    omega
  by_cases h3 : b.length < 3
  · obtain ⟨c, hc, hp⟩ := fill (b ++ List.replicate (3 - b.length) 0#8)
      (by rw [List.length_append, List.length_replicate]; omega)
      (by rw [List.length_append, List.length_replicate]; omega)
    have hp' := (List.prefix_append b _).trans hp
    exact ⟨c, hc, b.length, by omega, (List.prefix_iff_eq_take.1 hp')⟩
  · have hn : b.length < 3 + u24At b 0 := h.resolve_left h3
    obtain ⟨c, hc, hp⟩ := fill b (by omega) (by omega)
    refine ⟨c, hc, b.length, ?_, List.prefix_iff_eq_take.1 hp⟩
    obtain ⟨x, rfl⟩ := hp
    rw [u24_append (by omega)] at hc
    omega

theorem header_streamId {sid ty fl : Nat} {x : Bytes} (h : sid < 2 ^ 31) :
    streamIdOf (header sid ty fl ++ x) = sid := by
  show ((BitVec.ofNat 8 (sid / 256 ^ 3)).toNat * 16777216 +
    (BitVec.ofNat 8 (sid / 256 ^ 2)).toNat * 65536 + (BitVec.ofNat 8 (sid / 256 ^ 1)).toNat * 256 +
    (BitVec.ofNat 8 (sid / 256 ^ 0)).toNat) % 2 ^ 31 = sid
  simp only [BitVec.toNat_ofNat]
  omega

theorem header_u24 {sid ty fl n : Nat} {x : Bytes} (h : n < 2 ^ 24) :
    u24At (header sid ty fl ++ (be 3 n ++ x)) 6 = n := by
  show (BitVec.ofNat 8 (n / 256 ^ 2)).toNat * 65536 + (BitVec.ofNat 8 (n / 256 ^ 1)).toNat * 256 +
    (BitVec.ofNat 8 (n / 256 ^ 0)).toNat = n
  simp only [BitVec.toNat_ofNat]
  omega

theorem header_diagram {sid ty fl : Nat} {x : Bytes} (ht : ty < 64) (hf : fl < 1024) :
    diagramFlags (header sid ty fl ++ x) = fl / 32 := by
  unfold diagramFlags
  rw [header_word ht hf]
  omega

theorem flagsOf_bits (fl : Flags) : (flagsOf 1 fl).testBit 3 = fl.bits.getLsbD 7 ∧
    (flagsOf 1 fl).testBit 2 = fl.bits.getLsbD 6 := by
  unfold flagsOf
  generalize fl.bits.getLsbD 8 = i
  generalize fl.bits.getLsbD 7 = m
  generalize fl.bits.getLsbD 6 = f
  generalize fl.bits.getLsbD 5 = c
  generalize fl.bits.getLsbD 4 = n
  revert i m f c n
  decide

theorem normOpt_optBytes (o : Option Bytes) : normOpt (some (optBytes o)) = normOpt o := by
  cases o with
  | none => rfl
  | some b => rfl

theorem fnfFrame_number (sid : U32) (follows : Bool) (p : Payload) :
    flagNumber (fnfFrame sid follows p) = 8 * p.metadata.isSome.toNat + 4 * follows.toNat := by
  show flagsOf 1 ⟨BitVec.ofNat 16
    ((if follows then 2 ^ 6 else 0) + (if p.metadata.isSome then 2 ^ 7 else 0))⟩ = _
  generalize p.metadata.isSome = m
  revert m follows
  decide

theorem payloadBytes_ne_nil (p : Payload) : payloadBytes p ≠ [] := by
  unfold payloadBytes
  intro h
  have := congrArg List.length h
  simp only [List.length_append] at this
  have three : ∀ n, (be 3 n).length = 3 := fun _ => rfl
  rw [three] at this
  simp at this

/-- A header with METADATA clear for such a peer. -/
theorem readFnf_plain {sid fl : Nat} {x : Bytes} (hs : sid < 2 ^ 31) (hf : fl < 1024)
    (hm : (fl / 32).testBit 3 = false) :
    readFnf (header sid 5 fl ++ x) = some (sid, (fl / 32).testBit 2, ⟨none, normOpt (some x)⟩) := by
  unfold readFnf
  have h6 : ¬ ((header sid 5 fl ++ x).length < 6 ∨ typeOf (header sid 5 fl ++ x) ≠ 5) := by
    rw [header_typeOf (by decide) hf, List.length_append]
    have : (header sid 5 fl).length = 6 := rfl
    omega
  rw [if_neg h6, header_diagram (by decide) hf, hm, header_streamId hs, header_drop]
  rfl

theorem readFnf_metadata {sid fl : Nat} {m : Bytes} (hs : sid < 2 ^ 31) (hf : fl < 1024)
    (hm : (fl / 32).testBit 3 = true) (hl : m.length < 2 ^ 24) {fo : Bool}
    (hfo : (fl / 32).testBit 2 = fo) (d : Option Bytes) :
    readFnf (header sid 5 fl ++ (be 3 m.length ++ (m ++ optBytes d))) =
      some (sid, fo, ⟨some m, normOpt d⟩) := by
  unfold readFnf
  have hlen : (header sid 5 fl ++ (be 3 m.length ++ (m ++ optBytes d))).length =
      9 + m.length + (optBytes d).length := by
    have h6 : (header sid 5 fl).length = 6 := rfl
    have h3 : (be 3 m.length).length = 3 := rfl
    simp only [List.length_append, h6, h3]
    omega
  have h6 : ¬ ((header sid 5 fl ++ (be 3 m.length ++ (m ++ optBytes d))).length < 6 ∨
      typeOf (header sid 5 fl ++ (be 3 m.length ++ (m ++ optBytes d))) ≠ 5) := by
    rw [header_typeOf (by decide) hf, hlen]
    omega
  have h9 : (header sid 5 fl ++ (be 3 m.length ++ (m ++ optBytes d))).drop 9 = m ++ optBytes d := rfl
  rw [if_neg h6, header_diagram (by decide) hf, if_pos hm, header_u24 hl, hlen,
    if_neg (by omega), header_streamId hs, hfo, ← List.drop_drop, h9, List.take_left', List.drop_left',
    normOpt_optBytes] <;> rfl

end Binate
