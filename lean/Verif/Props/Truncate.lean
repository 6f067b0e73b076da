import Verif.Lemmas.Truncate
import Verif.Lemmas.Outcomes
import Verif.Props.Codec

/-! # Lost bytes and lost fragments (C83, C84) -/

namespace Binate

open Spec RSocketMachine

/-! ## C83 -/

/-- **C83** as stated is false: a frame that lost its last byte can pass for another frame. -/
theorem C83_truncation_false : ¬ ∀ (f : Frame) (b : Bytes) (k : Nat), WellFormed f → NoEmpty f →
    f.toBytes = .ok b → k < b.length → ∃ r, decode (b.take k) = .err .inComplete r := by
  intro h
  obtain ⟨r, hr⟩ := h (.error ⟨3#32, 0x201#32, some [7, 8]⟩) _ 11
    ⟨by decide, by unfold ConnectionCode; decide, by unfold StreamCode; decide⟩
    (by unfold NoEmpty; decide) rfl (by decide)
  revert hr
  have : decode (([0, 0, 0, 3, 0x2C, 0, 0, 0, 2, 1, 7, 8] : Bytes).take 11) =
    .ok (.error ⟨3#32, 0x201#32, some [7]⟩) [] := by decide
  show ¬ decode (([0, 0, 0, 3, 0x2C, 0, 0, 0, 2, 1, 7, 8] : Bytes).take 11) = _
  rw [this]
  nofun

/-- **C83**, what holds: cutting the bytes of a frame short is reported as `InComplete` exactly if
it cuts into the part before the last field; if it cuts into the last field, the frame is accepted
with that field cut. -/
theorem C83_truncation_partial {b rest : Bytes} {f : Frame} (h : decode b = .ok f rest) (k : Nat) :
    (k < mandatory f → ∃ r, decode (b.take k) = .err .inComplete r) ∧
    (mandatory f ≤ k → decode (b.take k) =
      .ok (withTail ((tailOf f).take (k - mandatory f)) f) (rest.take (k - mandatory f))) := by
  refine ⟨fun hk => ?_, fun hk => decode_iff.2 (parses_take (decode_iff.1 h) hk)⟩
  have hb : b = b.take k ++ b.drop k := (List.take_append_drop k b).symm
  have hlen : k ≤ b.length := by
    have h1 := parses_length (decode_iff.1 h)
    rw [layout_size] at h1
    unfold mandatory at hk
    omega
  cases hd : decode (b.take k) with
  | ok g r =>
    exfalso
    have h1 := C14_extension hd (b.drop k)
    rw [← hb, h] at h1
    simp only [Res.ok.injEq] at h1
    rw [h1.1, mandatory_extend] at hk
    have h2 := parses_length (decode_iff.1 hd)
    rw [layout_size, List.length_take, Nat.min_eq_left hlen] at h2
    unfold mandatory at hk
    omega
  | err e r =>
    by_cases he : e = .inComplete
    · exact ⟨r, by rw [he]⟩
    · exfalso
      have h1 := C14_extension_error hd he (b.drop k)
      rw [← hb, h] at h1
      cases h1
  | panic m =>
    exfalso
    obtain ⟨h3, h4⟩ := (C05_no_panic_partial (b.take k)).1.1 ⟨m, hd⟩
    have h5 : typeOf b = typeOf (b.take k) := by
      conv => lhs; rw [hb]
      unfold typeOf byteAt
      rw [getD_append, if_pos (by omega)]
    obtain ⟨m', h6⟩ := (C05_no_panic_partial b).1.2
      ⟨by rw [List.length_take] at h3; omega, by rw [h5, h4]⟩
    rw [h] at h6
    cases h6
  | diverge => exact absurd hd (C05_no_panic_partial (b.take k)).2

example : mandatory (.requestFnf ⟨3#32, Flags.empty, ⟨some [1, 2], some [3, 4]⟩⟩) = 11 ∧
    withTail [3] (.requestFnf ⟨3#32, Flags.empty, ⟨some [1, 2], some [3, 4]⟩⟩) =
      .requestFnf ⟨3#32, Flags.empty, ⟨some [1, 2], some [3]⟩⟩ ∧
    mandatory (.resume ⟨⟨1#16, 0#16⟩, [1, 2], 3#64, 4#64⟩) = 30 := ⟨rfl, rfl, rfl⟩

/-! ## C84 -/

/-- **C84** as stated is false: with the last fragment missing, reassembly still succeeds. -/
theorem C84_detected_false : ¬ ∀ (frames : List Frame) (bs : List Bytes) (q : Payload),
    encodeAll frames = .ok bs → (⟨bs⟩ : BufList Bytes).tryInto = .ok (.ok q) →
    OneRequest frames := by
  intro h
  obtain ⟨sid, ps, last, e⟩ := h
    [fnfFrame 1#32 true ⟨none, some [1, 2]⟩] _ ⟨none, some [1, 2]⟩ rfl rfl
  have h2 := congrArg List.getLast? e
  rw [List.getLast?_concat] at h2
  have h3 : (some (1#32, true, (⟨none, some [1, 2]⟩ : Payload))) = some (sid, false, last) := by
    exact Option.some.inj h2
  cases h3

/-- **C84**, nothing is ever detected: whichever fragments of a request arrive, in whichever
order and however often, reassembly succeeds with what they carry. -/
theorem C84_never_detected {dbg : Bool} {fuel : Nat} {m m' : RSocketMachine} {p : Payload}
    {frames : List Frame}
    (hf : m.fireAndForget dbg fuel openTransport p [] = .ok (.ok (), frames, m'))
    (hm : (p.metadata.getD []).length < 2 ^ 24 ∨ ∃ size, m.chunkPayload = some size ∧ size < 2 ^ 24)
    {gs : List Frame} (hg : ∀ g ∈ gs, g ∈ frames) :
    ∃ bs, encodeAll gs = .ok bs ∧ (⟨bs⟩ : BufList Bytes).tryInto =
      .ok (.ok ⟨present (gs.map fun g => (fnfParts g).1).flatten,
        present (gs.map fun g => (fnfParts g).2).flatten⟩) := by
  obtain ⟨sid, parts, hs, rfl, -, -, hl⟩ := call_parts hf hm
  obtain ⟨l, rfl, h2⟩ := pick_map hg
  have hl' := fun e he => hl e (h2 e he)
  refine ⟨_, encodeAll_fragments hs l hl', ?_⟩
  rw [tryInto_fragments hs l hl', (join_fnfParts sid l).1, (join_fnfParts sid l).2]

/-- **C84**, what holds: when fragments are lost but not reordered, the result is the payload with
bytes left out; when only the last ones are lost, it is cut short. It is the payload exactly if the
fragments that arrived carry as many bytes. -/
theorem C84_lost_partial {dbg : Bool} {fuel : Nat} {m m' : RSocketMachine} {p : Payload}
    {frames : List Frame}
    (hf : m.fireAndForget dbg fuel openTransport p [] = .ok (.ok (), frames, m'))
    (hm : (p.metadata.getD []).length < 2 ^ 24 ∨ ∃ size, m.chunkPayload = some size ∧ size < 2 ^ 24)
    {gs : List Frame} (hg : gs.Sublist frames) :
    ∃ bs q, encodeAll gs = .ok bs ∧ (⟨bs⟩ : BufList Bytes).tryInto = .ok (.ok q) ∧
      (q.metadata.getD []).Sublist (p.metadata.getD []) ∧ (q.data.getD []).Sublist (p.data.getD []) ∧
      (gs <+: frames → q.metadata.getD [] <+: p.metadata.getD [] ∧
        q.data.getD [] <+: p.data.getD []) ∧
      (q = normPayload p ↔ (gs.map userBytes).sum = paySize p) := by
  obtain ⟨sid, parts, hs, rfl, hM, hD, hl⟩ := call_parts hf hm
  obtain ⟨l, h2, rfl⟩ := List.sublist_map_iff.1 hg
  have hl' := fun e he => hl e (h2.subset he)
  have sm : (joinMetadata (l.map (·.2))).Sublist (p.metadata.getD []) := by
    rw [← hM]; exact ((h2.map _).map _).flatten
  have sd : (joinData (l.map (·.2))).Sublist (p.data.getD []) := by
    rw [← hD]; exact ((h2.map _).map _).flatten
  refine ⟨_, _, encodeAll_fragments hs l hl', tryInto_fragments hs l hl', ?_, ?_, ?_, ?_⟩
  · rw [present_getD]; exact sm
  · rw [present_getD]; exact sd
  · rintro ⟨t, ht⟩
    rw [present_getD, present_getD, ← hM, ← hD, (join_fnfParts sid l).1, (join_fnfParts sid l).2,
      (join_fnfParts sid parts).1, (join_fnfParts sid parts).2, ← ht]
    simp only [List.map_append, List.flatten_append]
    exact ⟨List.prefix_append _ _, List.prefix_append _ _⟩
  · rw [userBytes_parts, normPayload, normOpt_present, normOpt_present]
    simp only [Payload.mk.injEq]
    constructor
    · rintro ⟨h3, h4⟩
      have h5 := congrArg (fun o => (o.getD []).length) h3
      have h6 := congrArg (fun o => (o.getD []).length) h4
      simp only [present_getD] at h5 h6
      rw [h5, h6]
      rfl
    · intro h3
      have h4 := sm.length_le
      have h5 := sd.length_le
      have h6 : (joinMetadata (l.map (·.2))).length + (joinData (l.map (·.2))).length =
        (p.metadata.getD []).length + (p.data.getD []).length := h3
      rw [sm.eq_of_length (by omega), sd.eq_of_length (by omega)]
      exact ⟨rfl, rfl⟩

/-- Three fragments are sent, the middle one is lost, and the receiver does not notice. -/
example : ∃ frames m', (fragmenting 2).fireAndForget true 1 openTransport
      ⟨none, some [1, 2, 3, 4, 5]⟩ [] = .ok (.ok (), frames, m') ∧ frames.length = 3 ∧
    (frames.eraseIdx 1).Sublist frames ∧
    ∃ bs, encodeAll (frames.eraseIdx 1) = .ok bs ∧
      (⟨bs⟩ : BufList Bytes).tryInto = .ok (.ok ⟨none, some [1, 2, 5]⟩) :=
  ⟨_, _, rfl, by decide +kernel, List.eraseIdx_sublist _ _,
    [[0, 0, 0, 1, 0x14, 0x40, 0, 0, 0, 1, 2], [0, 0, 0, 1, 0x14, 0, 0, 0, 0, 5]],
    by decide +kernel, by decide +kernel⟩

end Binate
