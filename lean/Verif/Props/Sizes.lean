import Verif.Lemmas.Sizes
import Verif.Lemmas.Outcomes

/-! # Lengths on the wire (C81, C82) -/

namespace Binate

open Spec RSocketMachine

/-! ## C82 -/

/-- **C82.** A frame on the wire is as long as its fixed part plus its byte fields: this is what
`to_bytes` writes for every frame it can encode, and what a successful `decode` takes away. So a
decoded frame never holds more bytes than were received for it. -/
theorem C82_size (f : Frame) (b rest : Bytes) :
    (f.toBytes = .ok b → b.length = overhead f + userBytes f) ∧
    (decode b = .ok f rest → b.length = overhead f + userBytes f + rest.length) := by
  refine ⟨toBytes_size, fun h => ?_⟩
  have := parses_length (decode_iff.1 h)
  rw [layout_size] at this
  exact this

/-- **C82**, corollary: what one `decode` stores is at least 6 bytes less than what it was given. -/
theorem C82_no_amplification {b rest : Bytes} {f : Frame} (h : decode b = .ok f rest) :
    userBytes f + 6 ≤ b.length := by
  have h1 := (C82_size f b rest).2 h
  have h2 : 6 ≤ overhead f := by
    cases f <;> simp only [overhead] <;> first | omega | (split <;> omega)
  omega

example : decode [0, 0, 0, 3, 0x2C, 0, 0, 0, 3, 1, 9, 9, 9] =
    .ok (.error ⟨3#32, 0x301#32, some [9, 9, 9]⟩) [] := by decide

/-! ## C81 -/

/-- **C81**, total: however a payload is fragmented, what goes over the wire is its bytes plus 9
per frame. -/
theorem C81_total {dbg : Bool} {fuel : Nat} {tr : Transport} {m m' : RSocketMachine} {p : Payload}
    {sent frames : List Frame} {bs : List Bytes}
    (h : m.fireAndForget dbg fuel tr p sent = .ok (.ok (), sent ++ frames, m'))
    (hb : encodeAll frames = .ok bs) :
    bs.flatten.length = 9 * frames.length + paySize p := by
  obtain ⟨h0, sid, k, -, h1, h2⟩ := call_inv h
  have hk := h2 rfl
  subst hk
  rw [List.take_length] at h1
  cases List.append_cancel_left h1
  rw [encodeAll_total hb, callFrames_total sid p h0]

/-- **C81** as stated is false: for every fragment size there is a payload with a frame of
`9 + 2 * size` bytes, because metadata and data are each cut at `size`. -/
theorem C81_frame_size_false {size : Nat} (h0 : 0 < size) (hs : size < 2 ^ 24) :
    ¬ ∀ (p : Payload) (frames : List Frame) (m' : RSocketMachine),
      (fragmenting size).fireAndForget true 1 openTransport p [] = .ok (.ok (), frames, m') →
      ∀ f ∈ frames, ∀ b, f.toBytes = .ok b → b.length ≤ 9 + size := by
  intro h
  have hc : (fragmenting size).chunkPayload = some size := rfl
  have hne : (fragmenting size).chunkPayload ≠ some 0 := by
    rw [hc]; intro e; cases e; exact Nat.lt_irrefl _ h0
  let x : Bytes := List.replicate size 0#8
  have hx : x.length = size := List.length_replicate
  have e := fireAndForget_eq (dbg := true) (tr := openTransport) (p := ⟨some x, some x⟩)
    (sent := []) (fragmenting_id size) hne
  rw [deliver_open, hc] at e
  have hcount : chunkCount size ⟨some x, some x⟩ = 1 := by
    have : ceilDiv x.length size = 1 := by
      rw [hx, ceilDiv]
      exact Nat.div_eq_of_lt_le (by omega) (by omega)
    simp only [chunkCount, partCount, this, Nat.max_self]
  have hp : partAt size (some x) 0 = some x := by
    have h1 : 0 < partCount size (some x) := Nat.lt_of_lt_of_le Nat.one_pos (Nat.le_max_left _ _)
    rw [partAt, if_pos h1, Nat.zero_mul]
    exact congrArg some (List.take_of_length_le (Nat.le_of_eq hx))
  have hfr : ∃ b, callFrames 1#32 (some size) ⟨some x, some x⟩ =
      [fnfFrame 1#32 b ⟨some x, some x⟩] := by
    refine ⟨0 + 1 != PayloadChunks.len ⟨size, some x, some x⟩, ?_⟩
    show List.map _ _ = _
    rw [hcount]
    simp only [chunkAt, List.range_succ, List.range_zero, List.nil_append, List.map_cons,
      List.map_nil, hp]
  obtain ⟨fo, hfr⟩ := hfr
  rw [hfr] at e
  have hw : WellFormed (fnfFrame 1#32 fo ⟨some x, some x⟩) :=
    fnfFrame_wellFormed (by decide) fo (by show x.length < _; omega)
  have hb := toBytes_wellFormed hw
  have h1 := h _ _ _ e _ (List.mem_singleton.2 rfl) _ hb
  rw [(C82_size _ _ []).1 hb] at h1
  have h2 : overhead (fnfFrame 1#32 fo ⟨some x, some x⟩) +
      userBytes (fnfFrame 1#32 fo ⟨some x, some x⟩) = 9 + (x.length + x.length) := rfl
  omega

/-- **C81**, what holds: every frame a fragmented call hands over takes at most
`9 + min size |metadata| + min size |data|` bytes, so at most `9 + 2 * size`, and at most
`9 + size` if the payload has only one part. -/
theorem C81_frame_size_partial {dbg : Bool} {fuel : Nat} {tr : Transport} {m m' : RSocketMachine}
    {p : Payload} {size : Nat} {r : Except Error Unit} {sent frames : List Frame}
    (hc : m.chunkPayload = some size)
    (h : m.fireAndForget dbg fuel tr p sent = .ok (r, sent ++ frames, m')) {f : Frame}
    (hf : f ∈ frames) {b : Bytes} (hb : f.toBytes = .ok b) :
    b.length ≤ 9 + min size (partSize p.metadata) + min size (partSize p.data) ∧
    b.length ≤ 9 + 2 * size ∧
    (p.metadata = none ∨ p.data = none → b.length ≤ 9 + size) := by
  obtain ⟨-, sid, k, -, h1, -⟩ := call_inv h
  cases List.append_cancel_left h1
  rw [hc] at hf
  obtain ⟨h2, h3⟩ := callFrames_size (List.mem_of_mem_take hf)
  have h4 := (C82_size f b []).1 hb
  refine ⟨by omega, by omega, ?_⟩
  rintro (e | e)
  · have : partSize p.metadata = 0 := by rw [e]; rfl
    omega
  · have : partSize p.data = 0 := by rw [e]; rfl
    omega

example : ∃ frames m', (fragmenting 2).fireAndForget true 1 openTransport
      ⟨some [1], some [2, 3, 4]⟩ [] = .ok (.ok (), frames, m') ∧
    frames.map (fun f => f.toBytes) =
      [.ok [0, 0, 0, 1, 0x14, 0xC0, 0, 0, 1, 1, 2, 3], .ok [0, 0, 0, 1, 0x14, 0, 0, 0, 0, 4]] :=
  ⟨_, _, rfl, by decide +kernel⟩

end Binate
