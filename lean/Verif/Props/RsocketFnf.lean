import Verif.Props.Rsocket
import Verif.Props.Machine
import Verif.Lemmas.Peer
import Verif.Lemmas.Sizes

/-! # Requests as a peer that follows the RSocket protocol reads them

C133. `readFnf` is that reader. -/

namespace Binate

open Spec RSocketMachine

/-- **C133**, the reader is right: what the protocol has for a request is read as the request. -/
theorem C133_reader {v : RequestFnfFrame} (hw : WellFormed (.requestFnf v))
    (hm : MetadataFlagged (.requestFnf v)) :
    readFnf (protocolLayout (.requestFnf v)) =
      some (v.streamId.toNat, v.isFollows, ⟨v.payload.metadata, normOpt v.payload.data⟩) := by
  have hn := flagsOf_lt v.flags
  have hfl : flagsOf 32 v.flags < 1024 := by rw [flagsOf_scale]; omega
  have hdiv : flagsOf 32 v.flags / 32 = flagsOf 1 v.flags := by rw [flagsOf_scale]; omega
  have hfo : v.isFollows = v.flags.bits.getLsbD 6 := contains_bit _ _ _ (by decide) rfl
  have hmb := hm _ _ rfl rfl
  rw [hfo]
  show readFnf (header v.streamId.toNat 5 (flagsOf 32 v.flags) ++ protocolPayload v.payload) = _
  cases hq : v.payload.metadata with
  | none =>
    rw [hq] at hmb
    rw [readFnf_plain hw.1 hfl (by rw [hdiv, (flagsOf_bits _).1, hmb]; rfl), hdiv,
      (flagsOf_bits _).2]
    have : protocolPayload v.payload = optBytes v.payload.data := by
      unfold protocolPayload
      rw [hq]
      rfl
    rw [this, normOpt_optBytes]
  | some m =>
    rw [hq] at hmb
    have hlen : m.length < 2 ^ 24 := by
      have := hw.2.2
      rw [hq] at this
      exact this
    have hp : protocolPayload v.payload = be 3 m.length ++ (m ++ optBytes v.payload.data) := by
      unfold protocolPayload
      rw [hq]
      exact List.append_assoc _ _ _
    rw [hp]
    exact readFnf_metadata hw.1 hfl (by rw [hdiv, (flagsOf_bits _).1, hmb]; rfl) hlen
      (by rw [hdiv, (flagsOf_bits _).2]) v.payload.data

/-- **C133**, a frame of `fire_and_forget`, whole or a fragment: such a peer finds no metadata but
takes the length of the metadata, the metadata and the data together for data; and it takes the
frame for a fragment to be continued exactly if it has metadata, no matter whether it is one. -/
theorem C133_frame {sid : U32} (hs : sid.toNat < 2 ^ 31) (follows : Bool) {p : Payload}
    (hp : (optBytes p.metadata).length < 2 ^ 24) :
    ∃ b, (fnfFrame sid follows p).toBytes = .ok b ∧
      readFnf b = some (sid.toNat, p.metadata.isSome, ⟨none, some (payloadBytes p)⟩) := by
  have hfl : FrameFlagsOk (fnfFrame sid follows p) := by
    intro fl h
    cases h
    show FlagsOk ⟨BitVec.ofNat 16
      ((if follows then 2 ^ 6 else 0) + (if p.metadata.isSome then 2 ^ 7 else 0))⟩
    generalize p.metadata.isSome = m
    revert m follows
    decide
  refine ⟨_, C08_layout_partial hfl hp, ?_⟩
  have hnum := fnfFrame_number sid follows p
  have hlt := flagNumber_lt (fnfFrame sid follows p)
  rw [layout_split 16]
  have hdrop : (layout 0 (fnfFrame sid follows p)).drop 6 = payloadBytes p := rfl
  rw [hdrop]
  show readFnf (header sid.toNat 5 (16 * flagNumber (fnfFrame sid follows p)) ++ payloadBytes p) = _
  rw [hnum] at hlt ⊢
  have h3 : (16 * (8 * p.metadata.isSome.toNat + 4 * follows.toNat) / 32).testBit 3 = false :=
    (by decide : ∀ m f : Bool, (16 * (8 * m.toNat + 4 * f.toNat) / 32).testBit 3 = false) _ _
  have h2 : (16 * (8 * p.metadata.isSome.toNat + 4 * follows.toNat) / 32).testBit 2 =
      p.metadata.isSome :=
    (by decide : ∀ m f : Bool, (16 * (8 * m.toNat + 4 * f.toNat) / 32).testBit 2 = m) _ _
  rw [readFnf_plain hs (by omega) h3, h2]
  cases hb : payloadBytes p with
  | nil => exact absurd hb (payloadBytes_ne_nil p)
  | cons x xs => rfl

/-- **C133** is false of every request whatsoever: such a peer never reads the payload that was
sent. -/
theorem C133_never {sid : U32} (hs : sid.toNat < 2 ^ 31) (follows : Bool) {p : Payload}
    (hp : (optBytes p.metadata).length < 2 ^ 24) {b : Bytes}
    (hb : (fnfFrame sid follows p).toBytes = .ok b) (fo : Bool) :
    readFnf b ≠ some (sid.toNat, fo, ⟨p.metadata, normOpt p.data⟩) := by
  obtain ⟨b', h, hr⟩ := C133_frame hs follows hp
  rw [h] at hb
  cases hb
  rw [hr]
  intro e
  have e1 : (⟨none, some (payloadBytes p)⟩ : Payload) = ⟨p.metadata, normOpt p.data⟩ := by
    injection e with e
    injection e with _ e
    injection e
  injection e1 with em ed
  have hl : (payloadBytes p).length = 3 + (optBytes p.data).length := by
    unfold payloadBytes
    rw [← em]
    simp only [optBytes, List.append_nil, List.length_append]
    rfl
  have hd : payloadBytes p = optBytes p.data := by
    cases hq : p.data with
    | none => rw [hq] at ed; cases ed
    | some d =>
      rw [hq] at ed
      cases d with
      | nil => cases ed
      | cons x xs => injection ed
  rw [hd] at hl
  omega

/-- **C133**, a call on any machine, with any fragment size: the peer takes each fragment for a request
with the encoded fragment, its length included, as data. Put together, the fragments are the payload. -/
theorem C133_fragments {dbg : Bool} {fuel : Nat} {tr : Transport} {m m' : RSocketMachine} {p : Payload}
    {sent frames : List Frame} {bs : List Bytes}
    (h : m.fireAndForget dbg fuel tr p sent = .ok (.ok (), sent ++ frames, m'))
    (hb : encodeAll frames = .ok bs) :
    ∃ (sid : U32) (parts : List (Bool × Payload)),
      frames = parts.map (fun e => fnfFrame sid e.1 e.2) ∧
      joinMetadata (parts.map (·.2)) = p.metadata.getD [] ∧
      joinData (parts.map (·.2)) = p.data.getD [] ∧
      bs.map readFnf = parts.map fun e =>
        some (sid.toNat, e.2.metadata.isSome, ⟨none, some (payloadBytes e.2)⟩) := by
  obtain ⟨h0, sid, k, hs, h1, h2⟩ := call_inv h
  have hk := h2 rfl
  subst hk
  rw [List.take_length] at h1
  have e := List.append_cancel_left h1
  obtain ⟨parts, e1, e2, e3, -⟩ := callFrames_parts sid m.chunkPayload p h0
  rw [e1] at e
  subst e
  refine ⟨sid, parts, rfl, e2, e3, ?_⟩
  clear h h1 h2 e1 e2 e3
  have hw : ∀ f ∈ parts.map (fun e => fnfFrame sid e.1 e.2), OnTheWire f := by
    intro f hf
    obtain ⟨x, -, rfl⟩ := List.mem_map.1 hf
    exact .fnf sid x.1 x.2 hs
  have hsmall := encodeAll_small hw hb
  rw [encodeAll_eq hw hb, List.map_map, List.map_map]
  refine List.map_congr_left fun x hx => ?_
  have hm : (optBytes x.2.metadata).length < 2 ^ 24 := hsmall _ (List.mem_map_of_mem hx)
  obtain ⟨b, hb', hr⟩ := C133_frame hs x.1 hm
  rcases wire_toBytes (.fnf sid x.1 x.2 hs) with hl | ⟨-, msg, hl⟩
  · rw [hl] at hb'
    cases hb'
    exact hr
  · rw [hl] at hb'
    cases hb'

/-- **C133**, calls: in every execution with any number of concurrent callers, such a peer reads
every request of a machine in this way: with the id of the call, as a fragment to be continued if and
only if there is metadata, and with the encoded payload as data. (A call whose metadata has 2^24 bytes
or more cannot be encoded at all.) -/
theorem C133_calls_partial {dbg : Bool} {tr : Transport} {role : Role} {t now : Nat} {s : Conc}
    (h : ConcReachable dbg tr (RSocketMachine.new role t now) s)
    {f : Frame} (hf : f ∈ s.wire) (hr : followsOf f ≠ none) (hm : metaLen f < 2 ^ 24) :
    ∃ (i : Nat) (c : Call) (sid : U32) (b : Bytes), s.calls[i]? = some c ∧ callId c = some sid ∧
      f.toBytes = .ok b ∧
      readFnf b = some (sid.toNat, (callPayload c).metadata.isSome,
        ⟨none, some (payloadBytes (callPayload c))⟩) := by
  obtain ⟨i, c, sid, hi, -, hid, rfl, -, hlt⟩ := C61_frames h hf hr
  obtain ⟨b, hb, hread⟩ := C133_frame hlt false (p := callPayload c) hm
  exact ⟨i, c, sid, b, hi, hid, hb, hread⟩

/-- **C133**, refuted as stated: there is a machine, a call and a payload. -/
theorem C133_calls_false : ¬ ∀ (p : Payload) (sent : List Frame) (m' : RSocketMachine),
    (RSocketMachine.new .client 1 0).fireAndForget true 1 openTransport p [] =
      .ok (.ok (), sent, m') →
    ∀ f ∈ sent, ∀ b, f.toBytes = .ok b → ∃ sid, readFnf b = some (sid, false, p) := by
  intro h
  obtain ⟨sid, hr⟩ := h ⟨some [1#8], some [2#8]⟩ [fnfFrame 1#32 false ⟨some [1#8], some [2#8]⟩] _ rfl _
    (List.mem_singleton.2 rfl) _ rfl
  have e : readFnf (layout 16 (fnfFrame 1#32 false ⟨some [1#8], some [2#8]⟩)) =
      some (1, true, ⟨none, some [0#8, 0#8, 1#8, 1#8, 2#8]⟩) := by decide
  have hr' := e.symm.trans hr
  injection hr' with hr'
  injection hr' with _ hr'
  injection hr' with hr' _
  cases hr'

example : readFnf (protocolLayout (.requestFnf sampleFnf)) =
    some (3, true, ⟨some [3#8], some [4#8, 5#8]⟩) := by decide

-- a request with only data, and one that is a fragment without metadata
example : ∃ b, (fnfFrame 1#32 false ⟨none, some [9#8]⟩).toBytes = .ok b ∧
    readFnf b = some (1, false, ⟨none, some [0#8, 0#8, 0#8, 9#8]⟩) :=
  C133_frame (by decide) false (p := ⟨none, some [9#8]⟩) (by decide)
example : ∃ b, (fnfFrame 1#32 true ⟨none, some [9#8]⟩).toBytes = .ok b ∧
    readFnf b = some (1, false, ⟨none, some [0#8, 0#8, 0#8, 9#8]⟩) :=
  C133_frame (by decide) true (p := ⟨none, some [9#8]⟩) (by decide)
-- and a whole one with metadata, taken for a fragment
example : ∃ b, (fnfFrame 1#32 false ⟨some [7#8], none⟩).toBytes = .ok b ∧
    readFnf b = some (1, true, ⟨none, some [0#8, 0#8, 1#8, 7#8]⟩) :=
  C133_frame (by decide) false (p := ⟨some [7#8], none⟩) (by decide)
-- a call in two fragments
example : ∃ frames m', (fragmenting 1).fireAndForget true 1 openTransport
      ⟨some [7#8], some [8#8, 9#8]⟩ [] = .ok (.ok (), [] ++ frames, m') ∧
    encodeAll frames = .ok [[0, 0, 0, 1, 0x14, 0xC0, 0, 0, 1, 7, 8], [0, 0, 0, 1, 0x14, 0, 0, 0, 0, 9]] :=
  ⟨_, _, rfl, by decide +kernel⟩
example : [[0, 0, 0, 1, 0x14, 0xC0, 0, 0, 1, 7, 8], [0, 0, 0, 1, 0x14, 0, 0, 0, 0, 9]].map readFnf =
    [some (1, true, ⟨none, some [0, 0, 1, 7, 8]⟩), some (1, false, ⟨none, some [0, 0, 0, 9]⟩)] := by
  decide

end Binate
