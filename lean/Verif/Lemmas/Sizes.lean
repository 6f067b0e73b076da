import Verif.Spec.Sizes
import Verif.Lemmas.Consume
import Verif.Lemmas.Encode
import Verif.Lemmas.Socket

/-! # Facts about frame lengths -/

namespace Binate

open Spec PayloadChunks RSocketMachine

theorem optBytes_partSize (o : Option Bytes) : (optBytes o).length = partSize o := by
  cases o <;> rfl

theorem layout_size (f : Frame) : (layout 16 f).length = overhead f + userBytes f := by
  cases f with
  | setup v =>
    rcases v with ⟨fl, ver, ki, kt, tok, mm, dm, p⟩
    cases tok <;>
    simp only [layout, header, payloadBytes, List.length_append, be_length, optBytes_partSize,
      overhead, userBytes, paySize, partSize, Option.getD, Option.isSome, List.length_nil,
      Bool.false_eq_true, if_false, if_true] <;> omega
  | _ v =>
    simp only [layout, header, payloadBytes, List.length_append, be_length, optBytes_partSize,
      overhead, userBytes, paySize] <;> omega

theorem payload_len_size (p : Payload) : p.len = paySize p := by
  rcases p with ⟨_ | m, _ | d⟩ <;> simp [Payload.len, paySize, partSize]

theorem optLen_size (o : Option Bytes) : optLen o = partSize o := by
  cases o <;> rfl

theorem len_size (f : Frame) : f.len = overhead f + userBytes f + lenExcess f := by
  cases f with
  | setup v =>
    rcases v with ⟨fl, ver, ki, kt, tok, mm, dm, p⟩
    show SetupFrame.len _ = _
    cases tok <;>
    simp [SetupFrame.len, overhead, userBytes, lenExcess, payload_len_size, partSize] <;>
    omega
  | _ v =>
    first
      | rfl
      | (show 9 + v.payload.len = _; rw [payload_len_size]; rfl)
      | (show 13 + v.payload.len = _; rw [payload_len_size]; rfl)
      | (show 14 + optLen _ = _; rw [optLen_size]; rfl)
      | (show 10 + optLen _ = _; rw [optLen_size]; rfl)
      | (show 12 + v.resumeToken.length + 16 = 28 + v.resumeToken.length + 0; omega)

theorem toBytes_size {f : Frame} {b : Bytes} (h : f.toBytes = .ok b) :
    b.length = overhead f + userBytes f := by
  have h1 := encode_length h
  have h2 := len_size f
  omega

/-! ## The frames of a call -/

theorem call_inv {dbg : Bool} {fuel : Nat} {tr : Transport} {m m' : RSocketMachine} {p : Payload}
    {r : Except Error Unit} {sent sent' : List Frame}
    (h : m.fireAndForget dbg fuel tr p sent = .ok (r, sent', m')) :
    m.chunkPayload ≠ some 0 ∧ ∃ sid k, sid.toNat < 2 ^ 31 ∧
      sent' = sent ++ (callFrames sid m.chunkPayload p).take k ∧
      (r = .ok () → k = (callFrames sid m.chunkPayload p).length) := by
  rcases nextStreamId_cases m.receivers m.streamId fuel with ⟨⟨sid, q⟩, hid⟩ | hid
  · have h0 : m.chunkPayload ≠ some 0 := by
      intro hc
      unfold fireAndForget at h
      rw [hid, hc] at h
      cases h
    obtain ⟨k, h1, h2, h3, h4⟩ := deliver_spec tr (callFrames sid m.chunkPayload p) sent
    rw [fireAndForget_eq hid h0] at h
    cases h
    refine ⟨h0, sid, k, (next_id_facts hid).1, h2, fun hr => ?_⟩
    rw [hr] at h4
    exact h4.1
  · unfold fireAndForget at h
    rw [hid] at h
    cases h

theorem partAt_size (size : Nat) (part : Option Bytes) (i : Nat) :
    partSize (partAt size part i) ≤ min size (partSize part) := by
  unfold partAt
  split
  · cases part with
    | none => exact Nat.zero_le _
    | some b =>
      show ((b.drop (i * size)).take size).length ≤ min size b.length
      rw [List.length_take, List.length_drop]
      omega
  · exact Nat.zero_le _

theorem callFrames_size {sid : U32} {size : Nat} {p : Payload} {f : Frame}
    (h : f ∈ callFrames sid (some size) p) :
    overhead f = 9 ∧ userBytes f ≤ min size (partSize p.metadata) + min size (partSize p.data) := by
  obtain ⟨i, -, rfl⟩ := List.mem_map.1 h
  exact ⟨rfl, Nat.add_le_add (partAt_size size p.metadata i) (partAt_size size p.data i)⟩

theorem callFrames_total (sid : U32) {fragment : Option Nat} (p : Payload)
    (h0 : fragment ≠ some 0) :
    ((callFrames sid fragment p).map fun f => overhead f + userBytes f).sum =
      9 * (callFrames sid fragment p).length + paySize p := by
  obtain ⟨parts, h1, h2, h3, -⟩ := callFrames_parts sid fragment p h0
  have key : ∀ l : List (Bool × Payload),
      ((l.map fun e => fnfFrame sid e.1 e.2).map fun f => overhead f + userBytes f).sum =
        9 * l.length + (joinMetadata (l.map (·.2))).length + (joinData (l.map (·.2))).length := by
    intro l
    induction l with
    | nil => rfl
    | cons e l ih =>
      have e1 : overhead (fnfFrame sid e.1 e.2) + userBytes (fnfFrame sid e.1 e.2) =
          9 + (partSize e.2.metadata + partSize e.2.data) := rfl
      simp only [joinMetadata, joinData, List.map_cons, List.sum_cons, List.flatten_cons,
        List.length_append, List.length_cons] at ih ⊢
      rw [ih, e1]
      unfold partSize
      omega
  rw [h1, key, h2, h3, List.length_map]
  show _ = _ + (_ + _)
  unfold partSize
  omega

theorem encodeAll_total {fs : List Frame} {bs : List Bytes} (h : encodeAll fs = .ok bs) :
    bs.flatten.length = (fs.map fun f => overhead f + userBytes f).sum := by
  induction fs generalizing bs with
  | nil => cases h; rfl
  | cons f fs ih =>
    rw [encodeAll] at h
    cases h1 : f.toBytes with
    | ok b =>
      cases h2 : encodeAll fs with
      | ok bs' =>
        rw [h1, h2] at h
        cases h
        simp only [List.flatten_cons, List.length_append, List.map_cons, List.sum_cons]
        rw [ih h2, toBytes_size h1]
      | panic m => rw [h1, h2] at h; cases h
      | diverge => rw [h1, h2] at h; cases h
    | panic m => rw [h1] at h; cases h
    | diverge =>
      cases h2 : encodeAll fs <;> rw [h1, h2] at h <;> cases h

end Binate
