import Verif.Spec.Peer
import Verif.Lemmas.Owner
import Verif.Lemmas.Outcomes

/-! # Facts about the buffers on the wire -/

namespace Binate

open Spec PayloadChunks RSocketMachine

theorem header_eq (sid ty fl : Nat) (rest : Bytes) :
    header sid ty fl ++ rest = BitVec.ofNat 8 (sid / 16777216) :: BitVec.ofNat 8 (sid / 65536) ::
      BitVec.ofNat 8 (sid / 256) :: BitVec.ofNat 8 sid ::
      BitVec.ofNat 8 ((ty * 1024 + fl) / 256) :: BitVec.ofNat 8 (ty * 1024 + fl) :: rest := by
  simp [header, be]

theorem typeOf_header {sid ty fl : Nat} (rest : Bytes) (h1 : ty < 64) (h2 : fl < 1024) :
    typeOf (header sid ty fl ++ rest) = ty := by
  rw [header_eq]
  show (BitVec.ofNat 8 ((ty * 1024 + fl) / 256)).toNat / 4 = ty
  rw [BitVec.toNat_ofNat]
  omega

theorem streamIdOf_header {sid ty fl : Nat} (rest : Bytes) (h : sid < 2 ^ 31) :
    streamIdOf (header sid ty fl ++ rest) = sid := by
  rw [header_eq]
  show ((BitVec.ofNat 8 (sid / 16777216)).toNat * 16777216 +
    (BitVec.ofNat 8 (sid / 65536)).toNat * 65536 + (BitVec.ofNat 8 (sid / 256)).toNat * 256 +
    (BitVec.ofNat 8 sid).toNat) % 2 ^ 31 = sid
  simp only [BitVec.toNat_ofNat]
  omega

/-- The frames `fire_and_forget` and `metadata_push` send. -/
inductive OnTheWire : Frame → Prop
  | fnf (sid : U32) (follows : Bool) (p : Payload) : sid.toNat < 2 ^ 31 →
      OnTheWire (fnfFrame sid follows p)
  | push (md : Bytes) : OnTheWire (.metadataPush ⟨md⟩)

theorem fnfFrame_layout (sid : U32) (follows : Bool) (p : Payload) :
    ∃ fl rest, fl < 1024 ∧ layout 16 (fnfFrame sid follows p) = header sid.toNat 5 fl ++ rest := by
  refine ⟨_, _, ?_, rfl⟩
  unfold flagsOf
  exact Nat.lt_of_lt_of_le (flagsValue_lt ..) (by decide)

/-- The header of a sent buffer says on which stream it is. -/
theorem sent_header {f : Frame} (h : OnTheWire f) (sid : U32) :
    (typeOf (layout 16 f) == 5 && streamIdOf (layout 16 f) == sid.toNat) = onStream sid f := by
  cases h with
  | fnf x fo p hx =>
    obtain ⟨fl, rest, h1, h2⟩ := fnfFrame_layout x fo p
    rw [h2, typeOf_header rest (by decide) h1, streamIdOf_header rest hx]
    show (true && (x.toNat == sid.toNat)) = (x == sid)
    rw [Bool.true_and, Bool.eq_iff_iff, beq_iff_eq, beq_iff_eq]
    exact ⟨BitVec.eq_of_toNat_eq, congrArg _⟩
  | push md =>
    show (typeOf (header 0 12 (flagsValue 16 false true false false false) ++ md) == 5 && _) = false
    rw [typeOf_header md (by decide) (by decide)]
    rfl

theorem push_wellFormed (md : Bytes) : WellFormed (.metadataPush ⟨md⟩) := trivial

theorem encodeAll_map {fs : List Frame} (h : ∀ f ∈ fs, f.toBytes = .ok (layout 16 f)) :
    encodeAll fs = .ok (fs.map (layout 16)) := by
  induction fs with
  | nil => rfl
  | cons f fs ih =>
    rw [encodeAll, h f (List.mem_cons_self ..), ih fun g hg => h g (List.mem_cons_of_mem _ hg)]
    rfl

theorem wire_toBytes {f : Frame} (h : OnTheWire f) :
    f.toBytes = .ok (layout 16 f) ∨ (2 ^ 24 ≤ metaLen f ∧ ∃ m, f.toBytes = .panic m) := by
  by_cases hm : 2 ^ 24 ≤ metaLen f
  · exact .inr ⟨hm, (encode_panic_iff f []).2 hm⟩
  · left
    have hf : FrameFlagsOk f := by
      cases h with
      | fnf x fo p hx => rintro fl ⟨⟩; exact fnfFrame_flagsOk fo _
      | push md => exact nofun
    rw [Frame.toBytes, encode_layout hf (Nat.lt_of_not_le hm)]
    rfl

theorem encodeAll_panics {fs : List Frame} (hw : ∀ f ∈ fs, OnTheWire f)
    (h : ∃ f ∈ fs, 2 ^ 24 ≤ metaLen f) : ∃ m, encodeAll fs = .panic m := by
  induction fs with
  | nil => obtain ⟨f, hf, -⟩ := h; cases hf
  | cons g gs ih =>
    rw [encodeAll]
    rcases wire_toBytes (hw g (List.mem_cons_self ..)) with hg | ⟨-, m, hg⟩
    · obtain ⟨f, hf, hl⟩ := h
      rcases List.mem_cons.1 hf with rfl | hf
      · obtain ⟨m, hp⟩ := (encode_panic_iff f []).2 hl
        have hp : f.toBytes = .panic m := hp
        rw [hp] at hg
        cases hg
      · obtain ⟨m, hm⟩ := ih (fun f hf => hw f (List.mem_cons_of_mem _ hf)) ⟨f, hf, hl⟩
        exact ⟨m, by rw [hg, hm]⟩
    · exact ⟨m, by rw [hg]⟩

theorem encodeAll_eq {fs : List Frame} (hw : ∀ f ∈ fs, OnTheWire f) {bs : List Bytes}
    (hb : encodeAll fs = .ok bs) : bs = fs.map (layout 16) := by
  have : encodeAll fs = .ok (fs.map (layout 16)) := by
    apply encodeAll_map
    intro f hf
    rcases wire_toBytes (hw f hf) with h1 | ⟨h1, -⟩
    · exact h1
    · obtain ⟨msg, hp⟩ := encodeAll_panics hw ⟨f, hf, h1⟩
      rw [hp] at hb
      cases hb
  rw [this] at hb
  cases hb
  rfl

/-- What could be encoded is not too long. -/
theorem encodeAll_small {fs : List Frame} (hw : ∀ f ∈ fs, OnTheWire f) {bs : List Bytes}
    (hb : encodeAll fs = .ok bs) : ∀ f ∈ fs, metaLen f < 2 ^ 24 := by
  intro f hf
  by_contra hl
  obtain ⟨msg, hp⟩ := encodeAll_panics hw ⟨f, hf, Nat.le_of_not_lt hl⟩
  rw [hp] at hb
  cases hb

theorem metaLen_fnfFrame (sid : U32) (b : Bool) (p : Payload) :
    metaLen (fnfFrame sid b p) = (p.metadata.getD []).length := by
  show (optBytes p.metadata).length = _
  cases p.metadata <;> rfl

theorem filter_layout {fs : List Frame} (hw : ∀ f ∈ fs, OnTheWire f) (sid : U32) :
    streamBuffers sid.toNat (fs.map (layout 16)) = (onWire sid fs).map (layout 16) := by
  unfold streamBuffers onWire
  rw [List.filter_map]
  congr 1
  apply List.filter_congr
  intro f hf
  exact sent_header (hw f hf) sid

/-- Only `fire_and_forget` and `metadata_push` send. -/
theorem wire_kinds {dbg : Bool} {tr : Transport} {m0 : RSocketMachine} {s : Conc}
    (h : ConcReachable dbg tr m0 s) {f : Frame} (hf : f ∈ s.wire) :
    (∃ v, f = .requestFnf v) ∨ ∃ md, f = .metadataPush ⟨md⟩ := by
  induction h with
  | init => cases hf
  | step hr hs ih =>
    cases hs with
    | call | fetch | checkUsed | checkFree | finish | env => exact ih hf
    | sendOne i p sid v | sendChunk i p sid idx n c c' p' v | sendChunkErr i p sid idx n c c' p' v =>
      rcases List.mem_append.1 hf with hf | hf
      · exact ih hf
      · exact .inl ⟨v, List.mem_singleton.1 hf⟩
    | push md =>
      rcases List.mem_append.1 hf with hf | hf
      · exact ih hf
      · exact .inr ⟨md, List.mem_singleton.1 hf⟩

/-- What is on the wire for a call is the beginning of its frames. -/
theorem onWire_prefix {fragment : Option Nat} {wire : List Frame} {c : Call} {sid : U32}
    (hc : CallOk fragment wire c) (hs : callId c = some sid) :
    onWire sid wire <+: callFrames sid fragment (callPayload c) := by
  cases c with
  | probing => cases hs
  | panicked => cases hs
  | checking p x =>
    cases hs
    have : onWire sid wire = [] := hc
    rw [this]; exact List.nil_prefix
  | sendingOne p x =>
    cases hs
    have : onWire sid wire = [] := hc.2
    rw [this]; exact List.nil_prefix
  | sending p x idx n chunks =>
    cases hs
    obtain ⟨-, -, -, -, -, -, e⟩ := hc
    rw [e]; exact List.take_prefix _ _
  | done p x r =>
    cases hs
    cases r with
    | ok u => rw [hc.2]; exact List.prefix_refl _
    | error e =>
      obtain ⟨-, k, -, -, e'⟩ := hc
      rw [e']; exact List.take_prefix _ _

/-- A call that has handed over a frame does not have fragment size 0. -/
theorem own_size {fragment : Option Nat} {own : List Sent} {c : Call} (h : OwnOk fragment own c)
    (hne : own ≠ []) : fragment ≠ some 0 := by
  cases c with
  | probing => exact absurd h hne
  | panicked => exact absurd h.2 hne
  | checking => exact absurd h hne
  | sendingOne => exact absurd h.2 hne
  | sending =>
    obtain ⟨size, e, hp, -⟩ := h
    rintro e'
    rw [e] at e'
    cases e'
    exact absurd hp (by decide)
  | done p sid r => cases r <;> exact h.1

/-- Of a call with fragment size 0 nothing is on the wire. -/
theorem size_zero {wire : List Frame} {c : Call} {sid : U32} (hc : CallOk (some 0) wire c)
    (hs : callId c = some sid) : onWire sid wire = [] ∧ callResult c = none := by
  cases c with
  | probing => cases hs
  | panicked => cases hs
  | checking => cases hs; exact ⟨hc, rfl⟩
  | sendingOne => exact absurd hc.1 nofun
  | sending =>
    obtain ⟨size, e, hp, -⟩ := hc
    cases e
    exact absurd hp (by decide)
  | done p x r => cases r <;> exact absurd rfl hc.1

/-- Where a request frame on the wire comes from. -/
theorem wire_origin {dbg : Bool} {tr : Transport} {m0 : RSocketMachine} {s : Conc}
    (h : ConcReachable dbg tr m0 s)
    {f : Frame} (hf : f ∈ s.wire) :
    (∃ (i : Nat) (c : Call) (sid : U32) (b : Bool) (p : Payload), s.calls[i]? = some c ∧
      callId c = some sid ∧ sid.toNat < 2 ^ 31 ∧ f = fnfFrame sid b p ∧
      (FitsFragments m0.chunkPayload (callPayload c) → (p.metadata.getD []).length < 2 ^ 24)) ∨
    ∃ md, f = .metadataPush ⟨md⟩ := by
  obtain ⟨log, inv⟩ := ownInv h
  rw [← inv.acc.frames] at hf
  obtain ⟨x, hx, rfl⟩ := List.mem_map.1 hf
  cases ho : x.owner with
  | none => exact .inr ((inv.acc.pushes x hx).1 ho)
  | some i =>
    left
    have hlt := inv.lt x hx i ho
    have hi : s.calls[i]? = some s.calls[i] := List.getElem?_eq_getElem hlt
    generalize s.calls[i] = c at hi
    have hmem : x ∈ sentBy i log := List.mem_filter.2 ⟨hx, beq_iff_eq.2 ho⟩
    cases hs : callId c with
    | none => rw [own_nil (inv.call i c hi) hs] at hmem; cases hmem
    | some sid =>
      have h0 := own_size (inv.call i c hi) (List.ne_nil_of_mem hmem)
      obtain ⟨parts, e1, -, -, e4⟩ := callFrames_parts sid m0.chunkPayload (callPayload c) h0
      have hm := (own_prefix (inv.call i c hi) hs).subset (List.mem_map_of_mem hmem)
      rw [e1] at hm
      obtain ⟨e, he, hfe⟩ := List.mem_map.1 hm
      refine ⟨i, c, sid, e.1, e.2, hi, hs, (inv.ids i c sid hi hs).1, hfe.symm, fun hfit => ?_⟩
      obtain ⟨a, b⟩ := e4 e he
      rcases hfit with hm | ⟨size, hs, hl⟩
      · omega
      · have := b size hs
        omega

theorem wire_sent {dbg : Bool} {tr : Transport} {m0 : RSocketMachine} {s : Conc}
    (h : ConcReachable dbg tr m0 s) :
    ∀ f ∈ s.wire, OnTheWire f := by
  intro f hf
  rcases wire_origin h hf with ⟨i, c, sid, b, p, -, -, h3, rfl, -⟩ | ⟨md, rfl⟩
  · exact .fnf sid b p h3
  · exact .push md

theorem wire_wellFormed {dbg : Bool} {tr : Transport} {m0 : RSocketMachine} {s : Conc}
    (h : ConcReachable dbg tr m0 s)
    (hfit : ∀ c ∈ s.calls, FitsFragments m0.chunkPayload (callPayload c)) :
    ∀ f ∈ s.wire, WellFormed f := by
  intro f hf
  rcases wire_origin h hf with ⟨i, c, sid, b, p, h1, -, h3, rfl, h5⟩ | ⟨md, rfl⟩
  · exact fnfFrame_wellFormed h3 b (h5 (hfit c (List.mem_of_getElem? h1)))
  · exact push_wellFormed md

theorem flatten_prefix {α : Type} {a b : List (List α)} (h : a <+: b) : a.flatten <+: b.flatten := by
  obtain ⟨t, rfl⟩ := h
  rw [List.flatten_append]
  exact List.prefix_append ..

/-- Reassembling buffers of one stream. -/
theorem reassembled_parts (dbg : Bool) {sid : U32} (hs : sid.toNat < 2 ^ 31)
    (parts : List (Bool × Payload)) (hm : ∀ e ∈ parts, (e.2.metadata.getD []).length < 2 ^ 24) :
    reassembled dbg ((parts.map fun e => fnfFrame sid e.1 e.2).map (layout 16)) =
      .ok (.ok (normPayload ⟨some (joinMetadata (parts.map (·.2))),
        some (joinData (parts.map (·.2)))⟩)) := by
  unfold reassembled
  rw [List.map_map, pushAll_ok]
  · show BufList.tryInto ⟨_⟩ = _
    unfold BufList.tryInto
    have := reassemble_fragments hs parts hm [] []
    rw [List.nil_append, List.nil_append] at this
    show Outcome.bind (BufList.reassembleLoop (parts.map fun e => layout 16 (fnfFrame sid e.1 e.2)) [] []) _ = _
    rw [this]
    show Outcome.ok (Except.ok (Payload.new (if List.isEmpty _ then none else some _)
      (if List.isEmpty _ then none else some _))) = _
    cases joinMetadata (parts.map (·.2)) <;> cases joinData (parts.map (·.2)) <;> rfl
  · intro b hb
    obtain ⟨e, -, rfl⟩ := List.mem_map.1 hb
    exact layout_pos _

end Binate
