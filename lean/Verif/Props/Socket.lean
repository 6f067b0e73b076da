import Verif.Lemmas.Socket

/-! # Properties of the sending side and the background tasks

C29–C34, C52, C53, C60. `m` is any state of the machine, `tr` any behaviour of the transport,
`sent` everything handed to it before. -/

namespace Binate

open Spec PayloadChunks RSocketMachine

/-! ## C29 -/

/-- **C29.** Without a fragment size, once `next_stream_id` has returned `sid`, the call hands
exactly one frame to the transport: a REQUEST_FNF on `sid`, FOLLOWS clear, with the payload
unchanged. It returns the transport's result and changes nothing but the id counter; `sid` is not
in use and has 31 bits. -/
theorem C29_unfragmented {dbg : Bool} {fuel : Nat} {m : RSocketMachine} {sid : U32}
    {q : StreamIdProvider} (hc : m.chunkPayload = none)
    (hid : m.streamId.nextStreamId m.receivers fuel = .ok (sid, q)) (tr : Transport) (p : Payload)
    (sent : List Frame) :
    m.fireAndForget dbg fuel tr p sent =
      .ok (tr sent (fnfFrame sid false p), sent ++ [fnfFrame sid false p],
        { m with streamId := q }) ∧
    m.receivers sid = false ∧ sid.toNat < 2 ^ 31 := by
  refine ⟨?_, (next_id_facts hid).2, (next_id_facts hid).1⟩
  rw [fireAndForget_eq hid (by rw [hc]; intro h; cases h), hc]
  cases ht : tr sent (fnfFrame sid false p) with
  | ok u => simp only [callFrames, deliver, ht]
  | error e => simp only [callFrames, deliver, ht]

/-- **C29**, what is on the frame: the accessors give back what the caller passed in. -/
theorem C29_frame (sid : U32) (p : Payload) : ∃ v, fnfFrame sid false p = .requestFnf v ∧
    v.streamId = sid ∧ v.isFollows = false ∧ v.payload = p := by
  refine ⟨_, rfl, rfl, ?_, rfl⟩
  have := followsOf_fnfFrame sid false p
  rw [RequestFnfFrame.isFollows, contains_follows]
  exact Option.some.inj this

example : (RSocketMachine.new .client 60 0).fireAndForget true 1 openTransport
    ⟨none, some [7#8]⟩ [] = .ok (.ok (), [fnfFrame 1#32 false ⟨none, some [7#8]⟩],
      { RSocketMachine.new .client 60 0 with streamId := ⟨3#32⟩ }) := rfl

/-! ## C30 -/

/-- **C30.** With a fragment size `s > 0` and parts of 1..2^24 bytes, the frames handed over
are, in order, one per consecutive chunk, all on the stream id of this call, FOLLOWS on all but
the last; the transport may stop the sequence by refusing a frame. -/
theorem C30_fragmented {dbg : Bool} {fuel : Nat} {m : RSocketMachine} {sid : U32}
    {q : StreamIdProvider} {size : Nat} (hc : m.chunkPayload = some size) (h0 : 0 < size)
    (hid : m.streamId.nextStreamId m.receivers fuel = .ok (sid, q)) (tr : Transport) (p : Payload)
    (hm : PartOk p.metadata) (hd : PartOk p.data) (sent : List Frame) :
    ∃ r sent', m.fireAndForget dbg fuel tr p sent = .ok (r, sent', { m with streamId := q }) ∧
      Delivered tr sent ((List.range (chunkCount size p)).map fun i =>
        fnfFrame sid (decide (i + 1 < chunkCount size p)) (chunkAt size p i)) r sent' := by
  have hne : m.chunkPayload ≠ some 0 := by
    rw [hc]; intro h; cases h; exact Nat.lt_irrefl _ h0
  refine ⟨_, _, fireAndForget_eq hid hne, ?_⟩
  rw [callFrames_exact hne hm hd, hc]
  exact deliver_spec tr _ sent

/-- **C30**, when the transport accepts everything: exactly these frames were sent. -/
theorem C30_fragmented_open {dbg : Bool} {fuel : Nat} {m : RSocketMachine} {sid : U32}
    {q : StreamIdProvider} {size : Nat} (hc : m.chunkPayload = some size) (h0 : 0 < size)
    (hid : m.streamId.nextStreamId m.receivers fuel = .ok (sid, q)) (p : Payload)
    (hm : PartOk p.metadata) (hd : PartOk p.data) (sent : List Frame) :
    m.fireAndForget dbg fuel openTransport p sent =
      .ok (.ok (), sent ++ (List.range (chunkCount size p)).map (fun i =>
        fnfFrame sid (decide (i + 1 < chunkCount size p)) (chunkAt size p i)),
        { m with streamId := q }) := by
  have hne : m.chunkPayload ≠ some 0 := by
    rw [hc]; intro h; cases h; exact Nat.lt_irrefl _ h0
  rw [fireAndForget_eq hid hne, callFrames_exact hne hm hd, hc, deliver_open]
  rfl

/-- **C30**: a fragment size of 0 makes every call panic, after it has used up a stream id. -/
theorem C30_zero_panics {dbg : Bool} {fuel : Nat} {m : RSocketMachine} {sid : U32}
    {q : StreamIdProvider} (hc : m.chunkPayload = some 0)
    (hid : m.streamId.nextStreamId m.receivers fuel = .ok (sid, q)) (tr : Transport) (p : Payload)
    (sent : List Frame) :
    m.fireAndForget dbg fuel tr p sent = .panic "assertion failed: chunk_size != 0" := by
  unfold fireAndForget
  rw [hid, hc]
  rfl

/-- **C30** for every payload, without conditions on its parts: one frame per consecutive chunk, in
order, all on the stream id of this call; only FOLLOWS depends on what `len()` said before the
loop: it is set on all frames but number `len()`. -/
theorem C30_every_payload {dbg : Bool} {fuel : Nat} {m : RSocketMachine} {sid : U32}
    {q : StreamIdProvider} {size : Nat} {c : PayloadChunks} (hc : m.chunkPayload = some size)
    (hid : m.streamId.nextStreamId m.receivers fuel = .ok (sid, q)) (tr : Transport) (p : Payload)
    (hch : p.chunks size = .ok c) (sent : List Frame) :
    ∃ r sent', m.fireAndForget dbg fuel tr p sent = .ok (r, sent', { m with streamId := q }) ∧
      Delivered tr sent ((List.range (chunkCount size p)).map fun i =>
        fnfFrame sid (i + 1 != c.len) (chunkAt size p i)) r sent' := by
  have h0 : 0 < size := by
    apply Nat.pos_of_ne_zero
    rintro rfl
    cases hch
  have hne : m.chunkPayload ≠ some 0 := by
    rw [hc]; intro h; cases h; exact Nat.lt_irrefl _ h0
  rw [chunks_ok h0] at hch
  cases hch
  refine ⟨_, _, fireAndForget_eq hid hne, ?_⟩
  rw [hc]
  exact deliver_spec tr (callFrames sid (some size) p) sent

example : PartOk (some [1#8, 2#8, 3#8]) ∧ PartOk none := by
  refine ⟨⟨?_, by decide⟩, ?_, by decide⟩ <;> (intro h; cases h)

/-! ## C31 -/

/-- **C31.** For every payload and fragment size there is one list of frames, consecutive chunks
on the stream id of the call, such that for every transport and history the call hands over
exactly the frames up to and including the first refused one and returns that refusal, or all of
them and returns Ok. -/
theorem C31_first_error {dbg : Bool} {fuel : Nat} {m : RSocketMachine} {sid : U32}
    {q : StreamIdProvider} (h0 : m.chunkPayload ≠ some 0)
    (hid : m.streamId.nextStreamId m.receivers fuel = .ok (sid, q)) (p : Payload) :
    ∃ frames : List Frame,
      (∀ size, m.chunkPayload = some size → frames.length = chunkCount size p ∧
        ∀ i f, frames[i]? = some f → ∃ b, f = fnfFrame sid b (chunkAt size p i)) ∧
      (m.chunkPayload = none → frames = [fnfFrame sid false p]) ∧
      ∀ tr sent, ∃ r sent', m.fireAndForget dbg fuel tr p sent =
          .ok (r, sent', { m with streamId := q }) ∧ Delivered tr sent frames r sent' := by
  refine ⟨callFrames sid m.chunkPayload p, fun size hs => ?_, fun hs => by rw [hs]; rfl,
    fun tr sent => ⟨_, _, fireAndForget_eq hid h0, deliver_spec tr _ sent⟩⟩
  rw [hs]
  refine ⟨?_, fun i f hf => callFrames_get hf⟩
  show (loopFrames _ _ _ _).length = _
  rw [loopFrames, List.length_map, List.length_range]

/-- **C31**: `Ok` is returned exactly when every frame was accepted. -/
theorem C31_ok_iff {tr : Transport} {sent frames sent' : List Frame} {r : Except Error Unit}
    (h : Delivered tr sent frames r sent') :
    r = .ok () ↔ ∀ i f, frames[i]? = some f → tr (sent ++ frames.take i) f = .ok () := by
  obtain ⟨k, h1, h2, h3, h4⟩ := h
  cases r with
  | ok u =>
    obtain ⟨rfl, h5⟩ := h4
    refine ⟨fun _ i f hf => ?_, fun _ => rfl⟩
    have hi : i < frames.length := by
      apply Nat.lt_of_not_le
      intro hle
      rw [List.getElem?_eq_none hle] at hf
      cases hf
    by_cases hl : i + 1 < frames.length
    · exact h3 i f hl hf
    · have : i = frames.length - 1 := by omega
      subst this
      exact h5 f hf
  | error e =>
    obtain ⟨i, f, a, b, c⟩ := h4
    constructor
    · intro h; cases h
    · intro h
      rw [h i f b] at c
      cases c

example : Delivered (fun sent _ => if sent.length = 1 then .error ⟨.io, none⟩ else .ok ()) []
    [.cancel ⟨1#32⟩, .cancel ⟨2#32⟩, .cancel ⟨3#32⟩] (.error ⟨.io, none⟩)
    [.cancel ⟨1#32⟩, .cancel ⟨2#32⟩] := deliver_spec _ [.cancel ⟨1#32⟩, .cancel ⟨2#32⟩, .cancel ⟨3#32⟩] []

/-! ## C32 -/

/-- **C32.** Encode every frame of a `fire_and_forget` call, push the buffers in order onto a
`BufList`, convert it to a payload: the result is the payload of the call, with empty parts
turned into absent ones. Needs a fragment size of at most 2^24 - 1 or metadata shorter than 2^24
bytes. -/
theorem C32_end_to_end {dbg dbg' : Bool} {fuel : Nat} {m : RSocketMachine} {sid : U32}
    {q : StreamIdProvider} (h0 : m.chunkPayload ≠ some 0)
    (hid : m.streamId.nextStreamId m.receivers fuel = .ok (sid, q)) (p : Payload)
    (hm : (p.metadata.getD []).length < 2 ^ 24 ∨ ∃ size, m.chunkPayload = some size ∧ size < 2 ^ 24) :
    ∃ frames bs l, m.fireAndForget dbg fuel openTransport p [] =
        .ok (.ok (), frames, { m with streamId := q }) ∧
      encodeAll frames = .ok bs ∧ pushAll dbg' bs BufList.new = .ok l ∧
      l.tryInto = .ok (.ok (normPayload p)) := by
  obtain ⟨parts, h1, h2, h3, h4⟩ := callFrames_parts sid m.chunkPayload p h0
  have hs := (next_id_facts hid).1
  have hlen : ∀ e ∈ parts, (e.2.metadata.getD []).length < 2 ^ 24 := by
    intro e he
    obtain ⟨a, b⟩ := h4 e he
    rcases hm with hm | ⟨size, c, d⟩
    · omega
    · have := b size c
      omega
  refine ⟨callFrames sid m.chunkPayload p,
    parts.map fun e => layout 16 (fnfFrame sid e.1 e.2),
    ⟨parts.map fun e => layout 16 (fnfFrame sid e.1 e.2)⟩, ?_, ?_, ?_, ?_⟩
  · rw [fireAndForget_eq hid h0, deliver_open]
    rfl
  · rw [h1]
    exact encodeAll_fragments hs parts hlen
  · rw [pushAll_ok]
    · rfl
    · intro b hb
      obtain ⟨e, -, rfl⟩ := List.mem_map.1 hb
      exact layout_pos _
  · unfold BufList.tryInto
    simp only [reassemble_fragments hs parts hlen, List.nil_append, h2, h3]
    show Outcome.ok (Except.ok (Payload.new
      (if (p.metadata.getD []).isEmpty then none else some (p.metadata.getD []))
      (if (p.data.getD []).isEmpty then none else some (p.data.getD [])))) = _
    rw [normOpt_getD, normOpt_getD]
    rfl

/-- **C32**, the condition is sharp: if it fails, encoding the frames panics. -/
theorem C32_too_big {dbg : Bool} {fuel : Nat} {m : RSocketMachine} {sid : U32}
    {q : StreamIdProvider} (h0 : m.chunkPayload ≠ some 0)
    (hid : m.streamId.nextStreamId m.receivers fuel = .ok (sid, q)) (p : Payload)
    (hm : ¬ ((p.metadata.getD []).length < 2 ^ 24 ∨
      ∃ size, m.chunkPayload = some size ∧ size < 2 ^ 24)) :
    ∃ frames msg, m.fireAndForget dbg fuel openTransport p [] =
        .ok (.ok (), frames, { m with streamId := q }) ∧ encodeAll frames = .panic msg := by
  obtain ⟨f, fs, e, hl⟩ := callFrames_too_big sid m.chunkPayload p hm
  obtain ⟨msg, hp⟩ := (encode_panic_iff f []).2 hl
  refine ⟨f :: fs, msg, ?_, ?_⟩
  · rw [fireAndForget_eq hid h0, deliver_open, e]
    rfl
  · have hp : f.toBytes = .panic msg := hp
    rw [encodeAll, hp]

/-- The hypotheses of C32 and C33 on a new client with fragment size 2. -/
example : let m : RSocketMachine := { RSocketMachine.new .client 60 0 with chunkPayload := some 2 }
    let p : Payload := ⟨some [1#8, 2#8, 3#8], some []⟩
    (∃ frames bs l, m.fireAndForget true 1 openTransport p [] =
        .ok (.ok (), frames, { m with streamId := ⟨3#32⟩ }) ∧
      encodeAll frames = .ok bs ∧ pushAll true bs BufList.new = .ok l ∧
      l.tryInto = .ok (.ok ⟨some [1#8, 2#8, 3#8], none⟩)) ∧
    m.chunkPayload ≠ some 0 ∧ p.chunks 2 = .ok ⟨2, some [1#8, 2#8, 3#8], some []⟩ :=
  ⟨C32_end_to_end (sid := 1#32) (q := ⟨3#32⟩) (by decide) rfl _ (.inl (by decide)), by decide, rfl⟩

/-- Without a fragment size and with 2^24 bytes of metadata, encoding panics. -/
example : ∃ frames msg, (RSocketMachine.new .client 60 0).fireAndForget true 1 openTransport
      ⟨some (List.replicate (2 ^ 24) 0#8), none⟩ [] =
        .ok (.ok (), frames, { RSocketMachine.new .client 60 0 with streamId := ⟨3#32⟩ }) ∧
      encodeAll frames = .panic msg :=
  C32_too_big (m := RSocketMachine.new .client 60 0) (sid := 1#32) nofun rfl _ (by
    rintro (h | ⟨_, h, -⟩)
    · exact Nat.lt_irrefl _ (List.length_replicate (n := 2 ^ 24) (a := 0#8) ▸ h)
    · cases h)

/-! ## C33 -/

/-- What C33 says of one request: at least one frame was sent and the last one has FOLLOWS
clear. -/
def C33_statement (dbg : Bool) (m : RSocketMachine) (p : Payload) : Prop :=
  ∀ fuel r frames m', m.fireAndForget dbg fuel openTransport p [] = .ok (r, frames, m') →
    ∃ f, frames.getLast? = some f ∧ followsOf f = some false

/-- **C33** holds without a fragment size, and for payloads with at least one part whose parts
have 1..2^24 bytes. Missing (and false, see below): absent-and-absent payloads, present-but-empty
parts and parts above 2^24 bytes. -/
theorem C33_last_final_partial {dbg : Bool} {m : RSocketMachine} {p : Payload}
    (h : m.chunkPayload = none ∨
      (PartOk p.metadata ∧ PartOk p.data ∧ (p.metadata ≠ none ∨ p.data ≠ none))) :
    C33_statement dbg m p := by
  intro fuel r frames m' hf
  obtain ⟨h0, sid, rfl⟩ := fireAndForget_inv hf
  rcases h with h | ⟨hm, hd, hne⟩
  · rw [h]
    exact ⟨_, rfl, followsOf_fnfFrame ..⟩
  · rw [callFrames_exact h0 hm hd]
    cases hc : m.chunkPayload with
    | none => exact ⟨_, rfl, followsOf_fnfFrame ..⟩
    | some size =>
      have hpos : 0 < chunkCount size p := by
        rcases p with ⟨a, b⟩
        show 0 < max (partCount size a) (partCount size b)
        rcases hne with hne | hne
        · cases a with
          | none => exact absurd rfl hne
          | some x =>
            have : 0 < partCount size (some x) := by show 0 < max 1 _; omega
            omega
        · cases b with
          | none => exact absurd rfl hne
          | some x =>
            have : 0 < partCount size (some x) := by show 0 < max 1 _; omega
            omega
      obtain ⟨k, hk⟩ : ∃ k, chunkCount size p = k + 1 := ⟨chunkCount size p - 1, by omega⟩
      refine ⟨fnfFrame sid (decide (k + 1 < k + 1)) (chunkAt size p k), ?_, ?_⟩
      · simp only [fnfFrames, hk, List.range_succ, List.map_append, List.map_cons, List.map_nil,
          List.getLast?_append, List.getLast?_singleton, Option.some_or]
      · rw [followsOf_fnfFrame]
        simp

/-- **C33**, exactly when: a fragmented request ends with a final frame if and only if it has at
least one chunk and `len()` counted the chunks right. -/
theorem C33_iff {dbg : Bool} {fuel : Nat} {m : RSocketMachine} {sid : U32}
    {q : StreamIdProvider} {size : Nat} {c : PayloadChunks} (hc : m.chunkPayload = some size)
    (hid : m.streamId.nextStreamId m.receivers fuel = .ok (sid, q)) (p : Payload)
    (hch : p.chunks size = .ok c) :
    (∃ r frames m' f, m.fireAndForget dbg fuel openTransport p [] = .ok (r, frames, m') ∧
      frames.getLast? = some f ∧ followsOf f = some false) ↔
    0 < chunkCount size p ∧ c.len = chunkCount size p := by
  have h0 : 0 < size := by
    apply Nat.pos_of_ne_zero
    rintro rfl
    cases hch
  have hne : m.chunkPayload ≠ some 0 := by
    rw [hc]; intro h; cases h; exact Nat.lt_irrefl _ h0
  rw [chunks_ok h0] at hch
  cases hch
  have e : m.fireAndForget dbg fuel openTransport p [] = .ok (.ok (),
      loopFrames sid size (PayloadChunks.len ⟨size, p.metadata, p.data⟩) p,
      { m with streamId := q }) := by
    rw [fireAndForget_eq hid hne, deliver_open, hc]
    rfl
  rw [e]
  cases hk : chunkCount size p with
  | zero =>
    refine ⟨?_, fun h => absurd h.1 (Nat.lt_irrefl _)⟩
    rintro ⟨r, frames, m', f, h1, h2, -⟩
    cases h1
    rw [loopFrames, hk] at h2
    cases h2
  | succ k =>
    have hl : (loopFrames sid size (PayloadChunks.len ⟨size, p.metadata, p.data⟩) p).getLast? =
        some (fnfFrame sid (k + 1 != PayloadChunks.len ⟨size, p.metadata, p.data⟩)
          (chunkAt size p k)) := by
      simp only [loopFrames, hk, List.range_succ, List.map_append, List.map_cons, List.map_nil,
        List.getLast?_append, List.getLast?_singleton, Option.some_or]
    constructor
    · rintro ⟨r, frames, m', f, h1, h2, h3⟩
      cases h1
      rw [hl] at h2
      cases h2
      rw [followsOf_fnfFrame] at h3
      refine ⟨Nat.succ_pos _, ?_⟩
      exact (by simpa using h3 : k + 1 = _).symm
    · rintro ⟨-, h⟩
      refine ⟨_, _, _, _, rfl, hl, ?_⟩
      rw [followsOf_fnfFrame, h]
      simp

/-- **C33** is false: with a fragment size, a payload without parts sends no frame at all. -/
theorem C33_nothing_sent_false (dbg : Bool) {size : Nat} (h0 : 0 < size) :
    (fragmenting size).fireAndForget dbg 1 openTransport ⟨none, none⟩ [] =
      .ok (.ok (), [], { fragmenting size with streamId := ⟨3#32⟩ }) := by
  rw [fireAndForget_eq (fragmenting_id size) (by intro h; cases h; exact Nat.lt_irrefl _ h0),
    deliver_open]
  rfl

/-- **C33** is false: a payload whose only part is present but empty is announced as unfinished. -/
theorem C33_empty_part_false (dbg : Bool) {size : Nat} (h0 : 0 < size) :
    (fragmenting size).fireAndForget dbg 1 openTransport ⟨none, some []⟩ [] =
      .ok (.ok (), [fnfFrame 1#32 true ⟨none, some []⟩],
        { fragmenting size with streamId := ⟨3#32⟩ }) := by
  rw [fireAndForget_eq (fragmenting_id size) (by intro h; cases h; exact Nat.lt_irrefl _ h0),
    deliver_open]
  have h1 : chunkCount size ⟨none, some []⟩ = 1 := by
    show max 0 (max 1 (ceilDiv 0 size)) = 1
    rw [ceilDiv_zero _ h0]
    rfl
  have h2 : PayloadChunks.len ⟨size, none, some []⟩ = 0 := by
    rw [len_eq]
    show max (lenPart size 0) (lenPart size 0) = 0
    rw [lenPart_zero]; rfl
  have h3 : chunkAt size ⟨none, some []⟩ 0 = ⟨none, some []⟩ := by
    show Payload.mk (partAt size none 0) (partAt size (some []) 0) = _
    rw [← takePart_fst, ← takePart_fst, takePart_some,
      if_neg (by rw [List.length_nil]; exact Nat.not_lt_zero _)]
    rfl
  show Outcome.ok (Except.ok (), [] ++ loopFrames 1#32 size
    (PayloadChunks.len ⟨size, none, some []⟩) ⟨none, some []⟩, _) = _
  rw [loopFrames, h1, h2, List.range_one, List.map_singleton, h3]
  rfl

/-- **C33** is false: a part of 2^24 + 1 bytes cut into single bytes is announced as unfinished
(and one frame too early as finished). -/
theorem C33_big_part_false (dbg : Bool) :
    ∃ r frames m', (fragmenting 1).fireAndForget dbg 1 openTransport
        ⟨none, some (List.replicate (2 ^ 24 + 1) 0#8)⟩ [] = .ok (r, frames, m') ∧
      (∃ f, frames.getLast? = some f ∧ followsOf f = some true) ∧
      (∃ f, frames[2 ^ 24 - 1]? = some f ∧ followsOf f = some false) := by
  have key : ∀ k, k = 2 ^ 24 → ∃ r frames m', (fragmenting 1).fireAndForget dbg 1 openTransport
        ⟨none, some (List.replicate (k + 1) 0#8)⟩ [] = .ok (r, frames, m') ∧
      (∃ f, frames.getLast? = some f ∧ followsOf f = some true) ∧
      (∃ f, frames[k - 1]? = some f ∧ followsOf f = some false) := by
    intro k hk
    refine ⟨_, _, _, fireAndForget_eq (fragmenting_id 1) (by intro h; cases h), ?_⟩
    rw [deliver_open]
    have hcount : chunkCount 1 ⟨none, some (List.replicate (k + 1) 0#8)⟩ = k + 1 := by
      show max 0 (max 1 (ceilDiv (List.replicate (k + 1) 0#8).length 1)) = k + 1
      rw [List.length_replicate]
      unfold ceilDiv
      rw [Nat.div_one]
      omega
    have hlen : PayloadChunks.len ⟨1, none, some (List.replicate (k + 1) 0#8)⟩ = k := by
      rw [len_eq]
      show max (lenPart 1 0) (lenPart 1 (List.replicate (k + 1) 0#8).length) = k
      rw [List.length_replicate, lenPart_zero, hk, lenPart_inexact]
      exact Nat.max_eq_right (Nat.zero_le _)
    have e : callFrames 1#32 (fragmenting 1).chunkPayload
        ⟨none, some (List.replicate (k + 1) 0#8)⟩ = loopFrames 1#32 1 (PayloadChunks.len ⟨1, none,
        some (List.replicate (k + 1) 0#8)⟩) ⟨none, some (List.replicate (k + 1) 0#8)⟩ := rfl
    simp only [e]
    rw [hlen, List.nil_append, loopFrames, hcount]
    constructor
    · refine ⟨fnfFrame 1#32 (k + 1 != k) (chunkAt 1 ⟨none, some (List.replicate (k + 1) 0#8)⟩ k),
        ?_, ?_⟩
      · simp only [List.range_succ, List.map_append, List.map_cons, List.map_nil,
          List.getLast?_append, List.getLast?_singleton, Option.some_or]
      · rw [followsOf_fnfFrame]
        simp
    · refine ⟨fnfFrame 1#32 (k - 1 + 1 != k) (chunkAt 1 ⟨none, some (List.replicate (k + 1) 0#8)⟩
        (k - 1)), ?_, ?_⟩
      · rw [List.getElem?_map, List.getElem?_range (by omega)]
        rfl
      · rw [followsOf_fnfFrame, Nat.sub_add_cancel (by omega)]
        simp
  exact key _ rfl

/-! ## C34 -/

/-- **C34.** `metadata_push` hands exactly one frame to the transport, returns its result and
leaves the machine (in particular the id counter) as it was; the bytes of the frame start with
stream id 0, and the peer decodes them to a METADATA_PUSH with the same metadata. -/
theorem C34_metadata_push (tr : Transport) (m : RSocketMachine) (md : Bytes) (sent : List Frame) :
    ∃ f b, m.metadataPush tr md sent = (tr sent f, sent ++ [f], m) ∧ f.toBytes = .ok b ∧
      b.take 4 = [0#8, 0#8, 0#8, 0#8] ∧
      (Frame.decode : Dec Bytes Frame) b = .ok f [] ∧ f = .metadataPush ⟨md⟩ := by
  have hw : WellFormed (.metadataPush ⟨md⟩) := trivial
  exact ⟨.metadataPush ⟨md⟩, _, rfl, toBytes_wellFormed hw, rfl, decode_layout hw, rfl⟩

/-- The wire bytes of a METADATA_PUSH with metadata `[1, 2]` on stream 0. -/
example (m : RSocketMachine) : m.metadataPush openTransport [1#8, 2#8] [] =
      (.ok (), [.metadataPush ⟨[1#8, 2#8]⟩], m) ∧
    (Frame.metadataPush ⟨[1#8, 2#8]⟩).toBytes =
      .ok [0#8, 0#8, 0#8, 0#8, 0x30#8, 0x80#8, 1#8, 2#8] := ⟨rfl, by decide⟩

/-! ## C52 -/

/-- **C52.** Up to any point of time (`ws` are the wake-ups so far): the watchdog has closed the
connection at most once, and it has done so exactly when some wake-up came later than
`keepalive_timeout` after the recorded last-received time. -/
theorem C52_closes_iff (m : RSocketMachine) (ws : List Nat) :
    (m.watchdog ws).1.count .close ≤ 1 ∧
    (Act.close ∈ (m.watchdog ws).1 ↔
      ∃ w ∈ ws, m.keepaliveLastReceived + m.keepaliveTimeout < w) := by
  rw [watchdog_eq]
  have e : (∃ w ∈ ws, m.keepaliveLastReceived + m.keepaliveTimeout < w) ↔
      ∃ w ∈ ws, w - m.keepaliveLastReceived > m.keepaliveTimeout := by
    constructor <;> (rintro ⟨w, a, b⟩; exact ⟨w, a, by omega⟩)
  rw [e]
  split
  · rename_i h
    exact ⟨by decide, fun _ => h, fun _ => by simp⟩
  · rename_i h
    refine ⟨by decide, fun h' => ?_, fun h' => absurd h' h⟩
    cases h'

/-- **C52**: what exactly it does, and whether it has ended: nothing as long as no wake-up came
that late; otherwise one log line, one `close`, and the task ends. -/
theorem C52_actions (m : RSocketMachine) (ws : List Nat) :
    m.watchdog ws =
      if ∃ w ∈ ws, m.keepaliveLastReceived + m.keepaliveTimeout < w then
        ([.logError "connection keepalive timed out", .close], true)
      else ([], false) := by
  rw [watchdog_eq]
  have e : (∃ w ∈ ws, m.keepaliveLastReceived + m.keepaliveTimeout < w) ↔
      ∃ w ∈ ws, w - m.keepaliveLastReceived > m.keepaliveTimeout := by
    constructor <;> (rintro ⟨w, a, b⟩; exact ⟨w, a, by omega⟩)
  simp only [e]

/-- **C52**: a machine made at time `t0` is never closed at or before `t0 + timeout`. -/
theorem C52_not_early (role : Role) (timeout t0 : Nat) (ws : List Nat)
    (h : ∀ w ∈ ws, w ≤ t0 + timeout) :
    ((RSocketMachine.new role timeout t0).watchdog ws).1 = [] := by
  rw [watchdog_eq, if_neg]
  rintro ⟨w, a, b⟩
  have := h w a
  have : w - t0 > timeout := b
  omega

/-- **C52**: with a positive timeout it is closed by the second wake-up, on every schedule. -/
theorem C52_by_second (role : Role) (timeout t0 : Nat) (hT : 0 < timeout) (w1 w2 : Nat)
    (rest : List Nat) (h : WakeUps timeout t0 (w1 :: w2 :: rest)) :
    Act.close ∈ ((RSocketMachine.new role timeout t0).watchdog [w1, w2]).1 := by
  rw [(C52_closes_iff _ _).2]
  obtain ⟨h1, h2, -⟩ := h
  refine ⟨w2, by simp, ?_⟩
  show t0 + timeout < w2
  omega

example : WakeUps 60 0 [60, 120, 180] := ⟨by decide, by decide, by decide, trivial⟩

/-! ## C53 -/

/-- What C53 says: while the peer is alive the connection is not closed. Frames that arrive are
events that no code of the machine reacts to: there is no receive loop, and
`keepalive_last_received` is only written in `new` (socket.rs:67). -/
def C53_statement (timeout : Nat) : Prop :=
  ∀ role t0 es, WakeUps timeout t0 (wakes es) → Alive timeout t0 es →
    (es.map Event.time).Pairwise (· ≤ ·) →
    Act.close ∉ ((RSocketMachine.new role timeout t0).watchdog (wakes es)).1

/-- **C53** is false for every positive timeout: the connection is closed although a frame
arrives exactly at every wake-up. -/
theorem C53_kept_open_false (timeout : Nat) (hT : 0 < timeout) : ¬ C53_statement timeout := by
  intro h
  have := h .client 0 [.received timeout, .wake timeout, .received (2 * timeout),
    .wake (2 * timeout)] ⟨by omega, by omega, trivial⟩ ⟨by omega, by omega, trivial⟩
    (by simp [Event.time]; omega)
  apply this
  apply C52_by_second .client timeout 0 hT timeout (2 * timeout) []
  exact ⟨by omega, by omega, trivial⟩

/-- **C53** more sharply: whatever frames arrive, the connection is closed at the second wake-up
at the latest. -/
theorem C53_always_closed (role : Role) (timeout t0 : Nat) (hT : 0 < timeout) (es : List Event)
    (hw : WakeUps timeout t0 (wakes es)) (h2 : 2 ≤ (wakes es).length) :
    Act.close ∈ ((RSocketMachine.new role timeout t0).watchdog (wakes es)).1 := by
  rcases hes : wakes es with _ | ⟨w1, _ | ⟨w2, rest⟩⟩
  · rw [hes] at h2; simp at h2
  · rw [hes] at h2; simp at h2
  · rw [hes] at hw
    rw [(C52_closes_iff _ _).2]
    obtain ⟨a, b, -⟩ := hw
    refine ⟨w2, by simp, ?_⟩
    show t0 + timeout < w2
    omega

/-- **C53**, what remains true: no close as long as no wake-up comes later than the timeout after
construction. Missing: everything after that time. -/
theorem C53_kept_open_partial (role : Role) (timeout t0 : Nat) (es : List Event)
    (h : ∀ e ∈ es, e.time ≤ t0 + timeout) :
    Act.close ∉ ((RSocketMachine.new role timeout t0).watchdog (wakes es)).1 := by
  rw [C52_not_early]
  · intro h; cases h
  · intro w hw
    have : ∀ es : List Event, (∀ e ∈ es, e.time ≤ t0 + timeout) → w ∈ wakes es → w ≤ t0 + timeout := by
      intro es
      induction es with
      | nil => intro _ h; cases h
      | cons e es ih =>
        intro h1 h2
        cases e with
        | wake t =>
          rcases List.mem_cons.1 h2 with rfl | h2
          · exact h1 (.wake w) (List.mem_cons_self ..)
          · exact ih (fun e he => h1 e (List.mem_cons_of_mem _ he)) h2
        | received t => exact ih (fun e he => h1 e (List.mem_cons_of_mem _ he)) h2
    exact this es h hw

/-- Frames arrive at every wake-up, and the connection is closed all the same; until the first wake-up after the
timeout it is not. -/
example : let es : List Event := [.received 60, .wake 60, .received 120, .wake 120]
    WakeUps 60 0 (wakes es) ∧ Alive 60 0 es ∧ 2 ≤ (wakes es).length ∧
    Act.close ∈ ((RSocketMachine.new .server 60 0).watchdog (wakes es)).1 ∧
    Act.close ∉ ((RSocketMachine.new .server 60 0).watchdog (wakes (es.take 2))).1 :=
  ⟨⟨by decide, by decide, trivial⟩, ⟨by decide, by decide, trivial⟩, by decide,
    C53_always_closed .server 60 0 (by decide) _ ⟨by decide, by decide, trivial⟩ (by decide),
    C53_kept_open_partial .server 60 0 _ (by decide)⟩

/-! ## C60 -/

/-- **C60.** The listener logs, in order, one line per Closed and per Error status it observes
before the first `None`, with the error's own text, does nothing else (in particular it never
closes the connection), and stops exactly at the first `None`. -/
theorem C60_listener (items : List (Option ConnectionStatus)) :
    (listener items).1 =
      (((items.takeWhile Option.isSome).filterMap id).flatMap statusReport).map .logError ∧
    ((listener items).2 = true ↔ none ∈ items) ∧ Act.close ∉ (listener items).1 := by
  have h1 : (listener items).1 =
      (((items.takeWhile Option.isSome).filterMap id).flatMap statusReport).map .logError := by
    induction items with
    | nil => rfl
    | cons o os ih =>
      cases o with
      | none => rfl
      | some st =>
        rw [listener]
        show onStatus st ++ (listener os).1 = _
        rw [ih]
        cases st <;> rfl
  refine ⟨h1, ?_, ?_⟩
  · clear h1
    induction items with
    | nil => simp [listener]
    | cons o os ih =>
      cases o with
      | none => simp [listener]
      | some st =>
        rw [listener]
        show (listener os).2 = true ↔ _
        rw [ih]
        simp
  · rw [h1]
    simp

example : (listener [some .connecting, some .closed, some (.error "x"), none, some .closed]) =
    ([.logError "connection was closed", .logError "x"], true) := by decide

end Binate
