import Verif.Lemmas.Unwind
import Verif.Props.BufList
import Verif.Props.Codec
import Verif.Props.Socket

/-! # C112: what a caught panic leaves behind -/

namespace Binate

open Spec RSocketMachine

/-! ## The two models of a function agree -/

/-- **C112**: seen from outside, `encode` is the function of C04: it returns what that returns, and
panics when that panics. -/
theorem C112_encode_same {f : Frame} (hf : FrameFlagsOk f) (buf : Bytes) :
    (∀ b, f.encode buf = .ok b ↔ f.encodeMut buf = .returned () b) ∧
    ((∃ m, f.encode buf = .panic m) ↔ ∃ m s, f.encodeMut buf = .unwound m s) ∧
    f.encodeMut buf ≠ .endless := by
  have hp := C04_encode_panics_iff f buf
  rcases Nat.lt_or_ge (metaLen f) (2 ^ 24) with hm | hm
  · rw [encode_layout hf hm, encodeMut_ok hf hm]
    refine ⟨fun b => ⟨fun h => ?_, fun h => ?_⟩, ⟨fun ⟨m, h⟩ => (nomatch h), fun ⟨m, s, h⟩ => (nomatch h)⟩, nofun⟩
    · injection h with h; rw [h]
    · injection h with _ h; rw [h]
  · obtain ⟨m, h⟩ := encodeMut_panic hf hm
    obtain ⟨m', h'⟩ := hp.2 hm
    rw [h, h']
    exact ⟨fun b => ⟨fun h => (nomatch h), fun h => (nomatch h)⟩, ⟨fun _ => ⟨_, _, rfl⟩, fun _ => ⟨_, rfl⟩⟩, nofun⟩

/-! ## `encode` -/

/-- **C112**, `encode`: either the whole frame is appended, or the metadata does not fit and everything
before the payload is left in the buffer. -/
theorem C112_encode_partial {f : Frame} (hf : FrameFlagsOk f) (buf : Bytes) :
    (metaLen f < 2 ^ 24 → f.encodeMut buf = .returned () (buf ++ layout 16 f)) ∧
    (2 ^ 24 ≤ metaLen f → ∃ m, f.encodeMut buf = .unwound m (buf ++ beforePayload f)) :=
  ⟨fun h => encodeMut_ok hf h buf, fun h => let ⟨m, e⟩ := encodeMut_panic hf h; ⟨m, e buf⟩⟩

/-- **C112** is false for `encode`, and never true when it panics: at least the six bytes of the header
are left in the buffer. -/
theorem C112_encode_false {f : Frame} (hf : FrameFlagsOk f) {buf s : Bytes} {m : String}
    (h : f.encodeMut buf = .unwound m s) :
    buf <+: s ∧ buf.length + 6 ≤ s.length ∧ ¬ NothingDone f.encodeMut buf := by
  rcases Nat.lt_or_ge (metaLen f) (2 ^ 24) with hm | hm
  · rw [encodeMut_ok hf hm] at h; cases h
  · obtain ⟨m', h'⟩ := encodeMut_panic hf hm
    have hs : s = buf ++ beforePayload f := by rw [h'] at h; injection h with _ h; exact h.symm
    have hl : 6 ≤ (beforePayload f).length := by
      cases hp : payloadOf f with
      | some p => exact before_length hp
      | none => rw [metaLen, hp] at hm; exact absurd hm (by decide)
    have hlen : buf.length + 6 ≤ s.length := by rw [hs, List.length_append]; omega
    refine ⟨⟨_, hs.symm⟩, hlen, fun hn => ?_⟩
    rw [hn m s h] at hlen
    omega

/-- A REQUEST_FNF with metadata. -/
private def withMeta (md : Bytes) : RequestFnfFrame := ⟨1#32, Flags.METADATA, ⟨some md, none⟩⟩

private theorem meta_ok : FlagsOk Flags.METADATA := by decide +kernel

private theorem exists_tooLong : ∃ md : Bytes, 2 ^ 24 ≤ md.length :=
  ⟨List.replicate (2 ^ 24) 0#8, Nat.le_of_eq List.length_replicate.symm⟩

private theorem tooLong_panics :
    ∃ md m s, (Frame.requestFnf (withMeta md)).encodeMut [] = .unwound m s :=
  let ⟨md, h⟩ := exists_tooLong
  let ⟨m, h⟩ := (C112_encode_partial (f := .requestFnf (withMeta md))
    (fun fl h => by cases h; exact meta_ok) []).2 h
  ⟨md, m, _, h⟩

/-- There is such a panic, and the claim for it is refuted. -/
example : ∃ f buf, ¬ NothingDone (Frame.encodeMut f) buf :=
  let ⟨_, _, _, h⟩ := tooLong_panics
  ⟨_, _, (C112_encode_false (fun fl h => by cases h; exact meta_ok) h).2.2⟩

/-- **C112**, what comes of it: after a REQUEST_FNF whose metadata is too long, any frame that is encoded
next into the same buffer is read by the peer as the data of that request, less its first three bytes,
provided these are 0 (its stream id is less than 256). -/
theorem C112_swallowed {f : RequestFnfFrame} (hs : f.streamId.toNat < 2 ^ 31) (hf : FlagsOk f.flags)
    {s : Bytes} {m : String} (h : (Frame.requestFnf f).encodeMut [] = .unwound m s) {g : Frame}
    (hg : FrameFlagsOk g) {r : Bytes} (hr : g.toBytes = .ok ([0#8, 0#8, 0#8] ++ r)) (hne : r ≠ []) :
    ∃ s', g.encodeMut s = .returned () s' ∧
      decode s' = .ok (.requestFnf { f with payload := ⟨none, some r⟩ }) [] := by
  have hff : FrameFlagsOk (.requestFnf f) := fun fl e => by cases e; exact hf
  rcases Nat.lt_or_ge (metaLen (.requestFnf f)) (2 ^ 24) with hm | hm
  · rw [encodeMut_ok hff hm] at h; cases h
  · obtain ⟨m', h'⟩ := encodeMut_panic hff hm
    have e : s = beforePayload (.requestFnf f) := by rw [h'] at h; injection h with _ h; exact h.symm
    have hb : beforePayload (.requestFnf f) = header f.streamId.toNat 5 (flagsOf 16 f.flags) :=
      List.append_cancel_right (layout_before (f := .requestFnf f) rfl).symm
    have hgs := ((C112_encode_same hg s).1 _).1 ((C04_encode_appends g s).1 _ hr)
    refine ⟨_, hgs, ?_⟩
    rw [e, hb]
    refine decode_iff.2 ⟨_, _, _, _, rfl, header_ok hs (by decide : 5 < 64) (flagsOf_ok hf).1 (flagsOf_ok hf).2,
      .requestFnf rfl (flagsOf_16 hf).symm ⟨[], r, [0#8, 0#8, 0#8], rfl, ?_, .inl ⟨rfl, rfl⟩,
        .inr ⟨hne, rfl⟩⟩⟩
    exact ⟨[0#8, 0#8, 0#8], rfl, rfl, by decide⟩

/-- A CANCEL on stream 7 is lost that way: its last three bytes are read as the data of the request. -/
example : ∃ md m s s', (Frame.requestFnf (withMeta md)).encodeMut [] = .unwound m s ∧
    (Frame.cancel ⟨7#32⟩).encodeMut s = .returned () s' ∧
    decode s' = .ok (.requestFnf { withMeta md with payload := ⟨none, some [7#8, 0x24#8, 0#8]⟩ }) [] :=
  let ⟨md, m, _, h⟩ := tooLong_panics
  let ⟨s', h1, h2⟩ := C112_swallowed (f := withMeta md) (by show 1 < 2 ^ 31; decide) meta_ok h
    (g := .cancel ⟨7#32⟩) (fun fl h => nomatch h) (r := [7#8, 0x24#8, 0#8]) (by decide +kernel) (by decide)
  ⟨md, m, _, s', h, h1, h2⟩

/-! ## `Frame::decode` -/

/-- **C112**, `decode`: it panics exactly at the frame type 0x3F, and has then taken the header. -/
theorem C112_decode_partial (b : Bytes) :
    (∀ f rest, decode b = .ok f rest → Frame.decodeMut b = .returned (.ok f) rest) ∧
    (∀ e rest, decode b = .err e rest → Frame.decodeMut b = .returned (.error e) rest) ∧
    ((∃ m s, Frame.decodeMut b = .unwound m s) ↔ 6 ≤ b.length ∧ typeOf b = 0x3F) ∧
    (∀ m s, Frame.decodeMut b = .unwound m s → s = b.drop 6) := by
  have hok : ∀ f rest, decode b = .ok f rest → Frame.decodeMut b = .returned (.ok f) rest := by
    intro f rest h
    unfold Frame.decodeMut
    rw [show (Frame.decode : Dec Bytes Frame) b = _ from h]
  have herr : ∀ e rest, decode b = .err e rest → Frame.decodeMut b = .returned (.error e) rest := by
    intro e rest h
    unfold Frame.decodeMut
    rw [show (Frame.decode : Dec Bytes Frame) b = _ from h]
  refine ⟨hok, herr, ?_, ?_⟩
  · rw [← (C05_no_panic_partial b).1]
    constructor
    · rintro ⟨m, s, h⟩
      cases hd : decode b with
      | ok f rest => rw [hok f rest hd] at h; cases h
      | err e rest => rw [herr e rest hd] at h; cases h
      | panic m => exact ⟨m, rfl⟩
      | diverge => exact absurd hd (C05_no_panic_partial b).2
    · rintro ⟨m, h⟩
      exact ⟨m, _, decodeMut_panic h⟩
  · intro m s h
    cases hd : decode b with
    | ok f rest => rw [hok f rest hd] at h; cases h
    | err e rest => rw [herr e rest hd] at h; cases h
    | panic m' => rw [decodeMut_panic hd] at h; injection h with _ h; exact h.symm
    | diverge => exact absurd hd (C05_no_panic_partial b).2

/-- **C112** is false for `decode` whenever it panics. -/
theorem C112_decode_false {b : Bytes} (h6 : 6 ≤ b.length) (ht : typeOf b = 0x3F) :
    ¬ NothingDone Frame.decodeMut b := by
  obtain ⟨-, -, h1, h2⟩ := C112_decode_partial b
  obtain ⟨m, s, h⟩ := h1.2 ⟨h6, ht⟩
  intro hn
  have := congrArg List.length ((hn m s h).symm.trans (h2 m s h))
  rw [List.length_drop] at this
  omega

example : ¬ NothingDone Frame.decodeMut [0#8, 0#8, 0#8, 0#8, 0xFC#8, 0#8, 1#8] :=
  C112_decode_false (by decide) (by decide +kernel)

/-! ## `BufList` -/

/-- **C112**, `advance`: past the end it panics and the list is empty afterwards, whatever it held;
otherwise it returns, and without empty buffers the list holds what is left of them. -/
theorem C112_advance_partial (l : BufList Bytes) (n : Nat) :
    (l.bufs.flatten.length < n → ∃ m, BufList.advanceMut n l = .unwound m ⟨[]⟩) ∧
    (n ≤ l.bufs.flatten.length → (∀ b ∈ l.bufs, b ≠ []) →
      BufList.advanceMut n l = .returned () ⟨leftOver l.bufs n⟩) := by
  refine ⟨fun h => ⟨_, by rw [BufList.advanceMut, advanceLoopMut_over h]⟩, fun h hne => ?_⟩
  have hv : Segments l.bufs := fun b hb => ⟨trivial, hne b hb⟩
  have hc : concat l.bufs = l.bufs.flatten := by
    rw [concat_pieces]; exact congrArg List.flatten (List.map_id _)
  obtain ⟨bufs', e1, -, -⟩ := advanceLoop_ok hv (n := n) (by rw [hc]; exact h)
  have e2 := advanceLoop_pieces hv (by rw [hc]; exact h) e1
  have hid : ∀ x : List Bytes, x.map bytes = x := fun x => List.map_id _
  rw [hid, hid] at e2
  rw [BufList.advanceMut, advanceLoopMut_ok _ _ e1, e2]

/-- **C112** is false for `advance` on every list that holds a buffer. -/
theorem C112_advance_false {l : BufList Bytes} (hl : l.bufs ≠ []) {n : Nat}
    (hn : l.bufs.flatten.length < n) : ¬ NothingDone (BufList.advanceMut n) l := by
  obtain ⟨m, h⟩ := (C112_advance_partial l n).1 hn
  intro hd
  have := hd m _ h
  rw [← this] at hl
  exact hl rfl

example : ∃ m, BufList.advanceMut 4 ⟨[[1#8], [2#8, 3#8]]⟩ = .unwound m ⟨[]⟩ :=
  (C112_advance_partial _ _).1 (by decide)

example : BufList.advanceMut 2 ⟨[[1#8], [2#8, 3#8]]⟩ = .returned () ⟨[[3#8]]⟩ :=
  (C112_advance_partial ⟨[[1#8], [2#8, 3#8]]⟩ 2).2 (by decide) (by decide)

/-- **C112** holds for `copy_to_bytes`: past the end it panics and the list is as before. -/
theorem C112_copy (l : BufList Bytes) (n : Nat) :
    NothingDone (BufList.copyToBytesMut n) l ∧
    ((∃ m s, BufList.copyToBytesMut n l = .unwound m s) ↔ l.bufs.flatten.length < n) := by
  have hc : concat l.bufs = l.bufs.flatten := by
    rw [concat_pieces]; exact congrArg List.flatten (List.map_id _)
  have hr : BufCore.remaining l = l.bufs.flatten.length := by
    rw [← hc]; exact buflist_remaining fun b hb => trivial
  have h36 := (C36_empty_buffers (l := l) (fun b hb => trivial) n).1
  rw [hr] at h36
  rw [← h36]
  show NothingDone (BufList.copyToBytesMut n) l ∧ (_ ↔ ∃ m, l.copyToBytes n = .panic m)
  unfold NothingDone BufList.copyToBytesMut
  cases l.copyToBytes n with
  | ok x => exact ⟨fun m s h => (nomatch h), fun ⟨m, s, h⟩ => (nomatch h), fun ⟨m, h⟩ => (nomatch h)⟩
  | panic m =>
    exact ⟨fun m s h => by injection h with _ h; exact h.symm, fun _ => ⟨_, rfl⟩, fun _ => ⟨_, _, rfl⟩⟩
  | diverge => exact ⟨fun m s h => (nomatch h), fun ⟨m, s, h⟩ => (nomatch h), fun ⟨m, h⟩ => (nomatch h)⟩

example : ∃ m s, BufList.copyToBytesMut 4 ⟨[[1#8], [2#8, 3#8]]⟩ = .unwound m s :=
  (C112_copy _ _).2.2 (by decide)

/-- **C112** holds for `push`, which panics in debug builds for an empty buffer and then does nothing. -/
theorem C112_push (dbg : Bool) (b : Bytes) (l : BufList Bytes) :
    NothingDone (BufList.pushMut dbg b) l ∧
    ((∃ m s, BufList.pushMut dbg b l = .unwound m s) ↔ dbg = true ∧ b = []) ∧
    (¬ (dbg = true ∧ b = []) → BufList.pushMut dbg b l = .returned () ⟨l.bufs ++ [b]⟩) := by
  cases b with
  | nil =>
    cases dbg with
    | true =>
      exact ⟨fun m s h => by injection h with _ h; exact h.symm, ⟨fun _ => ⟨rfl, rfl⟩, fun _ => ⟨_, _, rfl⟩⟩,
        fun h => absurd ⟨rfl, rfl⟩ h⟩
    | false =>
      exact ⟨fun m s h => (nomatch h), ⟨fun ⟨m, s, h⟩ => (nomatch h), fun h => (nomatch h.1)⟩, fun _ => rfl⟩
  | cons x xs =>
    have e : ∀ d, BufList.pushMut d (x :: xs) l = .returned () ⟨l.bufs ++ [x :: xs]⟩ := by
      intro d; cases d <;> rfl
    rw [e]
    refine ⟨fun m s h => ?_, ⟨fun ⟨m, s, h⟩ => (nomatch h), fun h => (nomatch h.2)⟩, fun _ => rfl⟩
    rw [e] at h
    cases h

example : ∃ m s, BufList.pushMut true [] ⟨[[1#8]]⟩ = .unwound m s := (C112_push _ _ _).2.1.2 ⟨rfl, rfl⟩

/-! ## The machine -/

/-- **C112**, requests: a transport that panics leaves the machine and the frames sent as a transport does
that refuses the same frame; the last frame handed over is the one it panicked at. -/
theorem C112_fnf_partial (dbg : Bool) (fuel : Nat) {tr : WildTransport} (hno : ∀ s f, tr s f ≠ .diverge)
    (e : Error) {m m' : RSocketMachine} {p : Payload} {sent sent' : List Frame} {r : Except Error Unit}
    (h : m.fireAndForget dbg fuel (refusing e tr) p sent = .ok (r, sent', m')) :
    fireAndForgetMut dbg fuel tr p (m, sent) = .returned r (m', sent') ∨
      ∃ msg, fireAndForgetMut dbg fuel tr p (m, sent) = .unwound msg (m', sent') ∧ r = .error e ∧
        PanickedAt tr sent' msg := by
  obtain ⟨⟨sid, q⟩, hid, h⟩ := Outcome.bind_eq_ok.1 h
  obtain ⟨⟨r', s'⟩, hs, h⟩ := Outcome.bind_eq_ok.1 h
  cases h
  simp only [fireAndForgetMut, hid]
  rcases fnfSendMut_refusing dbg hno e _ _ _ _ hs with h | ⟨msg, h, hr, hp⟩
  · exact .inl (by rw [h])
  · exact .inr ⟨msg, by rw [h], hr, hp⟩

/-- A transport that panics at the second of three fragments. -/
example : ∃ msg m' sent', fireAndForgetMut true 1
    (fun sent _ => if sent.length = 1 then .panic "gone" else .ok (.ok ())) ⟨none, some [1#8, 2#8, 3#8]⟩
    ({ RSocketMachine.new .client 1 0 with chunkPayload := some 1 }, []) = .unwound msg (m', sent') ∧
    sent'.length = 2 ∧ m'.streamId = ⟨3#32⟩ := by
  rcases C112_fnf_partial true 1
    (tr := fun sent _ => if sent.length = 1 then .panic "gone" else .ok (.ok ()))
    (fun s f => by split <;> nofun) (Error.ofIoError "")
    (m := { RSocketMachine.new .client 1 0 with chunkPayload := some 1 })
    (p := ⟨none, some [1#8, 2#8, 3#8]⟩) (sent := []) rfl with h | ⟨msg, h, -, -⟩
  · exact nomatch (show Ended.unwound _ _ = Ended.returned _ _ from h)
  · exact ⟨msg, _, _, h, rfl, rfl⟩

/-- **C112**, requests with fragment size 0: nothing is sent, but a stream id is used up. -/
theorem C112_fnf_zero {dbg : Bool} {fuel : Nat} {m : RSocketMachine} {sid : U32} {q : StreamIdProvider}
    (hc : m.chunkPayload = some 0) (hid : m.streamId.nextStreamId m.receivers fuel = .ok (sid, q))
    (tr : WildTransport) (p : Payload) (sent : List Frame) :
    ∃ msg, fireAndForgetMut dbg fuel tr p (m, sent) = .unwound msg ({ m with streamId := q }, sent) := by
  simp only [fireAndForgetMut, hid, fnfSendMut, hc]
  exact ⟨_, rfl⟩

example : ∃ msg, fireAndForgetMut true 1 (fun _ _ => .ok (.ok ())) ⟨none, some [1#8]⟩
    ({ RSocketMachine.new .client 1 0 with chunkPayload := some 0 }, []) =
      .unwound msg ({ RSocketMachine.new .client 1 0 with chunkPayload := some 0, streamId := ⟨3#32⟩ }, []) :=
  C112_fnf_zero rfl rfl _ _ _

/-- **C112** is false for requests: after a caught panic of the transport the machine has moved on to the
next stream id. -/
theorem C112_fnf_false : ∃ (tr : WildTransport) (p : Payload) (m m' : RSocketMachine) (sent : List Frame)
    (msg : String), fireAndForgetMut true 1 tr p (m, []) = .unwound msg (m', sent) ∧
      m.streamId = ⟨1#32⟩ ∧ m'.streamId = ⟨3#32⟩ :=
  ⟨fun _ _ => .panic "", ⟨none, none⟩, RSocketMachine.new .client 1 0, _, _, _, rfl, rfl, rfl⟩

/-- **C112**, `metadata_push`: a panic of the transport leaves the machine as it was. -/
theorem C112_metadata_push (tr : WildTransport) (md : Bytes) (m : RSocketMachine) (sent : List Frame) :
    (∀ r, tr sent (.metadataPush ⟨md⟩) = .ok r →
      metadataPushMut tr md (m, sent) = .returned r (m, sent ++ [.metadataPush ⟨md⟩])) ∧
    (∀ msg, tr sent (.metadataPush ⟨md⟩) = .panic msg →
      metadataPushMut tr md (m, sent) = .unwound msg (m, sent ++ [.metadataPush ⟨md⟩])) := by
  constructor <;> intro x h <;> simp only [metadataPushMut, MetadataPushFrame.new, h]

end Binate
