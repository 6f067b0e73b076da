import Verif.Spec.Unwind
import Verif.Lemmas.RoundTrip
import Verif.Lemmas.Outcomes
import Verif.Lemmas.BufList
import Verif.Lemmas.Pieces

/-! # Lemmas on what a panic leaves behind -/

namespace Binate

open Spec RSocketMachine

/-! ## Encoding -/

theorem payloadMut_ok {p : Payload} (h : (optBytes p.metadata).length < 2 ^ 24) (buf : Bytes) :
    encodePayloadWithLenMut p buf = .returned () (buf ++ payloadBytes p) := by
  have e := encodePayloadWithLen_ok h buf
  simp only [encodePayloadWithLen, metadataLen_eq, fromUsize_ok h, Outcome.ok_bind] at e
  injection e with e
  simp only [encodePayloadWithLenMut, metadataLen_eq, fromUsize_ok h]
  rw [← e]
  rfl

theorem payloadMut_panic {p : Payload} (h : 2 ^ 24 ≤ (optBytes p.metadata).length) :
    ∃ m, ∀ buf, encodePayloadWithLenMut p buf = .unwound m buf := by
  obtain ⟨m, hm⟩ := fromUsize_panic h
  refine ⟨m, fun buf => ?_⟩
  rw [encodePayloadWithLenMut, metadataLen_eq, hm]
  rfl

/-- The state with which a codec gets to its payload. -/
theorem encodeMut_head {f : Frame} (hf : FrameFlagsOk f) {p : Payload} (hp : payloadOf f = some p)
    (buf : Bytes) : f.encodeMut buf = encodePayloadWithLenMut p (buf ++ beforePayload f) := by
  have hb : ∀ {x : Bytes}, layout 16 f = x ++ payloadBytes p → beforePayload f = x := by
    intro x hx
    rw [beforePayload, hp]
    show (layout 16 f).take _ = x
    rw [hx, List.length_append, Nat.add_sub_cancel, List.take_left']
    rfl
  have hs : ∀ {a b : Bytes}, a = b → encodePayloadWithLenMut p a = encodePayloadWithLenMut p b :=
    fun e => congrArg (encodePayloadWithLenMut p) e
  cases f with
  | setup v =>
    cases hp
    have h1 := hf v.flags rfl
    rw [hb rfl]
    refine hs (a := putSlice (putU8 (putSlice (putU8 ((fun buf => match v.resumeToken with
        | some token => putSlice (putU16 buf (BitVec.ofNat 16 token.length)) token
        | none => buf) (putU32 (putU32 (v.version.encode (putU16 (putU32 buf 0#32)
          (FrameType.SETUP.bits ||| v.flags.bits))) v.keepaliveInterval) v.keepaliveTimeout))
        (BitVec.ofNat 8 v.metadataMimetype.length)) v.metadataMimetype)
        (BitVec.ofNat 8 v.dataMimetype.length)) v.dataMimetype) ?_
    rw [header_flags h1]
    rcases v with ⟨fl, ver, ki, kt, tok, mm, dm, p⟩
    cases tok <;>
    simp only [Version.encode, putU16_eq, putU32_eq, putU8_eq, putSlice, be_ofNat8, be_ofNat16] <;>
    simp [typeNo]
  | requestResponse v =>
    cases hp
    rw [hb rfl]
    exact hs (header_flags (hf v.flags rfl) v.streamId buf)
  | requestFnf v =>
    cases hp
    rw [hb rfl]
    exact hs (header_flags (hf v.flags rfl) v.streamId buf)
  | requestStream v =>
    cases hp
    rw [hb rfl]
    exact hs ((putU32_eq _ _).trans ((congrArg (· ++ be 4 v.initialRequestN.toNat)
      (header_flags (hf v.flags rfl) v.streamId buf)).trans (List.append_assoc ..)))
  | requestChannel v =>
    cases hp
    rw [hb rfl]
    exact hs ((putU32_eq _ _).trans ((congrArg (· ++ be 4 v.initialRequestN.toNat)
      (header_flags (hf v.flags rfl) v.streamId buf)).trans (List.append_assoc ..)))
  | payload v =>
    cases hp
    rw [hb rfl]
    exact hs (header_flags (hf v.flags rfl) v.streamId buf)
  | error v => cases hp
  | lease v => cases hp
  | keepalive v => cases hp
  | requestN v => cases hp
  | cancel v => cases hp
  | metadataPush v => cases hp
  | resume v => cases hp
  | resumeOk v => cases hp

theorem layout_before {f : Frame} {p : Payload} (hp : payloadOf f = some p) :
    layout 16 f = beforePayload f ++ payloadBytes p := by
  have hb : ∀ {x : Bytes}, layout 16 f = x ++ payloadBytes p → beforePayload f = x := by
    intro x hx
    rw [beforePayload, hp]
    show (layout 16 f).take _ = x
    rw [hx, List.length_append, Nat.add_sub_cancel, List.take_left']
    rfl
  cases f <;> cases hp <;> rw [hb rfl] <;> rfl

theorem encodeMut_ok {f : Frame} (hf : FrameFlagsOk f) (hm : metaLen f < 2 ^ 24) (buf : Bytes) :
    f.encodeMut buf = .returned () (buf ++ layout 16 f) := by
  cases hp : payloadOf f with
  | some p =>
    rw [encodeMut_head hf hp, payloadMut_ok (by rw [metaLen, hp] at hm; exact hm), layout_before hp,
      List.append_assoc]
  | none =>
    have e := encode_layout hf hm buf
    cases f <;> first | cases hp; done | skip
    all_goals
      simp only [Frame.encode] at e
      simp only [Frame.encodeMut, encodeWhole, e]

theorem encodeMut_panic {f : Frame} (hf : FrameFlagsOk f) (hm : 2 ^ 24 ≤ metaLen f) :
    ∃ m, ∀ buf, f.encodeMut buf = .unwound m (buf ++ beforePayload f) := by
  cases hp : payloadOf f with
  | some p =>
    obtain ⟨m, h⟩ := payloadMut_panic (p := p) (by rw [metaLen, hp] at hm; exact hm)
    exact ⟨m, fun buf => by rw [encodeMut_head hf hp, h]⟩
  | none => rw [metaLen, hp] at hm; exact absurd hm (by decide)

theorem before_length {f : Frame} {p : Payload} (hp : payloadOf f = some p) :
    6 ≤ (beforePayload f).length := by
  have e := congrArg List.length (layout_before hp)
  rw [List.length_append] at e
  have hh : ∀ a b c, (header a b c).length = 6 := fun a b c => by
    rw [header, List.length_append, be_length, be_length]
  have h : 6 + (payloadBytes p).length ≤ (layout 16 f).length := by
    cases f <;> cases hp <;> simp only [layout, List.length_append, hh] <;> omega
  omega

/-! ## Decoding -/

theorem decodeMut_panic {b : Bytes} {m : String} (h : decode b = .panic m) :
    Frame.decodeMut b = .unwound m (b.drop 6) := by
  have h6 : 6 ≤ b.length := by
    rcases Nat.lt_or_ge b.length 6 with h' | h'
    · rw [decode, decode_short h'] at h; cases h
    · exact h'
  obtain ⟨a0, a1, a2, a3, a4, a5, r, rfl⟩ := exists_six h6
  unfold Frame.decodeMut
  rw [show (Frame.decode : Dec Bytes Frame) (a0 :: a1 :: a2 :: a3 :: a4 :: a5 :: r) = _ from h]
  simp only
  rw [Dec.bind_ok (eatStreamId_cons ..), eatFlags_cons]
  cases FrameType.fromBits (a4 ++ a5) <;> rfl

/-! ## `BufList` -/

theorem advanceLoopMut_over {bufs : List Bytes} {n : Nat} (hn : bufs.flatten.length < n) :
    BufList.advanceLoopMut bufs n = .unwound "Out of bounds access" [] := by
  induction bufs generalizing n with
  | nil =>
    cases n with
    | zero => cases hn
    | succ n => rfl
  | cons b bs ih =>
    cases n with
    | zero => cases hn
    | succ n =>
      rw [List.flatten_cons, List.length_append] at hn
      rw [BufList.advanceLoopMut]
      have hr : BufCore.remaining b = b.length := rfl
      rw [if_neg (by omega), flat_advance (by rw [hr])]
      exact ih (by omega)

theorem advanceLoopMut_ok (bufs : List Bytes) (n : Nat) {bufs' : List Bytes}
    (h : BufList.advanceLoop bufs n = .ok bufs') : BufList.advanceLoopMut bufs n = .returned () bufs' := by
  induction bufs generalizing n with
  | nil =>
    cases n with
    | zero => cases h; rfl
    | succ n => cases h
  | cons b bs ih =>
    cases n with
    | zero => cases h; rfl
    | succ n =>
      rw [BufList.advanceLoop] at h
      rw [BufList.advanceLoopMut]
      have hr : BufCore.remaining b = b.length := rfl
      split at h
      · next hlt =>
        rw [if_pos hlt, flat_advance (by omega)]
        rw [flat_advance (by omega)] at h
        cases h
        rfl
      · next hle =>
        rw [if_neg hle, flat_advance (by rw [hr])]
        rw [flat_advance (by rw [hr])] at h
        exact ih _ h

/-! ## `fire_and_forget` -/

theorem fnfLoopMut_refusing (dbg : Bool) {tr : WildTransport} (hno : ∀ s f, tr s f ≠ .diverge) (e : Error)
    (sid : U32) (n : Nat) (fuel idx : Nat) (chunks : PayloadChunks) (sent : List Frame)
    {r : Except Error Unit} {sent' : List Frame}
    (h : fnfLoop dbg (refusing e tr) sid n fuel idx chunks sent = .ok (r, sent')) :
    fnfLoopMut dbg tr sid n fuel idx chunks sent = .returned r sent' ∨
      ∃ m, fnfLoopMut dbg tr sid n fuel idx chunks sent = .unwound m sent' ∧ r = .error e ∧
        PanickedAt tr sent' m := by
  induction fuel generalizing idx chunks sent with
  | zero =>
    unfold fnfLoop at h
    unfold fnfLoopMut
    split at h
    · next hn => cases h; rw [hn]; exact .inl rfl
    · cases h
  | succ fuel ih =>
    unfold fnfLoop at h
    unfold fnfLoopMut
    split at h
    · next hn => cases h; rw [hn]; exact .inl rfl
    · next hn =>
      rw [hn]
      simp only at h ⊢
      obtain ⟨f, hf, h⟩ := Outcome.bind_eq_ok.1 h
      rw [hf]
      simp only
      cases ht : tr sent (Frame.requestFnf f) with
      | diverge => exact absurd ht (hno _ _)
      | panic m =>
        have hr : refusing e tr sent (Frame.requestFnf f) = .error e := by rw [refusing, ht]
        rw [hr] at h
        cases h
        exact .inr ⟨m, rfl, rfl, _, _, rfl, ht⟩
      | ok a =>
        have hr : refusing e tr sent (Frame.requestFnf f) = a := by rw [refusing, ht]
        rw [hr] at h
        cases a with
        | error e' => cases h; exact .inl rfl
        | ok u => exact ih _ _ _ h

theorem fnfSendMut_refusing (dbg : Bool) {tr : WildTransport} (hno : ∀ s f, tr s f ≠ .diverge) (e : Error)
    (chunk : Option Nat) (sid : U32) (p : Payload) (sent : List Frame)
    {r : Except Error Unit} {sent' : List Frame}
    (h : fnfSend dbg (refusing e tr) chunk sid p sent = .ok (r, sent')) :
    fnfSendMut dbg tr chunk sid p sent = .returned r sent' ∨
      ∃ m, fnfSendMut dbg tr chunk sid p sent = .unwound m sent' ∧ r = .error e ∧
        PanickedAt tr sent' m := by
  cases chunk with
  | some size =>
    obtain ⟨c, hc, h⟩ := Outcome.bind_eq_ok.1 (show (p.chunks size >>= _) = _ from h)
    simp only [fnfSendMut, hc]
    exact fnfLoopMut_refusing dbg hno e _ _ _ _ _ _ h
  | none =>
    obtain ⟨f, hf, h⟩ := Outcome.bind_eq_ok.1
      (show (RequestFnfFrame.new dbg sid false p >>= _) = _ from h)
    simp only [fnfSendMut, hf]
    simp only at h
    cases ht : tr sent (Frame.requestFnf f) with
    | diverge => exact absurd ht (hno _ _)
    | panic m =>
      have hr : refusing e tr sent (Frame.requestFnf f) = .error e := by rw [refusing, ht]
      rw [hr] at h
      cases h
      exact .inr ⟨m, rfl, rfl, _, _, rfl, ht⟩
    | ok a =>
      have hr : refusing e tr sent (Frame.requestFnf f) = a := by rw [refusing, ht]
      rw [hr] at h
      cases h
      exact .inl rfl

end Binate
