import Verif.Lemmas.Direct

/-! # Properties of the decoders of single frame types

C67. A caller passes the stream id and the flags, the buffer starts after the header. -/

namespace Binate

open Spec

variable {T : Type} [Buf T] [LawfulBuf T]

/-! ## C67 -/

/-- **C67**: a direct call returns, for any buffer that keeps the contract of `Buf`, any stream id
and any flags. It never panics. The only errors are `InComplete` and `InvalidStreamId` with the
stream id passed. What is left of the buffer is its end. -/
theorem C67_total {t : FrameType} (h : t ≠ .EXT) (sid : U32) (fl : Flags) {b : T} (hb : Valid b) :
    (∃ f b', (directDecode t sid fl : Dec T Frame) b = .ok f b' ∧ bytes b' <:+ bytes b) ∨
    ∃ e b', (directDecode t sid fl : Dec T Frame) b = .err e b' ∧ bytes b' <:+ bytes b ∧
      (e = .inComplete ∨ ∃ x, e = .invalidStreamId x sid) := by
  have hs := sim_direct (T := T) t sid fl b hb
  rcases direct_cases h sid fl (bytes b) with ⟨f, s, h1, h2⟩ | ⟨e, s, h1, h2, h3⟩
  · rw [h1] at hs
    cases hd : (directDecode t sid fl : Dec T Frame) b with
    | ok a b' => rw [hd] at hs; exact .inl ⟨_, b', rfl, hs.2.2 ▸ h2⟩
    | _ => rw [hd] at hs; exact hs.elim
  · rw [h1] at hs
    cases hd : (directDecode t sid fl : Dec T Frame) b with
    | err a b' =>
      rw [hd] at hs
      exact .inr ⟨_, b', rfl, hs.2.2 ▸ h2, hs.1 ▸ h3⟩
    | _ => rw [hd] at hs; exact hs.elim

/-- **C67**: the frame carries exactly the stream id and the flags passed, whatever they are, and
it has the kind asked for. -/
theorem C67_kept {t : FrameType} {sid : U32} {fl : Flags} {r s : Bytes} {f : Frame}
    (h : (directDecode t sid fl : Dec Bytes Frame) r = .ok f s) :
    typeNumber f = protocolNumber t ∧ (∀ x, storedId f = some x → x = sid) ∧
    (∀ x, storedFlags f = some x → x = fl) ∧
    (∀ v, f = .keepalive v → v.respond = fl.bits.getLsbD 6) := by
  have hx : t ≠ .EXT := by rintro rfl; cases h
  have hc : ∃ sid', (ignoresId t = true ∨ sid' = sid) ∧ (connLevel t = true → sid' = 0#32) ∧
      (directDecode t sid' fl : Dec Bytes Frame) r = .ok f s := by
    by_cases hi : ignoresId t = true
    · exact ⟨0#32, .inl hi, fun _ => rfl, by rw [← direct_ignores hi sid, h]⟩
    · refine ⟨sid, .inr rfl, fun h1 => ?_, h⟩
      by_cases hz : sid = 0#32
      · exact hz
      · exfalso
        have hk : ChecksId t := by cases t <;> first | trivial | exact absurd rfl hi | cases h1
        rw [direct_zero hk hz] at h
        cases h
  obtain ⟨sid', h1, h2, h3⟩ := hc
  rw [direct_body hx, body_iff h2] at h3
  obtain ⟨h4, h5⟩ := h3
  subst h4
  refine ⟨by cases f <;> rfl, ?_, ?_, ?_⟩
  · intro x hs
    rcases h1 with h1 | rfl
    · cases f <;> first | (cases h1; done) | cases hs
    · apply BitVec.eq_of_toNat_eq
      generalize sid'.toNat = n at h5 ⊢
      cases h5 <;> first | (cases hs; done) | (cases hs; assumption)
  · intro x hs
    rw [← flags_toNat_eq_iff]
    generalize sid'.toNat = n at h5
    generalize fl.bits.toNat = m at h5 ⊢
    cases h5 <;> first | (cases hs; done) | (cases hs; assumption)
  · rintro v rfl
    show v.respond = fl.bits.toNat.testBit 6
    generalize sid'.toNat = n at h5
    generalize fl.bits.toNat = m at h5 ⊢
    cases h5
    assumption

/-- **C67**: `Frame::decode` is the header followed by the direct call it announces. -/
theorem C67_frame_decode {b : Bytes} {t : FrameType} (h6 : 6 ≤ b.length)
    (ht : typeOf b = protocolNumber t) (hx : t ≠ .EXT)
    (hc : ConnectionType (typeOf b) → streamIdOf b = 0) :
    decode b = directDecode t (BitVec.ofNat 32 (streamIdOf b))
      (Flags.fromBitsTruncate (BitVec.ofNat 16 (u16At b 4))) (b.drop 6) := by
  obtain ⟨a0, a1, a2, a3, a4, a5, r, rfl⟩ := exists_six h6
  have hty := typeOf_cons a0 a1 a2 a3 a4 a5 r
  have hsid := streamIdOf_cons a0 a1 a2 a3 a4 a5 r
  have hn : protocolNumber t = typeNo t := by cases t <;> rfl
  have hf : FrameType.fromBits (a4 ++ a5) = some t := by
    rw [fromBits_iff, ← hty, ht, hn]
  have e : BitVec.ofNat 16 (u16At (a0 :: a1 :: a2 :: a3 :: a4 :: a5 :: r) 4) = a4 ++ a5 := by
    apply BitVec.eq_of_toNat_eq
    rw [BitVec.toNat_ofNat, toNat_append8]
    have h4 := a4.isLt
    have h5 := a5.isLt
    exact Nat.mod_eq_of_lt (by simp only [u16At, byteAt, List.getD_cons_succ, List.getD_cons_zero]; omega)
  have e' : BitVec.ofNat 32 (streamIdOf (a0 :: a1 :: a2 :: a3 :: a4 :: a5 :: r)) =
      (a0 ++ a1 ++ a2 ++ a3) &&& MAX_U31 := by
    rw [hsid, BitVec.ofNat_toNat, BitVec.setWidth_eq]
  have hd := decode_cons a0 a1 a2 a3 a4 a5 r
  rw [hf] at hd
  have h0 : ¬ (connLevel t && ((a0 ++ a1 ++ a2 ++ a3) &&& MAX_U31) != 0#32) = true := by
    intro hh
    simp only [Bool.and_eq_true, bne_iff_ne, ne_eq] at hh
    refine hh.2 (toNat_zero_iff.1 ?_)
    rw [← hsid]
    exact hc (by rw [ht, hn]; exact typeNo_connection.1 hh.1)
  simp only [if_neg h0] at hd
  show Frame.decode _ = _
  rw [hd, e, e', direct_body hx]
  rfl

/-- What C67 says about the stream id of connection-level frames: a non-zero one is refused. -/
def C67_statement (t : FrameType) : Prop :=
  ∀ (sid : U32) (fl : Flags) (r : Bytes), sid ≠ 0#32 →
    (directDecode t sid fl : Dec Bytes Frame) r = .err (.invalidStreamId "0" sid) r

/-- **C67**, LEASE and KEEPALIVE refuse a non-zero stream id. *Missing*: SETUP, METADATA_PUSH,
RESUME and RESUME_OK, for which it is false. -/
theorem C67_refused_partial {t : FrameType} (h : ChecksId t) : C67_statement t :=
  fun _ fl r hs => direct_zero h hs fl r

/-- **C67** is false for the other four connection-level decoders: they take any stream id and
forget it. -/
theorem C67_refused_false :
    ¬ C67_statement .SETUP ∧ ¬ C67_statement .METADATA_PUSH ∧ ¬ C67_statement .RESUME ∧
    ¬ C67_statement .RESUME_OK ∧
    ∀ (sid : U32) (fl : Flags),
      (directDecode .SETUP sid fl : Dec Bytes Frame) = directDecode .SETUP 0#32 fl ∧
      (directDecode .METADATA_PUSH sid fl : Dec Bytes Frame) = directDecode .METADATA_PUSH 0#32 fl ∧
      (directDecode .RESUME sid fl : Dec Bytes Frame) = directDecode .RESUME 0#32 fl ∧
      (directDecode .RESUME_OK sid fl : Dec Bytes Frame) = directDecode .RESUME_OK 0#32 fl := by
  have key : ∀ {t}, ignoresId t = true → ¬ C67_statement t := by
    intro t hi h
    have h1 := h 1#32 Flags.empty [] (by decide)
    have h2 := h 2#32 Flags.empty [] (by decide)
    rw [direct_ignores hi] at h1 h2
    rw [h1] at h2
    cases h2
  exact ⟨key rfl, key rfl, key rfl, key rfl, fun sid fl => ⟨rfl, rfl, rfl, rfl⟩⟩

/-- A stream id with the reserved bit set and an undeclared flag bit are passed through. -/
example : (directDecode .REQUEST_FNF 0x80000001#32 ⟨0x8040#16⟩ : Dec Bytes Frame) [0, 0, 1, 7, 9] =
    .ok (.requestFnf ⟨0x80000001#32, ⟨0x8040#16⟩, ⟨some [7], some [9]⟩⟩) [] := by decide

example : (directDecode .METADATA_PUSH 5#32 Flags.empty : Dec Bytes Frame) [1, 2] =
    .ok (.metadataPush ⟨[1, 2]⟩) [] := by decide

end Binate
