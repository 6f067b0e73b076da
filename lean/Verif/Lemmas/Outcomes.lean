import Verif.Lemmas.Need

/-! # All outcomes of `Frame.decode` on a contiguous buffer -/

namespace Binate

open Spec

theorem typeOf_cons (a0 a1 a2 a3 a4 a5 : U8) (r : Bytes) :
    typeOf (a0 :: a1 :: a2 :: a3 :: a4 :: a5 :: r) = (a4 ++ a5).toNat / 1024 := by
  rw [toNat_append8]
  have := a5.isLt
  show a4.toNat / 4 = _
  omega

theorem streamIdOf_cons (a0 a1 a2 a3 a4 a5 : U8) (r : Bytes) :
    streamIdOf (a0 :: a1 :: a2 :: a3 :: a4 :: a5 :: r) =
      ((a0 ++ a1 ++ a2 ++ a3) &&& MAX_U31).toNat := by
  rw [and_max31]
  simp only [toNat_append8]
  rw [streamIdOf, show byteAt (a0 :: a1 :: a2 :: a3 :: a4 :: a5 :: r) 0 = a0.toNat from rfl,
    show byteAt (a0 :: a1 :: a2 :: a3 :: a4 :: a5 :: r) 1 = a1.toNat from rfl,
    show byteAt (a0 :: a1 :: a2 :: a3 :: a4 :: a5 :: r) 2 = a2.toNat from rfl,
    show byteAt (a0 :: a1 :: a2 :: a3 :: a4 :: a5 :: r) 3 = a3.toNat from rfl]
  omega

theorem resumeFlag_cons (a0 a1 a2 a3 a4 a5 : U8) (r : Bytes) :
    resumeFlag (a0 :: a1 :: a2 :: a3 :: a4 :: a5 :: r) =
      (Flags.fromBitsTruncate (a4 ++ a5)).bits.toNat.testBit 6 := by
  rw [fromBitsTruncate_toNat, toNat_append8, Nat.testBit_eq_decide_div_mod_eq]
  show (a5.toNat / 64 % 2 == 1) = _
  have : a5.toNat / 64 % 2 = (a4.toNat * 256 + a5.toNat) / 16 % 32 * 16 / 2 ^ 6 % 2 := by
    have := a5.isLt
    omega
  rw [this]
  rfl

theorem typeNo_connection {t : FrameType} : connLevel t = true ↔ ConnectionType (typeNo t) := by
  cases t <;> simp [connLevel, ConnectionType, typeNo]

theorem knownType_iff {n : Nat} : (∃ t, n = typeNo t) ↔ KnownType n ∨ n = 63 := by
  constructor
  · rintro ⟨t, rfl⟩
    cases t <;> simp [KnownType, typeNo]
  · unfold KnownType
    rintro (⟨h1, h2⟩ | rfl)
    · have : n = 1 ∨ n = 2 ∨ n = 3 ∨ n = 4 ∨ n = 5 ∨ n = 6 ∨ n = 7 ∨ n = 8 ∨ n = 9 ∨ n = 10 ∨
        n = 11 ∨ n = 12 ∨ n = 13 ∨ n = 14 := by omega
      rcases this with rfl | rfl | rfl | rfl | rfl | rfl | rfl | rfl | rfl | rfl | rfl | rfl |
        rfl | rfl
      · exact ⟨.SETUP, rfl⟩
      · exact ⟨.LEASE, rfl⟩
      · exact ⟨.KEEPALIVE, rfl⟩
      · exact ⟨.REQUEST_RESPONSE, rfl⟩
      · exact ⟨.REQUEST_FNF, rfl⟩
      · exact ⟨.REQUEST_STREAM, rfl⟩
      · exact ⟨.REQUEST_CHANNEL, rfl⟩
      · exact ⟨.REQUEST_N, rfl⟩
      · exact ⟨.CANCEL, rfl⟩
      · exact ⟨.PAYLOAD, rfl⟩
      · exact ⟨.ERROR, rfl⟩
      · exact ⟨.METADATA_PUSH, rfl⟩
      · exact ⟨.RESUME, rfl⟩
      · exact ⟨.RESUME_OK, rfl⟩
    · exact ⟨.EXT, rfl⟩

theorem typeNo_inj {t t' : FrameType} (h : typeNo t = typeNo t') : t = t' := by
  cases t <;> cases t' <;> first | rfl | cases h

theorem errorBody (sid : U32) (fl : Flags) (a0 a1 a2 a3 : U8) (r : Bytes) :
    bodyDec .ERROR sid fl (a0 :: a1 :: a2 :: a3 :: r) =
      match ErrorFrame.validateStreamId sid (a0 ++ a1 ++ a2 ++ a3) with
      | some e => .err e r
      | none => .ok (.error ⟨sid, a0 ++ a1 ++ a2 ++ a3, optOf r⟩) [] := by
  show ((do return Frame.error (← ErrorFrame.decode sid fl)) : Dec Bytes Frame) _ = _
  cases h : ErrorFrame.validateStreamId sid (a0 ++ a1 ++ a2 ++ a3) with
  | some e =>
    rw [Dec.bind_err (e := e) (s' := r)]
    rw [ErrorFrame.decode, Dec.bind_ok (eatU32_cons ..), h]
    rfl
  | none =>
    rw [Dec.bind_ok (a := ⟨sid, a0 ++ a1 ++ a2 ++ a3, optOf r⟩) (s' := [])]
    · rfl
    · rw [ErrorFrame.decode, Dec.bind_ok (eatU32_cons ..), h]
      show ((do let data ← eatRest; return _) : Dec Bytes ErrorFrame) r = _
      rw [Dec.bind_ok (eatRest_flat r)]; rfl

theorem errorBody_short (sid : U32) (fl : Flags) {r : Bytes} (h : r.length < 4) :
    bodyDec .ERROR sid fl r = .err .inComplete r := by
  show ((do return Frame.error (← ErrorFrame.decode sid fl)) : Dec Bytes Frame) _ = _
  rw [Dec.bind_err]
  rw [ErrorFrame.decode, Dec.bind_err (eatU32_short h)]

/-- `Frame::decode` on a contiguous buffer. -/
abbrev decode (b : Bytes) : Res Bytes Frame := (Frame.decode : Dec Bytes Frame) b

/-- All outcomes of `decode`, as a disjunction over the header. -/
inductive DecodeCase (b : Bytes) : Prop
  | short (h : b.length < 6) (e : decode b = .err .inComplete b)
  | unknown (h : 6 ≤ b.length) (hk : ¬ KnownType (typeOf b)) (h63 : typeOf b ≠ 63)
      (v : U16) (hv : v.toNat = typeOf b)
      (e : decode b = .err (.unrecognizedFrameType v) (b.drop 6))
  | ext (h : 6 ≤ b.length) (hk : typeOf b = 63)
      (e : decode b = .panic "not implemented")
  | badStream (h : 6 ≤ b.length) (hc : ConnectionType (typeOf b)) (h0 : streamIdOf b ≠ 0)
      (v : U32) (hv : v.toNat = streamIdOf b)
      (e : decode b = .err (.invalidStreamId "0" v) (b.drop 6))
  | incomplete (h : 6 ≤ b.length) (hk : KnownType (typeOf b))
      (hc : ConnectionType (typeOf b) → streamIdOf b = 0) (hn : b.length < need b)
      (s : Bytes) (hs : s <:+ b.drop 6)
      (e : decode b = .err .inComplete s)
  | connCode (h : 6 ≤ b.length) (hk : typeOf b = 11) (hn : need b ≤ b.length)
      (hc : ConnectionCode (codeOf b)) (h0 : streamIdOf b ≠ 0)
      (v : U32) (hv : v.toNat = streamIdOf b)
      (e : decode b = .err (.invalidStreamId "0" v) (b.drop 10))
  | streamCode (h : 6 ≤ b.length) (hk : typeOf b = 11) (hn : need b ≤ b.length)
      (hc : StreamCode (codeOf b)) (h0 : streamIdOf b = 0)
      (e : decode b = .err (.invalidStreamId "> 0" 0#32) (b.drop 10))
  | accepted (h : 6 ≤ b.length) (hk : KnownType (typeOf b))
      (hc : ConnectionType (typeOf b) → streamIdOf b = 0) (hn : need b ≤ b.length)
      (hcode : typeOf b = 11 → (ConnectionCode (codeOf b) → streamIdOf b = 0) ∧
        (StreamCode (codeOf b) → streamIdOf b ≠ 0))
      (f : Frame) (s : Bytes) (hs : s <:+ b.drop 6)
      (e : decode b = .ok f s)

theorem validate_conn {sid c : U32} (hc : ConnectionCode c.toNat) (h0 : sid ≠ 0#32) :
    ErrorFrame.validateStreamId sid c = some (.invalidStreamId "0" sid) := by
  unfold ErrorFrame.validateStreamId
  rw [if_pos (connCodes.2 hc), if_pos h0]

theorem validate_stream {c : U32} (hc : StreamCode c.toNat) :
    ErrorFrame.validateStreamId 0#32 c = some (.invalidStreamId "> 0" 0#32) := by
  have : ¬ ConnectionCode c.toNat := by unfold ConnectionCode; unfold StreamCode at hc; omega
  unfold ErrorFrame.validateStreamId
  rw [if_neg (mt connCodes.1 this), if_pos (streamCodes.2 hc), if_pos rfl]

instance (c : Nat) : Decidable (ConnectionCode c) := by unfold ConnectionCode; infer_instance
instance (c : Nat) : Decidable (StreamCode c) := by unfold StreamCode; infer_instance
instance (c : Nat) : Decidable (ConnectionType c) := by unfold ConnectionType; infer_instance
instance (c : Nat) : Decidable (KnownType c) := by unfold KnownType; infer_instance

theorem decode_cases (b : Bytes) : DecodeCase b := by
  by_cases hl : b.length < 6
  · exact .short hl (decode_short hl)
  have hl' := Nat.not_lt.1 hl
  obtain ⟨a0, a1, a2, a3, a4, a5, r, rfl⟩ := exists_six hl'
  have hd := decode_cons a0 a1 a2 a3 a4 a5 r
  have hty := typeOf_cons a0 a1 a2 a3 a4 a5 r
  have hsid := streamIdOf_cons a0 a1 a2 a3 a4 a5 r
  have hrf := resumeFlag_cons a0 a1 a2 a3 a4 a5 r
  cases ht : FrameType.fromBits (a4 ++ a5) with
  | none =>
    rw [ht] at hd
    have hn := fromBits_none.1 ht
    have hx : ¬ (KnownType ((a4 ++ a5).toNat / 1024) ∨ (a4 ++ a5).toNat / 1024 = 63) := by
      rw [← knownType_iff]; rintro ⟨t, h⟩; exact hn t h
    rw [← hty] at hx
    exact .unknown hl' (fun h => hx (.inl h)) (fun h => hx (.inr h)) _
      (by rw [hty]; exact shr10_toNat _) hd
  | some t =>
    rw [ht] at hd
    have htt := fromBits_iff.1 ht
    rw [htt] at hty
    generalize hs : ((a0 ++ a1 ++ a2 ++ a3) &&& MAX_U31) = sid at hd hsid
    generalize hf : Flags.fromBitsTruncate (a4 ++ a5) = fl at hd hrf
    by_cases hc : (connLevel t && sid != 0#32) = true
    · simp only [hc, if_true] at hd
      simp only [Bool.and_eq_true, bne_iff_ne, ne_eq] at hc
      refine .badStream hl' (by rw [hty]; exact typeNo_connection.1 hc.1)
        (by rw [hsid, Ne, toNat_zero_iff]; exact hc.2) _ hsid.symm hd
    · have h0 : connLevel t = true → sid = 0#32 := by
        intro h1; rw [h1] at hc; simpa using hc
      have h0' : ConnectionType (typeOf (a0 :: a1 :: a2 :: a3 :: a4 :: a5 :: r)) →
          streamIdOf (a0 :: a1 :: a2 :: a3 :: a4 :: a5 :: r) = 0 := by
        rw [hty, hsid, toNat_zero_iff, ← typeNo_connection]; exact h0
      simp only [hc] at hd
      rw [if_neg Bool.false_ne_true] at hd
      by_cases hx : t = .EXT
      · subst hx
        exact .ext hl' hty hd
      have hk : KnownType (typeOf (a0 :: a1 :: a2 :: a3 :: a4 :: a5 :: r)) := by
        rcases knownType_iff.1 ⟨t, hty⟩ with h | h
        · exact h
        · rw [hty] at h; exact absurd (typeNo_inj (t' := .EXT) h) hx
      by_cases he : t = .ERROR
      · subst he
        have hneed : need (a0 :: a1 :: a2 :: a3 :: a4 :: a5 :: r) = 10 := by
          rw [need, hty]; rfl
        by_cases h4 : r.length < 4
        · rw [errorBody_short _ _ h4] at hd
          exact .incomplete hl' hk h0' (by rw [hneed]; simp; omega) r (List.suffix_refl _) hd
        · obtain ⟨c0, c1, c2, c3, s, rfl⟩ := exists_four (Nat.not_lt.1 h4)
          rw [errorBody] at hd
          have hcode : codeOf (a0 :: a1 :: a2 :: a3 :: a4 :: a5 :: c0 :: c1 :: c2 :: c3 :: s) =
              (c0 ++ c1 ++ c2 ++ c3).toNat := by
            simp only [toNat_append8]
            simp only [codeOf, byteAt, List.getD_cons_succ, List.getD_cons_zero]
            omega
          have hnl : need (a0 :: a1 :: a2 :: a3 :: a4 :: a5 :: c0 :: c1 :: c2 :: c3 :: s) ≤
              (a0 :: a1 :: a2 :: a3 :: a4 :: a5 :: c0 :: c1 :: c2 :: c3 :: s).length := by
            rw [hneed]; simp
          by_cases h1 : ConnectionCode (c0 ++ c1 ++ c2 ++ c3).toNat ∧ sid ≠ 0#32
          · rw [validate_conn h1.1 h1.2] at hd
            exact .connCode hl' hty hnl (by rw [hcode]; exact h1.1)
              (by rw [hsid, Ne, toNat_zero_iff]; exact h1.2) _ hsid.symm hd
          by_cases h2 : StreamCode (c0 ++ c1 ++ c2 ++ c3).toNat ∧ sid = 0#32
          · rw [h2.2, validate_stream h2.1] at hd
            exact .streamCode hl' hty hnl (by rw [hcode]; exact h2.1)
              (by rw [hsid, toNat_zero_iff]; exact h2.2) hd
          have hn : ErrorFrame.validateStreamId sid (c0 ++ c1 ++ c2 ++ c3) = none := by
            rw [validate_none_iff]
            refine ⟨fun h => ?_, fun h h' => h2 ⟨h, h'⟩⟩
            by_cases hz : sid = 0#32
            · exact hz
            · exact absurd ⟨h, hz⟩ h1
          rw [hn] at hd
          refine .accepted hl' hk h0' hnl (fun _ => ?_) _ _ List.nil_suffix hd
          rw [hcode, hsid, Ne, toNat_zero_iff]
          exact validate_none_iff.1 hn
      have hb := body_needs (fl := fl) r h0 he hx
      have hneed : need (a0 :: a1 :: a2 :: a3 :: a4 :: a5 :: r) =
          6 + bodyNeed (typeNo t) (fl.bits.toNat.testBit 6) r := by
        rw [need, hty, hrf]; rfl
      unfold NeedsAt at hb
      by_cases hlt : r.length < bodyNeed (typeNo t) (fl.bits.toNat.testBit 6) r
      · rw [if_pos hlt] at hb
        obtain ⟨s, h1, h2⟩ := hb
        rw [h1] at hd
        exact .incomplete hl' hk h0' (by rw [hneed]; simp; omega) s h2 hd
      · rw [if_neg hlt] at hb
        obtain ⟨f, s, h1, h2⟩ := hb
        rw [h1] at hd
        refine .accepted hl' hk h0' (by rw [hneed]; simp; omega) (fun h11 => ?_) f s h2 hd
        rw [hty] at h11
        exact absurd (typeNo_inj (t' := .ERROR) h11) he

end Binate
