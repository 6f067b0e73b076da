import Verif.Lemmas.Layout

/-! # The layout of a well-formed frame parses as that frame -/

namespace Binate

open Spec

theorem num_be {k bits v : Nat} (h1 : v < 2 ^ bits) (h2 : v < 256 ^ k) :
    Num k bits v (be k v) := by
  refine ⟨be_length k v, ?_⟩
  rw [beVal_be, Nat.mod_eq_of_lt h2, Nat.mod_eq_of_lt h1]

theorem opt_norm (o : Option Bytes) : Opt (normOpt o) (optBytes o) := by
  unfold Opt
  cases o with
  | none => exact .inl ⟨rfl, rfl⟩
  | some b => cases b with
    | nil => exact .inl ⟨rfl, rfl⟩
    | cons x xs => exact .inr ⟨by simp [optBytes], rfl⟩

theorem prefixed_be {k : Nat} {x : Bytes} (h : x.length < 256 ^ k) :
    Prefixed k x (be k x.length ++ x) :=
  ⟨_, rfl, be_length _ _, by rw [beVal_be, Nat.mod_eq_of_lt h]⟩

theorem pay_norm {p : Payload} (h : (optBytes p.metadata).length < 2 ^ 24) :
    Pay (normPayload p) (payloadBytes p) :=
  ⟨_, _, _, rfl, prefixed_be h, opt_norm _, opt_norm _⟩

theorem ver_be (v : Version) : Ver v (be 2 v.major.toNat ++ be 2 v.minor.toNat) :=
  ⟨_, _, rfl, num_be v.major.isLt v.major.isLt, num_be v.minor.isLt v.minor.isLt⟩

theorem header_ok {sid ty fl : Nat} (h1 : sid < 2 ^ 31) (h2 : ty < 64) (h3 : fl % 16 = 0)
    (h4 : fl < 512) : Header (header sid ty fl) sid ty fl := by
  refine ⟨_, _, rfl, be_length _ _, be_length _ _, ?_, ?_, ?_⟩ <;> rw [beVal_be] <;> omega

theorem flagsValue_ok (i m f c n : Bool) :
    flagsValue 16 i m f c n % 16 = 0 ∧ flagsValue 16 i m f c n < 512 := by
  cases i <;> cases m <;> cases f <;> cases c <;> cases n <;> decide

theorem flagsOf_ok {fl : Flags} (_ : FlagsOk fl) :
    flagsOf 16 fl % 16 = 0 ∧ flagsOf 16 fl < 512 := flagsValue_ok ..

theorem layout_parses {f : Frame} (h : WellFormed f) : Parses (layout 16 f) (normalize f) [] := by
  cases f with
  | setup v =>
    obtain ⟨hfl, hi, ht, hk, hk', hm, hd, hp⟩ := h
    refine ⟨header 0 1 (flagsOf 16 v.flags), _, 0, flagsOf 16 v.flags, ?_,
      header_ok (by decide) (by decide) (flagsOf_ok hfl).1 (flagsOf_ok hfl).2,
      .setup (flagsOf_16 hfl).symm (ver_be _) (num_be hi v.keepaliveInterval.isLt)
        (num_be ht v.keepaliveTimeout.isLt)
        (kb := match v.resumeToken with
          | some t => be 2 t.length ++ t
          | none => []) ?_
        (prefixed_be hm) (prefixed_be hd) (pay_norm hp)⟩
    · simp only [layout, List.append_assoc]; rfl
    · rw [flagsOf_16 hfl]
      unfold Token
      cases hr : v.resumeToken with
      | none => rw [hr] at hk; rw [← hk]; exact ⟨rfl, rfl⟩
      | some t => rw [hr] at hk; rw [← hk]; exact ⟨t, rfl, prefixed_be (hk' t hr)⟩
  | error v =>
    obtain ⟨hs, h1, h2⟩ := h
    refine ⟨header v.streamId.toNat 11 0, _, _, _, ?_,
      header_ok hs (by decide) (by decide) (by decide),
      .error rfl (num_be v.code.isLt v.code.isLt) h1 h2 (opt_norm _)⟩
    simp only [layout, List.append_assoc]
  | lease v =>
    obtain ⟨h1, h2⟩ := h
    refine ⟨header 0 2 (flagsValue 16 false v.metadata.isSome false false false), _, _, _, ?_,
      header_ok (by decide) (by decide) (flagsValue_ok ..).1 (flagsValue_ok ..).2,
      .lease (num_be h1 v.ttl.isLt) (num_be h2 v.numberOfRequests.isLt) (opt_norm _)⟩
    simp only [layout, List.append_assoc]
  | keepalive v =>
    refine ⟨header 0 3 (flagsValue 16 false false v.respond false false), _, _, _, ?_,
      header_ok (by decide) (by decide) (flagsValue_ok ..).1 (flagsValue_ok ..).2,
      .keepalive ?_ (num_be h v.lastReceivedPosition.isLt) (opt_norm _)⟩
    · simp only [layout, List.append_assoc]
    · show v.respond = _
      cases v.respond <;> decide
  | requestResponse v =>
    obtain ⟨h1, h2, h3⟩ := h
    exact ⟨_, _, _, _, rfl,
      header_ok h1 (by decide) (flagsOf_ok h2).1 (flagsOf_ok h2).2,
      .requestResponse rfl (flagsOf_16 h2).symm (pay_norm h3)⟩
  | requestFnf v =>
    obtain ⟨h1, h2, h3⟩ := h
    exact ⟨_, _, _, _, rfl,
      header_ok h1 (by decide) (flagsOf_ok h2).1 (flagsOf_ok h2).2,
      .requestFnf rfl (flagsOf_16 h2).symm (pay_norm h3)⟩
  | requestStream v =>
    obtain ⟨h1, h2, h4, h3⟩ := h
    refine ⟨header v.streamId.toNat 6 (flagsOf 16 v.flags), _, _, _, ?_,
      header_ok h1 (by decide) (flagsOf_ok h2).1 (flagsOf_ok h2).2,
      .requestStream rfl (flagsOf_16 h2).symm (num_be h4 v.initialRequestN.isLt) (pay_norm h3)⟩
    simp only [layout, List.append_assoc]
  | requestChannel v =>
    obtain ⟨h1, h2, h4, h3⟩ := h
    refine ⟨header v.streamId.toNat 7 (flagsOf 16 v.flags), _, _, _, ?_,
      header_ok h1 (by decide) (flagsOf_ok h2).1 (flagsOf_ok h2).2,
      .requestChannel rfl (flagsOf_16 h2).symm (num_be h4 v.initialRequestN.isLt) (pay_norm h3)⟩
    simp only [layout, List.append_assoc]
  | requestN v =>
    obtain ⟨h1, h2⟩ := h
    refine ⟨header v.streamId.toNat 8 0, be 4 v.requestN.toNat ++ [], _, _, ?_,
      header_ok h1 (by decide) (by decide) (by decide),
      .requestN rfl (num_be h2 v.requestN.isLt)⟩
    simp only [layout, List.append_nil]
  | cancel v =>
    refine ⟨header v.streamId.toNat 9 0, [], _, _, ?_,
      header_ok h (by decide) (by decide) (by decide), .cancel rfl⟩
    simp only [layout, List.append_nil]
  | payload v =>
    obtain ⟨h1, h2, h3⟩ := h
    exact ⟨_, _, _, _, rfl,
      header_ok h1 (by decide) (flagsOf_ok h2).1 (flagsOf_ok h2).2,
      .payload rfl (flagsOf_16 h2).symm (pay_norm h3)⟩
  | metadataPush v =>
    exact ⟨_, _, _, _, rfl,
      header_ok (by decide) (by decide) (flagsValue_ok ..).1 (flagsValue_ok ..).2,
      .metadataPush rfl⟩
  | resume v =>
    obtain ⟨h1, h2, h3⟩ := h
    refine ⟨header 0 13 0, _, 0, 0, ?_, header_ok (by decide) (by decide) (by decide) (by decide),
      .resume (rest := []) (ver_be _) (prefixed_be h1)
        (num_be h2 v.lastReceivedServerPosition.isLt)
        (num_be h3 v.firstAvailableClientPosition.isLt)⟩
    simp only [layout, List.append_assoc, List.append_nil]
  | resumeOk v =>
    refine ⟨header 0 14 0, _, 0, 0, ?_, header_ok (by decide) (by decide) (by decide) (by decide),
      .resumeOk (rest := []) (num_be h v.lastReceivedClientPosition.isLt)⟩
    simp only [layout, List.append_nil]

theorem wellFormed_flags {f : Frame} (h : WellFormed f) : FrameFlagsOk f := by
  intro fl hfl
  cases f <;> simp only [flagsField, Option.some.injEq, reduceCtorEq] at hfl <;> subst hfl
  · exact h.1
  · exact h.2.1
  · exact h.2.1
  · exact h.2.1
  · exact h.2.1
  · exact h.2.1

theorem wellFormed_meta {f : Frame} (h : WellFormed f) : metaLen f < 2 ^ 24 := by
  cases f <;> first
    | exact Nat.two_pow_pos 24
    | exact h.2.2.2.2.2.2.2
    | exact h.2.2.2
    | exact h.2.2

theorem encode_wellFormed {f : Frame} (h : WellFormed f) (buf : Bytes) :
    f.encode buf = .ok (buf ++ layout 16 f) :=
  encode_layout (wellFormed_flags h) (wellFormed_meta h) buf

theorem toBytes_wellFormed {f : Frame} (h : WellFormed f) : f.toBytes = .ok (layout 16 f) := by
  rw [Frame.toBytes, encode_wellFormed h]; rfl

theorem decode_layout {f : Frame} (h : WellFormed f) :
    (Frame.decode : Dec Bytes Frame) (layout 16 f) = .ok (normalize f) [] :=
  decode_iff.2 (layout_parses h)

theorem normOpt_eq {o : Option Bytes} (h : some [] ≠ o) : normOpt o = o := by
  unfold normOpt
  split
  · exact absurd rfl h
  · rfl

theorem normalize_noEmpty {f : Frame} (h : NoEmpty f) : normalize f = f := by
  cases f <;> simp only [NoEmpty, optFields, List.mem_cons, List.not_mem_nil, or_false, not_or] at h
    <;> first
      | rfl
      | simp only [normalize, normPayload, normOpt_eq h.1, normOpt_eq h.2]
      | simp only [normalize, normOpt_eq h]

end Binate
