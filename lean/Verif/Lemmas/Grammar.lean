import Verif.Lemmas.Decode

/-! # `Frame.decode` accepts exactly the grammar -/

namespace Binate

open Spec

theorem toNat_eq_iff {n : Nat} {a b : BitVec n} : a.toNat = b.toNat ↔ a = b :=
  BitVec.toNat_inj

theorem flags_toNat_eq_iff {a b : Flags} : a.bits.toNat = b.bits.toNat ↔ a = b := by
  rw [BitVec.toNat_inj]
  constructor
  · intro h; cases a; cases b; cases h; rfl
  · rintro rfl; rfl

section
variable {sid : U32} {fl : Flags} {r rest : Bytes}

theorem body_cancel {f : Frame} :
    bodyDec .CANCEL sid fl r = .ok f rest ↔
      ftype f = .CANCEL ∧ Body sid.toNat fl.bits.toNat r f rest := by
  simp only [bodyDec, map_eq_ok]
  simp only [CancelFrame.decode, pure_eq_ok]
  constructor
  · rintro ⟨v, ⟨rfl, rfl⟩, rfl⟩; exact ⟨rfl, .cancel rfl⟩
  · rintro ⟨hf, h⟩
    generalize hz : sid.toNat = z at h
    generalize hw : fl.bits.toNat = w at h
    cases h <;> try (cases hf; done)
    case cancel f hs => exact ⟨f, ⟨by cases f; rw [← hz, toNat_eq_iff] at hs; cases hs; rfl, rfl⟩, rfl⟩

theorem body_requestN {f : Frame} :
    bodyDec .REQUEST_N sid fl r = .ok f rest ↔
      ftype f = .REQUEST_N ∧ Body sid.toNat fl.bits.toNat r f rest := by
  simp only [bodyDec, map_eq_ok]
  simp only [RequestNFrame.decode, pure_eq_ok, Dec.bind_eq_ok, eatU31_iff]
  constructor
  · rintro ⟨v, ⟨n, s, ⟨l, rfl, hn⟩, rfl, rfl⟩, rfl⟩; exact ⟨rfl, .requestN rfl hn⟩
  · rintro ⟨hf, h⟩
    generalize hz : sid.toNat = z at h
    generalize hw : fl.bits.toNat = w at h
    cases h <;> try (cases hf; done)
    case requestN f hn hs =>
      cases f; rw [← hz, toNat_eq_iff] at hs; cases hs
      exact ⟨_, ⟨_, _, ⟨_, rfl, hn⟩, rfl, rfl⟩, rfl⟩

theorem body_requestResponse {f : Frame} :
    bodyDec .REQUEST_RESPONSE sid fl r = .ok f rest ↔
      ftype f = .REQUEST_RESPONSE ∧ Body sid.toNat fl.bits.toNat r f rest := by
  simp only [bodyDec, map_eq_ok]
  simp only [RequestResponseFrame.decode, pure_eq_ok, Dec.bind_eq_ok,
    eatPayload_iff]
  constructor
  · rintro ⟨v, ⟨p, s, ⟨rfl, hp⟩, rfl, rfl⟩, rfl⟩; exact ⟨rfl, .requestResponse rfl rfl hp⟩
  · rintro ⟨hf, h⟩
    generalize hz : sid.toNat = z at h
    generalize hw : fl.bits.toNat = w at h
    cases h <;> try (cases hf; done)
    case requestResponse f hs hfl hp =>
      cases f; rw [← hz, toNat_eq_iff] at hs; cases hs
      rw [← hw, flags_toNat_eq_iff] at hfl; cases hfl
      exact ⟨_, ⟨_, _, ⟨rfl, hp⟩, rfl, rfl⟩, rfl⟩

theorem body_requestFnf {f : Frame} :
    bodyDec .REQUEST_FNF sid fl r = .ok f rest ↔
      ftype f = .REQUEST_FNF ∧ Body sid.toNat fl.bits.toNat r f rest := by
  simp only [bodyDec, map_eq_ok]
  simp only [RequestFnfFrame.decode, pure_eq_ok, Dec.bind_eq_ok,
    eatPayload_iff]
  constructor
  · rintro ⟨v, ⟨p, s, ⟨rfl, hp⟩, rfl, rfl⟩, rfl⟩; exact ⟨rfl, .requestFnf rfl rfl hp⟩
  · rintro ⟨hf, h⟩
    generalize hz : sid.toNat = z at h
    generalize hw : fl.bits.toNat = w at h
    cases h <;> try (cases hf; done)
    case requestFnf f hs hfl hp =>
      cases f; rw [← hz, toNat_eq_iff] at hs; cases hs
      rw [← hw, flags_toNat_eq_iff] at hfl; cases hfl
      exact ⟨_, ⟨_, _, ⟨rfl, hp⟩, rfl, rfl⟩, rfl⟩

theorem body_payload {f : Frame} :
    bodyDec .PAYLOAD sid fl r = .ok f rest ↔
      ftype f = .PAYLOAD ∧ Body sid.toNat fl.bits.toNat r f rest := by
  simp only [bodyDec, map_eq_ok]
  simp only [PayloadFrame.decode, pure_eq_ok, Dec.bind_eq_ok,
    eatPayload_iff]
  constructor
  · rintro ⟨v, ⟨p, s, ⟨rfl, hp⟩, rfl, rfl⟩, rfl⟩; exact ⟨rfl, .payload rfl rfl hp⟩
  · rintro ⟨hf, h⟩
    generalize hz : sid.toNat = z at h
    generalize hw : fl.bits.toNat = w at h
    cases h <;> try (cases hf; done)
    case payload f hs hfl hp =>
      cases f; rw [← hz, toNat_eq_iff] at hs; cases hs
      rw [← hw, flags_toNat_eq_iff] at hfl; cases hfl
      exact ⟨_, ⟨_, _, ⟨rfl, hp⟩, rfl, rfl⟩, rfl⟩

theorem body_requestStream {f : Frame} :
    bodyDec .REQUEST_STREAM sid fl r = .ok f rest ↔
      ftype f = .REQUEST_STREAM ∧ Body sid.toNat fl.bits.toNat r f rest := by
  simp only [bodyDec, map_eq_ok]
  simp only [RequestStreamFrame.decode, pure_eq_ok, Dec.bind_eq_ok,
    eatPayload_iff, eatU31_iff]
  constructor
  · rintro ⟨v, ⟨n, s, ⟨l, rfl, hn⟩, p, s', ⟨rfl, hp⟩, rfl, rfl⟩, rfl⟩
    exact ⟨rfl, .requestStream rfl rfl hn hp⟩
  · rintro ⟨hf, h⟩
    generalize hz : sid.toNat = z at h
    generalize hw : fl.bits.toNat = w at h
    cases h <;> try (cases hf; done)
    case requestStream f hn hp hs hfl =>
      cases f; rw [← hz, toNat_eq_iff] at hs; cases hs
      rw [← hw, flags_toNat_eq_iff] at hfl; cases hfl
      exact ⟨_, ⟨_, _, ⟨_, rfl, hn⟩, _, _, ⟨rfl, hp⟩, rfl, rfl⟩, rfl⟩

theorem body_requestChannel {f : Frame} :
    bodyDec .REQUEST_CHANNEL sid fl r = .ok f rest ↔
      ftype f = .REQUEST_CHANNEL ∧ Body sid.toNat fl.bits.toNat r f rest := by
  simp only [bodyDec, map_eq_ok]
  simp only [RequestChannelFrame.decode, pure_eq_ok, Dec.bind_eq_ok,
    eatPayload_iff, eatU31_iff]
  constructor
  · rintro ⟨v, ⟨n, s, ⟨l, rfl, hn⟩, p, s', ⟨rfl, hp⟩, rfl, rfl⟩, rfl⟩
    exact ⟨rfl, .requestChannel rfl rfl hn hp⟩
  · rintro ⟨hf, h⟩
    generalize hz : sid.toNat = z at h
    generalize hw : fl.bits.toNat = w at h
    cases h <;> try (cases hf; done)
    case requestChannel f hn hp hs hfl =>
      cases f; rw [← hz, toNat_eq_iff] at hs; cases hs
      rw [← hw, flags_toNat_eq_iff] at hfl; cases hfl
      exact ⟨_, ⟨_, _, ⟨_, rfl, hn⟩, _, _, ⟨rfl, hp⟩, rfl, rfl⟩, rfl⟩

theorem errorDecode_eq_ok {v : ErrorFrame} {s s' : Bytes} :
    (ErrorFrame.decode sid fl : Dec Bytes ErrorFrame) s = .ok v s' ↔
      ∃ c s₁, (eatU32 : Dec Bytes U32) s = .ok c s₁ ∧ ErrorFrame.validateStreamId sid c = none ∧
        ∃ o, (eatRest : Dec Bytes (Option Bytes)) s₁ = .ok o s' ∧ v = ⟨sid, c, o⟩ := by
  rw [ErrorFrame.decode, Dec.bind_eq_ok]
  constructor
  · rintro ⟨c, s₁, hc, h⟩
    refine ⟨c, s₁, hc, ?_⟩
    cases hv : ErrorFrame.validateStreamId sid c with
    | some e => rw [hv] at h; cases h
    | none =>
      rw [hv] at h
      obtain ⟨o, s₂, ho, h⟩ := Dec.bind_eq_ok.1 h
      cases h
      exact ⟨rfl, o, ho, rfl⟩
  · rintro ⟨c, s₁, hc, hv, o, ho, rfl⟩
    refine ⟨c, s₁, hc, ?_⟩
    rw [hv]
    exact Dec.bind_eq_ok.2 ⟨o, s', ho, rfl⟩

theorem toNat_zero_iff {n : Nat} {a : BitVec n} : a.toNat = 0 ↔ a = 0#n := by
  rw [← BitVec.toNat_inj]; simp

theorem body_error {f : Frame} :
    bodyDec .ERROR sid fl r = .ok f rest ↔
      ftype f = .ERROR ∧ Body sid.toNat fl.bits.toNat r f rest := by
  simp only [bodyDec, map_eq_ok, errorDecode_eq_ok, eatU32_iff, eatRest_iff, validate_none_iff]
  constructor
  · rintro ⟨v, ⟨c, s, ⟨l, rfl, hn⟩, ⟨h1, h2⟩, o, ⟨rfl, ho⟩, rfl⟩, rfl⟩
    refine ⟨rfl, .error rfl hn ?_ ?_ ho⟩
    · intro h; rw [toNat_zero_iff]; exact h1 h
    · intro h; rw [Ne, toNat_zero_iff]; exact h2 h
  · rintro ⟨hf, h⟩
    generalize hz : sid.toNat = z at h
    generalize hw : fl.bits.toNat = w at h
    cases h <;> try (cases hf; done)
    case error f hn ho hs h1 h2 =>
      cases f; rw [← hz, toNat_eq_iff] at hs; cases hs
      refine ⟨_, ⟨_, _, ⟨_, rfl, hn⟩, ⟨?_, ?_⟩, _, ⟨rfl, ho⟩, rfl⟩, rfl⟩
      · intro h; rw [← toNat_zero_iff, hz]; exact h1 h
      · intro h; rw [Ne, ← toNat_zero_iff, hz]; exact h2 h

theorem body_lease {f : Frame} (h0 : sid = 0#32) :
    bodyDec .LEASE sid fl r = .ok f rest ↔
      ftype f = .LEASE ∧ Body sid.toNat fl.bits.toNat r f rest := by
  subst h0
  simp only [bodyDec, map_eq_ok]
  simp only [LeaseFrame.decode, pure_eq_ok, Dec.bind_eq_ok, ne_eq,
    not_true_eq_false, if_false, eatRest_iff, eatU31_iff]
  constructor
  · rintro ⟨v, ⟨a, s, ⟨l, rfl, ha⟩, b, s', ⟨l', rfl, hb⟩, o, s'', ⟨rfl, ho⟩, rfl, rfl⟩, rfl⟩
    refine ⟨rfl, ?_⟩
    rw [← List.append_assoc]
    exact .lease ha hb ho
  · rintro ⟨hf, h⟩
    generalize hz : (0#32).toNat = z at h
    generalize hw : fl.bits.toNat = w at h
    cases h <;> try (cases hf; done)
    case lease f ha hb ho =>
      exact ⟨_, ⟨_, _, ⟨_, by rw [List.append_assoc], ha⟩, _, _, ⟨_, rfl, hb⟩, _, _, ⟨rfl, ho⟩,
        rfl, rfl⟩, rfl⟩

theorem body_keepalive {f : Frame} (h0 : sid = 0#32) :
    bodyDec .KEEPALIVE sid fl r = .ok f rest ↔
      ftype f = .KEEPALIVE ∧ Body sid.toNat fl.bits.toNat r f rest := by
  subst h0
  simp only [bodyDec, map_eq_ok]
  simp only [KeepaliveFrame.decode, pure_eq_ok, Dec.bind_eq_ok, ne_eq,
    not_true_eq_false, if_false, eatRest_iff, eatU63_iff,
    show Flags.RESPOND = Flags.RESUME from rfl, flags_contains_six fl _ rfl]
  constructor
  · rintro ⟨v, ⟨a, s, ⟨l, rfl, ha⟩, o, s'', ⟨rfl, ho⟩, rfl, rfl⟩, rfl⟩
    exact ⟨rfl, .keepalive rfl ha ho⟩
  · rintro ⟨hf, h⟩
    generalize hz : (0#32).toNat = z at h
    generalize hw : fl.bits.toNat = w at h
    cases h <;> try (cases hf; done)
    case keepalive f ha ho hr =>
      cases f; subst hw; cases hr
      exact ⟨_, ⟨_, _, ⟨_, rfl, ha⟩, _, _, ⟨rfl, ho⟩, rfl, rfl⟩, rfl⟩

theorem body_metadataPush {f : Frame} (h0 : sid = 0#32) :
    bodyDec .METADATA_PUSH sid fl r = .ok f rest ↔
      ftype f = .METADATA_PUSH ∧ Body sid.toNat fl.bits.toNat r f rest := by
  subst h0
  have hd : (MetadataPushFrame.decode 0#32 fl : Dec Bytes _) r = .ok ⟨r⟩ [] := by
    rw [MetadataPushFrame.decode,
      Dec.bind_ok (show (remainingD : Dec Bytes Nat) r = .ok r.length r from rfl),
      Dec.bind_ok (eatBytes_ok (Nat.le_refl _))]
    simp
  simp only [bodyDec, map_eq_ok, hd]
  constructor
  · rintro ⟨v, h, rfl⟩
    cases h
    exact ⟨rfl, .metadataPush rfl⟩
  · rintro ⟨hf, h⟩
    generalize hz : (0#32).toNat = z at h
    generalize hw : fl.bits.toNat = w at h
    cases h <;> try (cases hf; done)
    case metadataPush f hm =>
      cases hm; exact ⟨f, rfl, rfl⟩

theorem body_resumeOk {f : Frame} (h0 : sid = 0#32) :
    bodyDec .RESUME_OK sid fl r = .ok f rest ↔
      ftype f = .RESUME_OK ∧ Body sid.toNat fl.bits.toNat r f rest := by
  subst h0
  simp only [bodyDec, map_eq_ok]
  simp only [ResumeOkFrame.decode, pure_eq_ok, Dec.bind_eq_ok, eatU63_iff]
  constructor
  · rintro ⟨v, ⟨a, s, ⟨l, rfl, ha⟩, rfl, rfl⟩, rfl⟩
    exact ⟨rfl, .resumeOk ha⟩
  · rintro ⟨hf, h⟩
    generalize hz : (0#32).toNat = z at h
    generalize hw : fl.bits.toNat = w at h
    cases h <;> try (cases hf; done)
    case resumeOk f ha =>
      exact ⟨_, ⟨_, _, ⟨_, rfl, ha⟩, rfl, rfl⟩, rfl⟩

theorem body_resume {f : Frame} (h0 : sid = 0#32) :
    bodyDec .RESUME sid fl r = .ok f rest ↔
      ftype f = .RESUME ∧ Body sid.toNat fl.bits.toNat r f rest := by
  subst h0
  simp only [bodyDec, map_eq_ok]
  simp only [ResumeFrame.decode, pure_eq_ok, Dec.bind_eq_ok, eatU63_iff,
    eatVersion_iff, eatU16_iff, eatBytes_iff]
  constructor
  · rintro ⟨v, ⟨a, s, ⟨l, rfl, ha⟩, n, _, ⟨l2, rfl, hn⟩, t, _, ⟨rfl, ht⟩, p, _, ⟨l3, rfl, hp⟩,
      q, s', ⟨l4, rfl, hq⟩, rfl, rfl⟩, rfl⟩
    obtain ⟨k, hk, hk'⟩ := prefixed2_iff.1 ⟨n, l2, rfl, hn, ht⟩
    refine ⟨rfl, ?_⟩
    rw [hk]
    simp only [← List.append_assoc]
    exact .resume ha hk' hp hq
  · rintro ⟨hf, h⟩
    generalize hz : (0#32).toNat = z at h
    generalize hw : fl.bits.toNat = w at h
    cases h <;> try (cases hf; done)
    case resume f hv hk hp hq =>
      obtain ⟨n, l2, h2, hn, ht⟩ := prefixed2_iff.2 ⟨_, rfl, hk⟩
      refine ⟨_, ⟨_, _, ⟨_, ?_, hv⟩, n, _, ⟨l2, h2, hn⟩, _, _, ⟨rfl, ht⟩, _, _, ⟨_, ?_, hp⟩, _, _,
        ⟨_, rfl, hq⟩, rfl, rfl⟩, rfl⟩
      · simp only [List.append_assoc]; rfl
      · rfl

theorem Spec.Prefixed.length {k : Nat} {x b : Bytes} (h : Prefixed k x b) : b.length = k + x.length := by
  obtain ⟨l, rfl, hl, -⟩ := h
  simp [hl]

theorem Spec.Pay.length {p : Payload} {b : Bytes} (h : Pay p b) : 3 ≤ b.length := by
  obtain ⟨m, d, mb, rfl, hm, -, -⟩ := h
  have := hm.length
  simp; omega

theorem ne_nil_of_length {b : Bytes} {n : Nat} (h : n + 1 ≤ b.length) : b ≠ [] := by
  rintro rfl; simp at h

theorem body_setup {f : Frame} (h0 : sid = 0#32) :
    bodyDec .SETUP sid fl r = .ok f rest ↔
      ftype f = .SETUP ∧ Body sid.toNat fl.bits.toNat r f rest := by
  subst h0
  simp only [bodyDec, map_eq_ok]
  simp only [SetupFrame.decode, pure_eq_ok, Dec.bind_eq_ok, eatU31_iff,
    eatVersion_iff, eatU8_iff, eatBytes_iff, eatResumeToken_iff, eatPayload_iff]
  constructor
  · rintro ⟨v, ⟨ver, _, ⟨vb, rfl, hv⟩, ki, _, ⟨ib, rfl, hi⟩, kt, _, ⟨tb, rfl, ht⟩, tok, _,
      ⟨kb, rfl, hk⟩, n, _, ⟨rfl, -⟩, mm, _, ⟨rfl, hm⟩, n', _, ⟨rfl, -⟩, dm, _, ⟨rfl, hd⟩,
      p, s', ⟨rfl, hp⟩, rfl, rfl⟩, rfl⟩
    obtain ⟨mb, e1, hm'⟩ := prefixed1_iff.1 ⟨n, rfl, hm⟩
    obtain ⟨db, e2, hd'⟩ := prefixed1_iff.1 ⟨n', rfl, hd⟩
    refine ⟨rfl, ?_⟩
    rw [e1, e2]
    simp only [← List.append_assoc]
    exact .setup rfl hv hi ht hk hm' hd' hp
  · rintro ⟨hf, h⟩
    generalize hz : (0#32).toNat = z at h
    generalize hw : fl.bits.toNat = w at h
    cases h <;> try (cases hf; done)
    case setup vb ib tb kb mb db pb f hv hi ht hm hd hp hfl hk =>
      subst hw
      obtain ⟨n', e2, hd'⟩ := prefixed1_iff (s' := pb).2 ⟨db, rfl, hd⟩
      obtain ⟨n, e1, hm'⟩ := prefixed1_iff (s' := db ++ pb).2 ⟨mb, rfl, hm⟩
      cases f; rw [flags_toNat_eq_iff] at hfl; cases hfl
      refine ⟨_, ⟨_, _, ⟨vb, ?_, hv⟩, _, _, ⟨ib, rfl, hi⟩, _, _, ⟨tb, rfl, ht⟩, _, _,
        ⟨kb, rfl, hk⟩, n, _, ⟨e1, ?_⟩, _, _, ⟨rfl, hm'⟩, n', _, ⟨e2, ?_⟩, _, _, ⟨rfl, hd'⟩,
        _, _, ⟨rfl, hp⟩, rfl, rfl⟩, rfl⟩
      · simp only [List.append_assoc]
      · apply ne_nil_of_length (n := 0)
        simp
        have := hd.length; omega
      · apply ne_nil_of_length (n := 0)
        have := hp.length
        simp; omega

theorem body_iff {t : FrameType} {f : Frame} (h0 : connLevel t = true → sid = 0#32) :
    bodyDec t sid fl r = .ok f rest ↔
      ftype f = t ∧ Body sid.toNat fl.bits.toNat r f rest := by
  cases t
  · exact body_setup (h0 rfl)
  · exact body_lease (h0 rfl)
  · exact body_keepalive (h0 rfl)
  · exact body_requestResponse
  · exact body_requestFnf
  · exact body_requestStream
  · exact body_requestChannel
  · exact body_requestN
  · exact body_cancel
  · exact body_payload
  · exact body_error
  · exact body_metadataPush (h0 rfl)
  · exact body_resume (h0 rfl)
  · exact body_resumeOk (h0 rfl)
  · constructor
    · intro h; cases h
    · rintro ⟨hf, -⟩; cases f <;> cases hf

end

theorem body_conn {sid fl : Nat} {r rest : Bytes} {f : Frame} (h : Body sid fl r f rest)
    (hc : connLevel (ftype f) = true) : sid = 0 := by
  cases h <;> first | rfl | cases hc

/-- `decode` accepts exactly the grammar. -/
theorem decode_iff {b rest : Bytes} {f : Frame} :
    (Frame.decode : Dec Bytes Frame) b = .ok f rest ↔ Parses b f rest := by
  by_cases hl : b.length < 6
  · rw [decode_short hl]
    constructor
    · intro h; cases h
    · rintro ⟨h, body, sid, fl, rfl, ⟨s, w, rfl, hs, hw, -⟩, -⟩
      simp at hl; omega
  obtain ⟨a0, a1, a2, a3, a4, a5, r, rfl⟩ := exists_six (Nat.not_lt.1 hl)
  rw [decode_cons]
  have hsid : ((a0 ++ a1 ++ a2 ++ a3) &&& MAX_U31).toNat = beVal [a0, a1, a2, a3] % 2 ^ 31 := by
    rw [beVal_four, and_max31]
  have hfl : (Flags.fromBitsTruncate (a4 ++ a5)).bits.toNat = beVal [a4, a5] / 16 % 32 * 16 := by
    rw [beVal_two, fromBitsTruncate_toNat]
  constructor
  · intro h
    cases ht : FrameType.fromBits (a4 ++ a5) with
    | none => rw [ht] at h; cases h
    | some t =>
      rw [ht] at h
      by_cases hc : (connLevel t && ((a0 ++ a1 ++ a2 ++ a3) &&& MAX_U31) != 0#32) = true
      · simp only [hc, if_true] at h; cases h
      · simp only [hc] at h
        have h0 : connLevel t = true → ((a0 ++ a1 ++ a2 ++ a3) &&& MAX_U31) = 0#32 := by
          intro h1; rw [h1] at hc; simpa using hc
        rw [if_neg Bool.false_ne_true] at h
        rw [body_iff h0] at h
        obtain ⟨hf, hb⟩ := h
        refine ⟨[a0, a1, a2, a3, a4, a5], r, _, _, rfl, ?_, hb⟩
        refine ⟨[a0, a1, a2, a3], [a4, a5], rfl, rfl, rfl, hsid, ?_, hfl⟩
        rw [← typeNo_ftype, hf, beVal_two, fromBits_iff.1 ht]
  · rintro ⟨h, body, sid, fl, e, ⟨s, w, rfl, hs, hw, h1, h2, h3⟩, hb⟩
    match s, hs, w, hw with
    | [b0, b1, b2, b3], _, [b4, b5], _ =>
      injection e with e0 e; injection e with e1 e; injection e with e2 e
      injection e with e3 e; injection e with e4 e; injection e with e5 e
      subst e0 e1 e2 e3 e4 e5
      simp only [List.append_eq, List.nil_append] at e
      subst e
      rw [← hsid] at h1; rw [← hfl] at h3
      subst h1 h3
      have ht : FrameType.fromBits (a4 ++ a5) = some (ftype f) := by
        rw [fromBits_iff, typeNo_ftype, h2, beVal_two]
      have h0 : connLevel (ftype f) = true → ((a0 ++ a1 ++ a2 ++ a3) &&& MAX_U31) = 0#32 := by
        intro hc; rw [← toNat_zero_iff]; exact body_conn hb hc
      rw [ht]
      have hc : (connLevel (ftype f) && ((a0 ++ a1 ++ a2 ++ a3) &&& MAX_U31) != 0#32) = false := by
        cases hcl : connLevel (ftype f)
        · rfl
        · simp [h0 hcl]
      simp only [hc]
      exact (body_iff h0).2 ⟨rfl, hb⟩

end Binate
