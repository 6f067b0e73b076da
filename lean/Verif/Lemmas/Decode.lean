import Verif.Lemmas.Wire

/-! # `Frame.decode` on a contiguous buffer: header, then body -/

namespace Binate

open Spec

/-- Frame types restricted to stream 0 (frame/mod.rs:113-120). -/
def connLevel : FrameType → Bool
  | .SETUP | .LEASE | .KEEPALIVE | .METADATA_PUSH | .RESUME | .RESUME_OK => true
  | _ => false

/-- The second half of `Frame.decode`. -/
def bodyDec (frameType : FrameType) (streamId : U32) (flags : Flags) : Dec Bytes Frame :=
  match frameType with
  | .SETUP => do return Frame.setup (← SetupFrame.decode streamId flags)
  | .ERROR => do return Frame.error (← ErrorFrame.decode streamId flags)
  | .LEASE => do return Frame.lease (← LeaseFrame.decode streamId flags)
  | .KEEPALIVE => do return Frame.keepalive (← KeepaliveFrame.decode streamId flags)
  | .REQUEST_RESPONSE => do
    return Frame.requestResponse (← RequestResponseFrame.decode streamId flags)
  | .REQUEST_FNF => do return Frame.requestFnf (← RequestFnfFrame.decode streamId flags)
  | .REQUEST_STREAM => do
    return Frame.requestStream (← RequestStreamFrame.decode streamId flags)
  | .REQUEST_CHANNEL => do
    return Frame.requestChannel (← RequestChannelFrame.decode streamId flags)
  | .REQUEST_N => do return Frame.requestN (← RequestNFrame.decode streamId flags)
  | .CANCEL => do return Frame.cancel (← CancelFrame.decode streamId flags)
  | .PAYLOAD => do return Frame.payload (← PayloadFrame.decode streamId flags)
  | .METADATA_PUSH => do return Frame.metadataPush (← MetadataPushFrame.decode streamId flags)
  | .RESUME => do return Frame.resume (← ResumeFrame.decode streamId flags)
  | .RESUME_OK => do return Frame.resumeOk (← ResumeOkFrame.decode streamId flags)
  | .EXT => Dec.panic "not implemented"

theorem decode_short {b : Bytes} (h : b.length < 6) :
    (Frame.decode : Dec Bytes Frame) b = .err .inComplete b := by
  rw [Frame.decode, Dec.bind_ok (show (remainingD : Dec Bytes Nat) b = .ok b.length b from rfl),
    if_pos h]; rfl

theorem decode_cons (a0 a1 a2 a3 a4 a5 : U8) (r : Bytes) :
    (Frame.decode : Dec Bytes Frame) (a0 :: a1 :: a2 :: a3 :: a4 :: a5 :: r) =
      match FrameType.fromBits (a4 ++ a5) with
      | none => .err (.unrecognizedFrameType ((a4 ++ a5) >>> 10)) r
      | some t =>
        if connLevel t && ((a0 ++ a1 ++ a2 ++ a3) &&& MAX_U31) != 0#32 then
          .err (.invalidStreamId "0" ((a0 ++ a1 ++ a2 ++ a3) &&& MAX_U31)) r
        else bodyDec t ((a0 ++ a1 ++ a2 ++ a3) &&& MAX_U31) (Flags.fromBitsTruncate (a4 ++ a5)) r
    := by
  rw [Frame.decode, Dec.bind_ok (show (remainingD : Dec Bytes Nat) _ = .ok _ _ from rfl),
    if_neg (by simp [flat_remaining]), Dec.bind_ok (eatStreamId_cons ..)]
  have h := eatFlags_cons a4 a5 r
  cases ht : FrameType.fromBits (a4 ++ a5) with
  | none => rw [ht] at h; rw [Dec.bind_err h]
  | some t =>
    rw [ht] at h
    rw [Dec.bind_ok h]
    generalize (a0 ++ a1 ++ a2 ++ a3) &&& MAX_U31 = sid
    show (if (connLevel t && sid != 0#32) = true then Dec.fail _ else bodyDec t sid _ : Dec _ _) r
      = if (connLevel t && sid != 0#32) = true then _ else _
    split <;> rfl

theorem exists_six {s : Bytes} (h : 6 ≤ s.length) :
    ∃ a b c d e f r, s = a :: b :: c :: d :: e :: f :: r := by
  match s, h with
  | a :: b :: c :: d :: e :: f :: r, _ => exact ⟨a, b, c, d, e, f, r, rfl⟩

/-! ## Bodies -/

theorem map_eq_ok {α γ : Type} {d : Dec Bytes α} {g : α → γ} {s s' : Bytes} {c : γ} :
    ((do return g (← d)) : Dec Bytes γ) s = .ok c s' ↔ ∃ a, d s = .ok a s' ∧ g a = c := by
  rw [Dec.bind_eq_ok]
  constructor
  · rintro ⟨a, s1, h, h'⟩
    cases h'; exact ⟨a, h, rfl⟩
  · rintro ⟨a, h, rfl⟩; exact ⟨a, s', h, rfl⟩

theorem pure_eq_ok {α : Type} {a c : α} {s s' : Bytes} :
    (pure a : Dec Bytes α) s = .ok c s' ↔ a = c ∧ s = s' := by
  rw [Dec.pure_apply]
  constructor
  · intro h; cases h; exact ⟨rfl, rfl⟩
  · rintro ⟨rfl, rfl⟩; rfl

theorem prefixed1_iff {s s' x : Bytes} :
    (∃ (n : U8), s = n :: (x ++ s') ∧ x.length = n.toNat) ↔
      ∃ l, s = l ++ s' ∧ Prefixed 1 x l := by
  constructor
  · rintro ⟨n, rfl, h⟩
    exact ⟨n :: x, rfl, [n], rfl, rfl, by simp [beVal, h]⟩
  · rintro ⟨_, rfl, l, rfl, hl, h⟩
    match l, hl with
    | [n], _ => exact ⟨n, rfl, by rw [← h]; simp [beVal]⟩

theorem prefixed2_iff {s s' x : Bytes} :
    (∃ (v : U16) (l : Bytes), s = l ++ (x ++ s') ∧ Num 2 16 v.toNat l ∧ x.length = v.toNat) ↔
      ∃ l, s = l ++ s' ∧ Prefixed 2 x l := by
  constructor
  · rintro ⟨v, l, rfl, ⟨hl, hv⟩, h⟩
    refine ⟨l ++ x, by simp, l, rfl, hl, ?_⟩
    have := beVal_lt l
    rw [hl] at this
    rw [h, hv, Nat.mod_eq_of_lt (by simpa using this)]
  · rintro ⟨_, rfl, l, rfl, hl, h⟩
    have := beVal_lt l
    rw [hl] at this
    refine ⟨BitVec.ofNat 16 (beVal l), l, by simp, ⟨hl, ?_⟩, ?_⟩
    · simp
    · simp; omega

theorem eatResumeToken_iff {fl : Flags} {s s' : Bytes} {o : Option Bytes} :
    (eatResumeToken fl : Dec Bytes (Option Bytes)) s = .ok o s' ↔
      ∃ l, s = l ++ s' ∧ Token (fl.bits.toNat.testBit 6) o l := by
  rw [eatResumeToken, flags_contains_six fl _ rfl]
  simp only [Token]
  cases fl.bits.toNat.testBit 6
  · simp only [Bool.false_eq_true, if_false, pure_eq_ok]
    constructor
    · rintro ⟨rfl, rfl⟩; exact ⟨[], rfl, rfl, rfl⟩
    · rintro ⟨l, rfl, rfl, rfl⟩; exact ⟨rfl, rfl⟩
  · simp only [if_true, Dec.bind_eq_ok, pure_eq_ok, eatU16_iff, eatBytes_iff]
    constructor
    · rintro ⟨v, s1, ⟨l, rfl, hv⟩, x, s2, ⟨rfl, hx⟩, rfl, rfl⟩
      obtain ⟨l', h1, h2⟩ := prefixed2_iff.1 ⟨v, l, rfl, hv, hx⟩
      exact ⟨l', h1, x, rfl, h2⟩
    · rintro ⟨l, hs, x, rfl, hp⟩
      obtain ⟨v, l', rfl, hv, hx⟩ := prefixed2_iff.2 ⟨l, hs, hp⟩
      exact ⟨v, x ++ s', ⟨l', rfl, hv⟩, x, s', ⟨rfl, hx⟩, rfl, rfl⟩

/-- Type of a frame. -/
def ftype : Frame → FrameType
  | .setup _ => .SETUP
  | .error _ => .ERROR
  | .lease _ => .LEASE
  | .keepalive _ => .KEEPALIVE
  | .requestResponse _ => .REQUEST_RESPONSE
  | .requestFnf _ => .REQUEST_FNF
  | .requestStream _ => .REQUEST_STREAM
  | .requestChannel _ => .REQUEST_CHANNEL
  | .requestN _ => .REQUEST_N
  | .cancel _ => .CANCEL
  | .payload _ => .PAYLOAD
  | .metadataPush _ => .METADATA_PUSH
  | .resume _ => .RESUME
  | .resumeOk _ => .RESUME_OK

theorem typeNo_ftype (f : Frame) : typeNo (ftype f) = typeNumber f := by cases f <;> rfl

theorem connCodes {c : U32} :
    (c = ErrorFrame.INVALID_SETUP ∨ c = ErrorFrame.UNSUPPORTED_SETUP ∨
      c = ErrorFrame.REJECTED_SETUP ∨ c = ErrorFrame.REJECTED_RESUME ∨
      c = ErrorFrame.CONNECTION_ERROR ∨ c = ErrorFrame.CONNECTION_CLOSE) ↔
      ConnectionCode c.toNat := by
  simp only [← BitVec.toNat_inj, ConnectionCode, ErrorFrame.INVALID_SETUP,
    ErrorFrame.UNSUPPORTED_SETUP, ErrorFrame.REJECTED_SETUP, ErrorFrame.REJECTED_RESUME,
    ErrorFrame.CONNECTION_ERROR, ErrorFrame.CONNECTION_CLOSE, BitVec.toNat_ofNat]
  omega

theorem streamCodes {c : U32} :
    (c = ErrorFrame.APPLICATION_ERROR ∨ c = ErrorFrame.REJECTED ∨ c = ErrorFrame.CANCELED ∨
      c = ErrorFrame.INVALID) ↔ StreamCode c.toNat := by
  simp only [← BitVec.toNat_inj, StreamCode, ErrorFrame.APPLICATION_ERROR,
    ErrorFrame.REJECTED, ErrorFrame.CANCELED, ErrorFrame.INVALID, BitVec.toNat_ofNat]
  omega

theorem validate_none_iff {sid c : U32} :
    ErrorFrame.validateStreamId sid c = none ↔
      (ConnectionCode c.toNat → sid = 0#32) ∧ (StreamCode c.toNat → sid ≠ 0#32) := by
  have hx : ConnectionCode c.toNat → ¬ StreamCode c.toNat := by
    unfold ConnectionCode StreamCode; omega
  unfold ErrorFrame.validateStreamId
  by_cases h1 : ConnectionCode c.toNat
  · have h2 := hx h1
    rw [if_pos (connCodes.2 h1)]
    by_cases h3 : sid = 0#32 <;> simp [h1, h2, h3]
  · rw [if_neg (mt connCodes.1 h1)]
    by_cases h2 : StreamCode c.toNat
    · rw [if_pos (streamCodes.2 h2)]
      by_cases h3 : sid = 0#32 <;> simp [h1, h2, h3]
    · rw [if_neg (mt streamCodes.1 h2)]
      simp [h1, h2]

end Binate
