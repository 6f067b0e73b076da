import Verif.Lemmas.Small

/-! # Properties of U24, Version, FrameType and Flags

C22–C25. -/

namespace Binate

open Spec

/-! ## C22 -/

/-- **C22**, `from_u32` / `into_u32`. -/
theorem C22_u32 (v : U32) :
    (v.toNat ≤ 16777215 → ∃ u, U24.fromU32 v = .ok u ∧ u.intoU32 = v) ∧
    (16777215 < v.toNat → ∃ m, U24.fromU32 v = .panic m) := by
  constructor
  · intro h
    obtain ⟨u, h1, h2⟩ := u24_fromU32_eq v (by omega)
    exact ⟨u, h1, BitVec.eq_of_toNat_eq (by rw [u24_intoU32, h2])⟩
  · intro h
    exact u24_fromU32_panic (by omega)

/-- **C22**, `from_usize` / `into_usize`. -/
theorem C22_usize (n : Nat) :
    (n ≤ 16777215 → ∃ u, U24.fromUsize n = .ok u ∧ u.intoUsize = n) ∧
    (16777215 < n → ∃ m, U24.fromUsize n = .panic m) := by
  constructor
  · intro h
    obtain ⟨u, h1, h2⟩ := u24_fromUsize_ok (n := n) (by omega)
    exact ⟨u, h1, by rw [u24_intoUsize, h2]⟩
  · intro h
    exact u24_fromUsize_panic (by omega)

/-- **C22**, the other way round: every `U24` has a value below 2^24 that converts back to it, the
two conversions agree, and its encoding is that value in three big-endian bytes. -/
theorem C22_inverse (u : U24) :
    U24.fromU32 u.intoU32 = .ok u ∧ U24.fromUsize u.intoUsize = .ok u ∧
      u.intoUsize = u.intoU32.toNat ∧ u.intoUsize < 2 ^ 24 ∧
      ∀ buf, u.encode buf = buf ++ be 3 u.intoUsize := by
  have h1 := u.hi.isLt
  have h2 := u.lo.isLt
  have e := u24_intoU32 u
  have e' := u24_intoUsize u
  refine ⟨?_, ?_, by rw [e, e'], by omega, fun buf => by rw [e', u24_encode]⟩
  · obtain ⟨v, k1, k2⟩ := u24_fromU32_eq u.intoU32 (by omega)
    rw [k1, u24_ext (k2.trans e)]
  · obtain ⟨v, k1, k2⟩ := u24_fromUsize_ok (n := u.intoUsize) (by omega)
    rw [k1, u24_ext (k2.trans e')]

/-- **C22**: `new` puts the two parts together, and `MIN` and `MAX` are the least and the greatest
value, both taken. -/
theorem C22_bounds (h : U8) (l : U16) :
    (U24.new h l).intoUsize = h.toNat * 2 ^ 16 + l.toNat ∧
    U24.MIN ≤ (U24.new h l).intoU32 ∧ (U24.new h l).intoU32 ≤ U24.MAX ∧
    (∃ u : U24, u.intoU32 = U24.MIN) ∧ ∃ u : U24, u.intoU32 = U24.MAX := by
  have h1 := h.isLt
  have h2 := l.isLt
  have e : (U24.new h l).intoU32.toNat = h.toNat * 2 ^ 16 + l.toNat := u24_intoU32 _
  have e' : (U24.new h l).intoUsize = h.toNat * 2 ^ 16 + l.toNat := u24_intoUsize _
  refine ⟨e', Nat.zero_le _, ?_, ⟨⟨0, 0⟩, rfl⟩, ⟨0xFF#8, 0xFFFF#16⟩, rfl⟩
  show (U24.new h l).intoU32.toNat ≤ U24.MAX.toNat
  rw [e, show U24.MAX.toNat = 16777215 from rfl]
  omega

example : U24.fromUsize 16777215 = .ok ⟨0xFF#8, 0xFFFF#16⟩ := by decide
example : ∃ m, U24.fromUsize 16777216 = .panic m := ⟨_, rfl⟩
example : U24.fromU32 0x010203#32 = .ok ⟨0x01#8, 0x0203#16⟩ := by decide
example : (U24.new 0x01#8 0x0203#16).encode [9#8] = [9#8, 1#8, 2#8, 3#8] := by decide

/-! ## C23 -/

/-- **C23**, comparison is the lexicographic order on (major, minor). -/
theorem C23_lexicographic (a b : Version) :
    (a.cmp b = .lt ↔ VersionLt a b) ∧ (a.cmp b = .gt ↔ VersionLt b a) ∧ (a.cmp b = .eq ↔ a = b) ∧
      a.partialCmp b = some (a.cmp b) := by
  obtain ⟨h1, h2, h3⟩ := version_cmp a b
  refine ⟨h1, h2, ?_, rfl⟩
  rw [h3]
  constructor
  · rintro ⟨k1, k2⟩
    rcases a with ⟨x, y⟩
    rcases b with ⟨x', y'⟩
    exact Version.mk.injEq .. ▸ ⟨BitVec.eq_of_toNat_eq k1, BitVec.eq_of_toNat_eq k2⟩
  · rintro rfl; exact ⟨rfl, rfl⟩

/-- **C23**, it is a total order. -/
theorem C23_total_order (a b c : Version) :
    a.cmp a = .eq ∧ a.cmp b = (b.cmp a).swap ∧
      (a.cmp b = .lt → b.cmp c = .lt → a.cmp c = .lt) := by
  refine ⟨(C23_lexicographic a a).2.2.1.2 rfl, ?_, ?_⟩
  · obtain ⟨h1, h2, h3, -⟩ := C23_lexicographic a b
    obtain ⟨k1, k2, k3, -⟩ := C23_lexicographic b a
    cases h : b.cmp a with
    | lt => rw [k1] at h; exact h2.2 h
    | eq => rw [k3] at h; exact h3.2 h.symm
    | gt => rw [k2] at h; exact h1.2 h
  · rw [(C23_lexicographic a b).1, (C23_lexicographic b c).1, (C23_lexicographic a c).1]
    unfold VersionLt
    omega

example : Version.cmp ⟨1#16, 9#16⟩ ⟨2#16, 0#16⟩ = .lt := by decide
example : Version.cmp ⟨2#16, 1#16⟩ ⟨2#16, 0#16⟩ = .gt := by decide

/-! ## C24 -/

/-- **C24**, the raw value of a frame type is its protocol number, `from_value` is its exact
inverse, and the wire bits are that number in the top six bits. -/
theorem C24_values (t : FrameType) (v : U16) :
    t.value.toNat = protocolNumber t ∧ t.bits.toNat = protocolNumber t * 1024 ∧
      (FrameType.fromValue v = some t ↔ v.toNat = protocolNumber t) := by
  refine ⟨by cases t <;> rfl, by cases t <;> rfl, ?_⟩
  constructor
  · intro h
    unfold FrameType.fromValue at h
    iterate 15
      rcases ite_eq_some h with ⟨hv, rfl⟩ | h
      · rw [hv]; rfl
    cases h
  · intro h
    have : v = t.value := BitVec.eq_of_toNat_eq (h.trans (by cases t <;> rfl))
    subst this
    cases t <;> rfl

/-- **C24**, `from_bits` looks at the top six bits only. -/
theorem C24_from_bits (w : U16) (t : FrameType) :
    FrameType.fromBits w = some t ↔ w.toNat / 1024 = protocolNumber t := by
  rw [fromBits_iff]
  cases t <;> rfl

/-- **C24**, a word made of a type and any lower ten bits is recognised as that type. -/
theorem C24_from_bits_or (t : FrameType) (x : U16) (hx : x.toNat < 1024) :
    FrameType.fromBits (t.bits ||| x) = some t := by
  rw [C24_from_bits, BitVec.toNat_or, (C24_values t 0).2.1,
    show protocolNumber t * 1024 = protocolNumber t <<< 10 from (Nat.shiftLeft_eq _ 10).symm,
    ← Nat.shiftLeft_add_eq_or_of_lt (by omega), Nat.shiftLeft_eq]
  omega

example : FrameType.fromValue 0x0B#16 = some .ERROR := by decide
example : FrameType.fromValue 0x0F#16 = none := by decide
example : FrameType.fromBits 0xFFFF#16 = some .EXT := by decide

/-! ## C25 -/

/-- **C25**, safe code can build exactly the flag words that use bits 4–8 only. -/
theorem C25_safe_iff (f : Flags) :
    SafeFlags f ↔ ∀ i, f.bits.getLsbD i = true → 4 ≤ i ∧ i ≤ 8 := by
  rw [← flagsOk_iff]
  refine ⟨safeFlags_ok, fun h => ?_⟩
  have e : Flags.fromBitsTruncate f.bits = f := by
    rcases f with ⟨w⟩
    rw [Flags.mk.injEq]
    apply BitVec.eq_of_toNat_eq
    rw [fromBitsTruncate_toNat]
    have h1 := h.1
    have h2 := h.2
    simp only at *
    omega
  rw [← e]
  exact .truncate _

/-- **C25**, flags and type do not disturb each other: both are recovered from the combined word,
also after a trip through the wire. -/
theorem C25_type_and_flags {f : Flags} (hf : SafeFlags f) (t : FrameType) (r : Bytes) :
    FrameType.fromBits (t.bits ||| f.bits) = some t ∧
      Flags.fromBitsTruncate (t.bits ||| f.bits) = f ∧
      (eatFlags : Dec Bytes (FrameType × Flags)) (putU16 [] (t.bits ||| f.bits) ++ r) =
        .ok (t, f) r := by
  have hok := safeFlags_ok hf
  have h1 : FrameType.fromBits (t.bits ||| f.bits) = some t :=
    C24_from_bits_or t _ (Nat.lt_trans hok.2 (by decide))
  have h2 : Flags.fromBitsTruncate (t.bits ||| f.bits) = f := by
    rcases f with ⟨w⟩
    rw [Flags.mk.injEq]
    apply BitVec.eq_of_toNat_eq
    rw [fromBitsTruncate_toNat, BitVec.toNat_or, (C24_values t 0).2.1,
      show protocolNumber t * 1024 = protocolNumber t <<< 10 from (Nat.shiftLeft_eq _ 10).symm,
      ← Nat.shiftLeft_add_eq_or_of_lt (Nat.lt_trans hok.2 (by decide)), Nat.shiftLeft_eq]
    have k1 := hok.1
    have k2 := hok.2
    simp only at *
    omega
  refine ⟨h1, h2, ?_⟩
  rw [putU16]
  generalize t.bits ||| f.bits = w at *
  have e : (w.extractLsb' 8 8 ++ w.extractLsb' 0 8 : U16) = w := by
    apply BitVec.eq_of_toNat_eq
    rw [toNat_append8]
    simp only [BitVec.extractLsb'_toNat, Nat.shiftRight_eq_div_pow]
    have := w.isLt
    omega
  show eatFlags (w.extractLsb' 8 8 :: w.extractLsb' 0 8 :: r) = _
  rw [eatFlags_cons, e, h1, h2]

/-- **C25**, each predicate reads exactly its bit. -/
theorem C25_predicates (f : Flags) :
    f.isIgnore = f.bits.getLsbD 8 ∧ f.isMetadata = f.bits.getLsbD 7 ∧
      f.isFollows = f.bits.getLsbD 6 ∧ f.isResume = f.bits.getLsbD 6 ∧
      f.isRespond = f.bits.getLsbD 6 ∧ f.isComplete = f.bits.getLsbD 5 ∧
      f.isLease = f.bits.getLsbD 5 ∧ f.isNext = f.bits.getLsbD 4 :=
  ⟨contains_ignore f, contains_metadata f, contains_follows f, contains_follows f,
    contains_follows f, contains_complete f, contains_complete f, contains_next f⟩

example : SafeFlags (Flags.FOLLOWS.union Flags.NEXT).compl := .compl (.union .follows .next)
example : (Flags.FOLLOWS.union Flags.NEXT).compl.bits = 0x1A0#16 := by decide
example : ¬ SafeFlags ⟨0x200#16⟩ := fun h => absurd ((C25_safe_iff _).1 h 9 (by decide)) (by decide)

/-- **C04**, the other types that implement `Encode`: a version appends its two numbers, an integer of
24 bits its value, big-endian, and a payload its metadata and then its data; `len` is the number of
bytes appended. -/
theorem C04_values (v : Version) (u : U24) (p : Payload) (buf : Bytes) :
    v.encode buf = buf ++ be 2 v.major.toNat ++ be 2 v.minor.toNat ∧
    u.encode buf = buf ++ be 3 u.intoUsize ∧
    p.encode buf = buf ++ p.metadata.getD [] ++ p.data.getD [] ∧
    (v.encode buf).length = buf.length + v.len ∧ (u.encode buf).length = buf.length + u.len ∧
    (p.encode buf).length = buf.length + p.len := by
  have e1 : v.encode buf = buf ++ be 2 v.major.toNat ++ be 2 v.minor.toNat := by
    rw [Version.encode, putU16_eq, putU16_eq]
  have e2 := (C22_inverse u).2.2.2.2 buf
  have e3 : p.encode buf = buf ++ p.metadata.getD [] ++ p.data.getD [] := by
    rw [payload_encode_eq]
    cases p.metadata <;> cases p.data <;> rfl
  refine ⟨e1, e2, e3, ?_, ?_, ?_⟩
  · rw [e1, List.length_append, List.length_append]
    rfl
  · rw [e2, List.length_append]
    rfl
  · rw [payload_encode_eq, payload_len_eq, List.length_append, List.length_append, Nat.add_assoc]

/-- Non-vacuity. -/
example : Version.encode ⟨1#16, 258#16⟩ [7#8] = [7#8, 0#8, 1#8, 1#8, 2#8] ∧
    U24.encode ⟨1#8, 2#16⟩ [] = [1#8, 0#8, 2#8] ∧
    Payload.encode ⟨some [1#8], some [2#8]⟩ [] = [1#8, 2#8] := by decide

end Binate
