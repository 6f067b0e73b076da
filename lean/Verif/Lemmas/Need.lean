import Verif.Lemmas.Grammar
import Verif.Spec.Need

/-! # When a body decoder reports `InComplete` -/

namespace Binate

open Spec

/-- `d` on `r` fails with `InComplete` if `r` has less than `n` bytes, else succeeds. Either way
it leaves a suffix. -/
def NeedsAt {α : Type} (d : Dec Bytes α) (r : Bytes) (n : Nat) : Prop :=
  if r.length < n then ∃ s, d r = .err .inComplete s ∧ s <:+ r else ∃ a s, d r = .ok a s ∧ s <:+ r

theorem needs_bind {α γ : Type} {d : Dec Bytes α} {f : α → Dec Bytes γ} {r : Bytes} {k m n : Nat}
    (hn : n = k + m)
    (hs : r.length < k → ∃ s, d r = .err .inComplete s ∧ s <:+ r)
    (ho : k ≤ r.length → ∃ a, d r = .ok a (r.drop k) ∧ NeedsAt (f a) (r.drop k) m) :
    NeedsAt (d >>= f) r n := by
  subst hn
  unfold NeedsAt
  by_cases hk : r.length < k
  · obtain ⟨s, h1, h2⟩ := hs hk
    rw [if_pos (by omega)]
    exact ⟨s, Dec.bind_err h1, h2⟩
  · obtain ⟨a, h1, h2⟩ := ho (Nat.not_lt.1 hk)
    unfold NeedsAt at h2
    rw [List.length_drop] at h2
    rw [Dec.bind_ok h1]
    by_cases hm : r.length < k + m
    · rw [if_pos (by omega)] at h2
      rw [if_pos hm]
      obtain ⟨s, h3, h4⟩ := h2
      exact ⟨s, h3, h4.trans (List.drop_suffix _ _)⟩
    · rw [if_neg (by omega)] at h2
      rw [if_neg hm]
      obtain ⟨a, s, h3, h4⟩ := h2
      exact ⟨a, s, h3, h4.trans (List.drop_suffix _ _)⟩

theorem needs_pure {α : Type} (a : α) (r : Bytes) : NeedsAt (pure a : Dec Bytes α) r 0 := by
  unfold NeedsAt
  rw [if_neg (by omega)]
  exact ⟨a, r, rfl, List.suffix_refl _⟩

theorem needs_map {α γ : Type} {d : Dec Bytes α} {g : α → γ} {r : Bytes} {n : Nat}
    (h : NeedsAt d r n) : NeedsAt (do return g (← d) : Dec Bytes γ) r n := by
  unfold NeedsAt at *
  split
  · next hl =>
    rw [if_pos hl] at h
    obtain ⟨s, h1, h2⟩ := h
    exact ⟨s, Dec.bind_err h1, h2⟩
  · next hl =>
    rw [if_neg hl] at h
    obtain ⟨a, s, h1, h2⟩ := h
    exact ⟨g a, s, by rw [Dec.bind_ok h1]; rfl, h2⟩

/-- A decoder that reads everything that is left. -/
theorem needs_rest {α γ : Type} {d : Dec Bytes α} {f : α → γ} {r : Bytes}
    (h : ∃ a, d r = .ok a []) : NeedsAt (do let a ← d; return f a : Dec Bytes γ) r 0 := by
  apply needs_map
  unfold NeedsAt
  rw [if_neg (by omega)]
  obtain ⟨a, h⟩ := h
  exact ⟨a, [], h, List.nil_suffix⟩

section
variable {γ : Type} {r : Bytes} {m n : Nat}

theorem needs_u31 {f : U32 → Dec Bytes γ} (hn : n = 4 + m)
    (h : ∀ a, 4 ≤ r.length → NeedsAt (f a) (r.drop 4) m) : NeedsAt (eatU31 >>= f) r n := by
  refine needs_bind hn (fun hl => ⟨r, eatU31_short hl, List.suffix_refl _⟩) (fun hl => ?_)
  obtain ⟨a, b, c, d, s, rfl⟩ := exists_four hl
  exact ⟨_, eatU31_cons .., h _ hl⟩

theorem needs_u32 {f : U32 → Dec Bytes γ} (hn : n = 4 + m)
    (h : ∀ a, 4 ≤ r.length → NeedsAt (f a) (r.drop 4) m) : NeedsAt (eatU32 >>= f) r n := by
  refine needs_bind hn (fun hl => ⟨r, eatU32_short hl, List.suffix_refl _⟩) (fun hl => ?_)
  obtain ⟨a, b, c, d, s, rfl⟩ := exists_four hl
  exact ⟨_, eatU32_cons .., h _ hl⟩

theorem needs_u63 {f : U64 → Dec Bytes γ} (hn : n = 8 + m)
    (h : ∀ a, 8 ≤ r.length → NeedsAt (f a) (r.drop 8) m) : NeedsAt (eatU63 >>= f) r n := by
  refine needs_bind hn (fun hl => ⟨r, eatU63_short hl, List.suffix_refl _⟩) (fun hl => ?_)
  obtain ⟨a, b, c, d, a', b', c', d', s, rfl⟩ := exists_eight hl
  exact ⟨_, eatU63_cons .., h _ hl⟩

theorem needs_version {f : Version → Dec Bytes γ} (hn : n = 4 + m)
    (h : ∀ a, 4 ≤ r.length → NeedsAt (f a) (r.drop 4) m) : NeedsAt (eatVersion >>= f) r n := by
  refine needs_bind hn (fun hl => ⟨r, eatVersion_short hl, List.suffix_refl _⟩) (fun hl => ?_)
  obtain ⟨a, b, c, d, s, rfl⟩ := exists_four hl
  exact ⟨_, eatVersion_cons .., h _ hl⟩

theorem needs_u16 {f : U16 → Dec Bytes γ} (hn : n = 2 + m)
    (h : ∀ a : U16, 2 ≤ r.length → a.toNat = u16At r 0 → NeedsAt (f a) (r.drop 2) m) :
    NeedsAt (eatU16 >>= f) r n := by
  refine needs_bind hn (fun hl => ⟨r, eatU16_short hl, List.suffix_refl _⟩) (fun hl => ?_)
  obtain ⟨a, b, s, rfl⟩ := exists_two hl
  exact ⟨_, eatU16_cons .., h _ hl (toNat_append8 a b)⟩

theorem needs_bytes {k : Nat} {f : Bytes → Dec Bytes γ} (hn : n = k + m)
    (h : ∀ a, k ≤ r.length → NeedsAt (f a) (r.drop k) m) : NeedsAt (eatBytes k >>= f) r n := by
  refine needs_bind hn (fun hl => ⟨r, eatBytes_short hl, List.suffix_refl _⟩) (fun hl => ?_)
  exact ⟨_, eatBytes_ok hl, h _ hl⟩

/-- `eat_u8` wants two bytes; harmless when the continuation needs at least one. -/
theorem needs_u8 {f : U8 → Dec Bytes γ} (hn : n = 1 + m) (hm : 1 ≤ m)
    (h : ∀ a : U8, 2 ≤ r.length → a.toNat = byteAt r 0 → NeedsAt (f a) (r.drop 1) m) :
    NeedsAt (eatU8 >>= f) r n := by
  by_cases hl : r.length < 2
  · unfold NeedsAt
    rw [if_pos (by omega)]
    exact ⟨r, Dec.bind_err (eatU8_short hl), List.suffix_refl _⟩
  · refine needs_bind hn (fun h' => absurd (by omega) hl) (fun _ => ?_)
    obtain ⟨a, b, s, rfl⟩ := exists_two (Nat.not_lt.1 hl)
    exact ⟨_, eatU8_cons .., h _ (Nat.not_lt.1 hl) rfl⟩

theorem needs_payload : NeedsAt (eatPayload true : Dec Bytes Payload) r (metaEnd r 0) := by
  unfold NeedsAt
  by_cases hl : r.length < 3
  · rw [if_pos (by unfold metaEnd; omega)]
    exact eatPayload_short hl
  · obtain ⟨a, b, c, s, rfl⟩ := exists_three (Nat.not_lt.1 hl)
    rw [eatPayload_cons]
    have e : metaEnd (a :: b :: c :: s) 0 = 3 + len24 a b c := by
      simp [metaEnd, u24At, byteAt, len24]
    rw [e]
    by_cases h : s.length < len24 a b c
    · rw [if_pos h, if_pos (by simp; omega)]
      exact ⟨s, rfl, ⟨[a, b, c], rfl⟩⟩
    · rw [if_neg h, if_neg (by simp; omega)]
      exact ⟨_, _, rfl, List.nil_suffix⟩

end

theorem byteAt_drop (r : Bytes) (k i : Nat) : byteAt (r.drop k) i = byteAt r (k + i) := by
  simp [byteAt, List.getD_eq_getElem?_getD, List.getElem?_drop]

theorem u16At_drop (r : Bytes) (k i : Nat) : u16At (r.drop k) i = u16At r (k + i) := by
  simp [u16At, byteAt_drop, Nat.add_assoc]

theorem u24At_drop (r : Bytes) (k i : Nat) : u24At (r.drop k) i = u24At r (k + i) := by
  simp [u24At, byteAt_drop, Nat.add_assoc]

theorem metaEnd_drop (r : Bytes) (k i : Nat) : k + metaEnd (r.drop k) i = metaEnd r (k + i) := by
  simp only [metaEnd, u24At_drop]; omega

theorem stringEnd_drop (r : Bytes) (k i : Nat) :
    k + stringEnd (r.drop k) i = stringEnd r (k + i) := by
  simp only [stringEnd, byteAt_drop]; omega

theorem needs_token {fl : Flags} {γ : Type} {f : Option Bytes → Dec Bytes γ} {r : Bytes}
    {k m n : Nat} (hk : k = if fl.bits.toNat.testBit 6 then 2 + u16At r 0 else 0) (hn : n = k + m)
    (h : ∀ a, NeedsAt (f a) (r.drop k) m) : NeedsAt (eatResumeToken fl >>= f) r n := by
  rw [eatResumeToken, flags_contains_six fl _ rfl]
  cases hb : fl.bits.toNat.testBit 6
  · rw [hb] at hk
    simp only [Bool.false_eq_true, if_false] at hk ⊢
    subst hk
    exact needs_bind hn (fun h => absurd h (by omega)) (fun _ => ⟨_, rfl, h _⟩)
  · rw [hb] at hk
    simp only [if_true] at hk ⊢
    subst hk
    refine needs_bind hn ?_ ?_
    · intro hl
      by_cases h2 : r.length < 2
      · exact ⟨r, Dec.bind_err (eatU16_short h2), List.suffix_refl _⟩
      · obtain ⟨a, b, s, rfl⟩ := exists_two (Nat.not_lt.1 h2)
        have e : (a ++ b).toNat = u16At (a :: b :: s) 0 := toNat_append8 a b
        rw [← e] at hl
        refine ⟨s, ?_, ⟨[a, b], rfl⟩⟩
        rw [Dec.bind_ok (eatU16_cons ..), Dec.bind_err (eatBytes_short (by simp at hl; omega))]
    · intro hl
      obtain ⟨a, b, s, rfl⟩ := exists_two (s := r) (by omega)
      have e : (a ++ b).toNat = u16At (a :: b :: s) 0 := toNat_append8 a b
      rw [← e] at hl h ⊢
      refine ⟨some (s.take (a ++ b).toNat), ?_, h _⟩
      rw [Dec.bind_ok (eatU16_cons ..), Dec.bind_ok (eatBytes_ok (by simp at hl; omega))]
      rw [Nat.add_comm 2 (BitVec.toNat _)]; rfl

/-- What every body decoder except those of ERROR and EXT does with any input. -/
theorem body_needs {t : FrameType} {sid : U32} {fl : Flags} (r : Bytes)
    (h0 : connLevel t = true → sid = 0#32) (h1 : t ≠ .ERROR) (h2 : t ≠ .EXT) :
    NeedsAt (bodyDec t sid fl) r (bodyNeed (typeNo t) (fl.bits.toNat.testBit 6) r) := by
  cases t with
  | ERROR => exact absurd rfl h1
  | EXT => exact absurd rfl h2
  | SETUP =>
    apply needs_map
    simp only [typeNo, bodyNeed, SetupFrame.decode]
    refine needs_version (m := metaEnd (r.drop 4) (stringEnd (r.drop 4) (stringEnd (r.drop 4)
      (8 + if fl.bits.toNat.testBit 6 then 2 + u16At (r.drop 4) 8 else 0)))) ?_ (fun _ _ => ?_)
    · simp only [metaEnd_drop, stringEnd_drop, tokenEnd, u16At_drop]
      rw [← Nat.add_assoc]
    generalize r.drop 4 = r
    refine needs_u31 (m := metaEnd (r.drop 4) (stringEnd (r.drop 4) (stringEnd (r.drop 4)
      (4 + if fl.bits.toNat.testBit 6 then 2 + u16At (r.drop 4) 4 else 0)))) ?_ (fun _ _ => ?_)
    · simp only [metaEnd_drop, stringEnd_drop, u16At_drop]
      rw [← Nat.add_assoc]
    generalize r.drop 4 = r
    refine needs_u31 (m := metaEnd (r.drop 4) (stringEnd (r.drop 4) (stringEnd (r.drop 4)
      (0 + if fl.bits.toNat.testBit 6 then 2 + u16At (r.drop 4) 0 else 0)))) ?_ (fun _ _ => ?_)
    · simp only [metaEnd_drop, stringEnd_drop, u16At_drop]
      rw [← Nat.add_assoc]
    generalize r.drop 4 = r
    generalize hk : (if fl.bits.toNat.testBit 6 then 2 + u16At r 0 else 0) = k
    refine needs_token hk.symm (m := metaEnd (r.drop k) (stringEnd (r.drop k)
      (stringEnd (r.drop k) 0))) ?_ (fun _ => ?_)
    · simp only [metaEnd_drop, stringEnd_drop, Nat.zero_add, Nat.add_zero]
    generalize r.drop k = r
    refine needs_u8 (m := metaEnd (r.drop 1) (stringEnd (r.drop 1) (byteAt r 0))) ?_ ?_
      (fun a _ ha => ?_)
    · simp only [metaEnd_drop, stringEnd_drop]
      simp [stringEnd]
    · unfold metaEnd; omega
    rw [ha]
    generalize byteAt r 0 = k
    generalize r.drop 1 = r
    refine needs_bytes (m := metaEnd (r.drop k) (stringEnd (r.drop k) 0)) ?_ (fun _ _ => ?_)
    · simp only [metaEnd_drop, stringEnd_drop, Nat.add_zero]
    generalize r.drop k = r
    refine needs_u8 (m := metaEnd (r.drop 1) (byteAt r 0)) ?_ ?_ (fun a _ ha => ?_)
    · simp only [metaEnd_drop]
      simp [stringEnd]
    · unfold metaEnd; omega
    rw [ha]
    generalize byteAt r 0 = k
    generalize r.drop 1 = r
    refine needs_bytes (m := metaEnd (r.drop k) 0) ?_ (fun _ _ => ?_)
    · simp only [metaEnd_drop, Nat.add_zero]
    exact needs_map needs_payload
  | LEASE =>
    apply needs_map
    simp only [typeNo, bodyNeed, LeaseFrame.decode, h0 rfl, ne_eq, not_true_eq_false, if_false]
    exact needs_u31 (m := 4) rfl fun _ _ => needs_u31 (m := 0) rfl fun _ _ =>
      needs_rest ⟨_, eatRest_flat _⟩
  | KEEPALIVE =>
    apply needs_map
    simp only [typeNo, bodyNeed, KeepaliveFrame.decode, h0 rfl, ne_eq, not_true_eq_false, if_false]
    exact needs_u63 (m := 0) rfl fun _ _ => needs_rest ⟨_, eatRest_flat _⟩
  | REQUEST_RESPONSE => exact needs_map (needs_map needs_payload)
  | REQUEST_FNF => exact needs_map (needs_map needs_payload)
  | PAYLOAD => exact needs_map (needs_map needs_payload)
  | REQUEST_STREAM =>
    apply needs_map
    exact needs_u31 (m := metaEnd (r.drop 4) 0) (metaEnd_drop r 4 0).symm
      fun _ _ => needs_map needs_payload
  | REQUEST_CHANNEL =>
    apply needs_map
    exact needs_u31 (m := metaEnd (r.drop 4) 0) (metaEnd_drop r 4 0).symm
      fun _ _ => needs_map needs_payload
  | REQUEST_N =>
    apply needs_map
    exact needs_u31 (m := 0) rfl fun _ _ => needs_pure _ _
  | CANCEL =>
    apply needs_map
    exact needs_pure _ _
  | METADATA_PUSH =>
    apply needs_map
    refine needs_bind (k := 0) (m := 0) rfl (fun h => absurd h (by omega))
      (fun _ => ⟨r.length, rfl, ?_⟩)
    exact needs_rest ⟨r, by rw [List.drop_zero, eatBytes_ok (Nat.le_refl _)]; simp⟩
  | RESUME =>
    apply needs_map
    simp only [typeNo, bodyNeed, ResumeFrame.decode]
    refine needs_version (m := 2 + u16At r 4 + 16) (by omega) (fun _ _ => ?_)
    refine needs_u16 (m := u16At r 4 + 16) (by omega) (fun a _ ha => ?_)
    rw [u16At_drop] at ha
    rw [ha]
    exact needs_bytes (m := 16) rfl fun _ _ => needs_u63 (m := 8) rfl fun _ _ =>
      needs_u63 (m := 0) rfl fun _ _ => needs_pure _ _
  | RESUME_OK =>
    apply needs_map
    exact needs_u63 (m := 0) rfl fun _ _ => needs_pure _ _

end Binate
