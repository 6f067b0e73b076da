import Verif.Lemmas.Reserved
import Verif.Spec.Canonical

/-! # Accepted inputs are determined by the frame, up to ignored bits -/

namespace Binate

open Spec

theorem Spec.Agree.refl (m : Nat → U8) (x : Bytes) : Agree m x x := ⟨rfl, fun _ => rfl⟩

theorem Spec.Agree.of_eq {m : Nat → U8} {x x' : Bytes} (h : x = x') : Agree m x x' := h ▸ .refl m x

theorem Spec.Agree.mk_append {m : Nat → U8} {x x' y y' : Bytes} (hx : Agree m x x')
    (hy : Agree (fun i => m (i + x.length)) y y') : Agree m (x ++ y) (x' ++ y') := by
  refine ⟨by rw [List.length_append, List.length_append, hx.1, hy.1], fun i => ?_⟩
  rw [getD_append, getD_append, ← hx.1]
  split
  · exact hx.2 i
  · next h =>
    have := hy.2 (i - x.length)
    simp only [Nat.sub_add_cancel (Nat.not_lt.1 h)] at this
    exact this

theorem or_80_eq : ∀ a : U8, a ||| 0x80#8 = BitVec.ofNat 8 (a.toNat % 128 + 128) := by decide
theorem or_02_eq : ∀ a : U8, a ||| 0x02#8 = BitVec.ofNat 8 (a.toNat / 4 * 4 + 2 + a.toNat % 2) := by
  decide
theorem or_03_eq : ∀ a : U8, a ||| 0x03#8 = BitVec.ofNat 8 (a.toNat / 4 * 4 + 3) := by decide
theorem or_0F_eq : ∀ a : U8, a ||| 0x0F#8 = BitVec.ofNat 8 (a.toNat / 16 * 16 + 15) := by decide
theorem or_BF_eq : ∀ a : U8, a ||| 0xBF#8 = BitVec.ofNat 8 (0xBF + a.toNat / 64 % 2 * 64) := by decide
theorem or_FF_eq : ∀ a : U8, a ||| 0xFF#8 = 0xFF#8 := by decide

/-- Two encodings of the same number agree except for the top bit. -/
theorem num_agree {m : Nat → U8} {k v : Nat} {x x' : Bytes} (h : Num (k + 1) (8 * k + 7) v x)
    (h' : Num (k + 1) (8 * k + 7) v x') (hm : m 0 = 0x80#8) : Agree m x x' := by
  obtain ⟨hl, hv⟩ := h
  obtain ⟨hl', hv'⟩ := h'
  match x, x', hl, hl' with
  | a :: t, a' :: t', hl, hl' =>
  have ht : t.length = k := by simpa using hl
  have ht' : t'.length = k := by simpa using hl'
  have e : ∀ (u : Nat) (q : Bytes), q.length = k →
      (u * 256 ^ k + beVal q) % (128 * 256 ^ k) = beVal q + 256 ^ k * (u % 128) := by
    intro u q hq
    have hlt : beVal q < 256 ^ k := hq ▸ beVal_lt q
    rw [Nat.mul_comm 128, Nat.mod_mul, Nat.mul_comm u, Nat.mul_add_mod, Nat.mod_eq_of_lt hlt,
      Nat.mul_add_div (by exact Nat.pow_pos (by omega)), Nat.div_eq_of_lt hlt, Nat.add_zero]
  simp only [beVal, ht, ht'] at hv hv'
  rw [show 2 ^ (8 * k + 7) = 128 * 256 ^ k by rw [Nat.pow_add, Nat.pow_mul, Nat.mul_comm]]
    at hv hv'
  rw [e _ _ ht] at hv
  rw [e _ _ ht'] at hv'
  rw [hv] at hv'
  have hlt : beVal t < 256 ^ k := ht ▸ beVal_lt t
  have hlt' : beVal t' < 256 ^ k := ht' ▸ beVal_lt t'
  have h1 : beVal t = beVal t' := by
    have := congrArg (· % 256 ^ k) hv'
    simpa [Nat.add_mul_mod_self_left, Nat.mod_eq_of_lt hlt, Nat.mod_eq_of_lt hlt'] using this
  have h2 : a.toNat % 128 = a'.toNat % 128 := by
    rw [h1] at hv'
    exact Nat.eq_of_mul_eq_mul_left (Nat.pow_pos (by omega)) (Nat.add_left_cancel hv')
  have h3 : t = t' := beVal_inj (ht.trans ht'.symm) h1
  subst h3
  refine ⟨rfl, fun i => ?_⟩
  cases i with
  | zero => simp only [List.getD_cons_zero, hm, or_80_eq, h2]
  | succ i => simp only [List.getD_cons_succ]

theorem num_full {k v : Nat} {x x' : Bytes} (h : Num k (8 * k) v x) (h' : Num k (8 * k) v x') :
    x = x' := by
  obtain ⟨hl, hv⟩ := h
  obtain ⟨hl', hv'⟩ := h'
  have p : 2 ^ (8 * k) = 256 ^ k := by rw [Nat.pow_mul]
  rw [p, Nat.mod_eq_of_lt (by rw [← hl]; exact beVal_lt x)] at hv
  rw [p, Nat.mod_eq_of_lt (by rw [← hl']; exact beVal_lt x')] at hv'
  exact beVal_inj (hl.trans hl'.symm) (hv.symm.trans hv')

theorem prefixed_unique {k : Nat} {x b b' : Bytes} (h : Prefixed k x b) (h' : Prefixed k x b') :
    b = b' := by
  obtain ⟨l, rfl, hl, he⟩ := h
  obtain ⟨l', rfl, hl', he'⟩ := h'
  rw [beVal_inj (hl.trans hl'.symm) (he.trans he'.symm)]

theorem optField_unique {o : Option Bytes} {b b' : Bytes} (h : Opt o b) (h' : Opt o b') : b = b' := by
  rw [← optBytes_opt h, ← optBytes_opt h']

theorem pay_unique {p : Payload} {b b' : Bytes} (h : Pay p b) (h' : Pay p b') : b = b' := by
  obtain ⟨m, d, mb, rfl, h1, h2, h3⟩ := h
  obtain ⟨m', d', mb', rfl, h1', h2', h3'⟩ := h'
  have := optField_unique h2 h2'
  subst this
  rw [prefixed_unique h1 h1', optField_unique h3 h3']

theorem ver_unique {v : Version} {b b' : Bytes} (h : Ver v b) (h' : Ver v b') : b = b' := by
  obtain ⟨x, y, rfl, h1, h2⟩ := h
  obtain ⟨x', y', rfl, h1', h2'⟩ := h'
  rw [num_full (k := 2) h1 h1', num_full (k := 2) h2 h2']

theorem token_unique {r : Bool} {o : Option Bytes} {b b' : Bytes} (h : Token r o b)
    (h' : Token r o b') : b = b' := by
  cases r with
  | false => exact h.2.trans h'.2.symm
  | true =>
    obtain ⟨t, rfl, h1⟩ := h
    obtain ⟨t', e, h1'⟩ := h'
    cases e
    exact prefixed_unique h1 h1'

/-- The two flag words give the same frame of type `ty`. -/
def SameFlags (ty fl fl' : Nat) : Prop :=
  (keepsFlags ty = true → fl = fl') ∧ (ty = 3 → fl.testBit 6 = fl'.testBit 6)

theorem body_flags {sid fl fl' : Nat} {b b' rest : Bytes} {f : Frame} (h : Body sid fl b f rest)
    (h' : Body sid fl' b' f rest) : SameFlags (typeNumber f) fl fl' := by
  cases h <;> cases h' <;> refine ⟨fun h => ?_, fun h => ?_⟩ <;>
    first
    | (cases h; done)
    | (simp_all; done)
    | (rename_i h1 _ _ _ h2 _ _; rw [← h1, ← h2])

theorem body_sid {sid sid' fl fl' : Nat} {b b' rest rest' : Bytes} {f : Frame}
    (h : Body sid fl b f rest) (h' : Body sid' fl' b' f rest') : sid = sid' := by
  cases h <;> cases h' <;> simp_all

theorem body_unique {sid fl fl' tok : Nat} {b b' rest : Bytes} {f : Frame}
    (h : Body sid fl b f rest) (h' : Body sid fl' b' f rest)
    (htok : ∀ v, f = .resume v → tok = v.resumeToken.length) :
    Agree (fun i => reservedMask (typeNumber f) tok (i + 6)) b b' := by
  have hf := body_flags h h'
  cases h with
  | @setup _ vb ib tb kb mb db pb v h1 h2 h3 h4 h5 h6 h7 h8 =>
    cases h' with
    | @setup _ vb' ib' tb' kb' mb' db' pb' _ g1 g2 g3 g4 g5 g6 g7 g8 =>
    have e : fl = fl' := hf.1 rfl
    subst e
    have e2 := ver_unique h2 g2
    have e5 := token_unique h5 g5
    have e6 := prefixed_unique h6 g6
    have e7 := prefixed_unique h7 g7
    have e8 := pay_unique h8 g8
    subst e2 e5 e6 e7 e8
    have l2 := ver_length h2
    have l3 := num_length h3
    simp only [List.append_assoc]
    refine .mk_append (.refl _ _) (.mk_append ?_ (.mk_append ?_ (.refl _ _)))
    · refine num_agree (k := 3) h3 g3 (mask_top (by omega) ?_)
      simp [reservedTop, typeNumber, l2]
    · refine num_agree (k := 3) h4 g4 (mask_top (by omega) ?_)
      simp [reservedTop, typeNumber, l2, l3]
  | @lease _ tb nb mb v h1 h2 h3 =>
    cases h' with
    | lease g1 g2 g3 =>
    have e3 := optField_unique h3 g3
    subst e3
    have l1 := num_length h1
    simp only [List.append_assoc]
    refine .mk_append ?_ (.mk_append ?_ (.refl _ _))
    · exact num_agree (k := 3) h1 g1 (mask_top (by omega) (by simp [reservedTop, typeNumber]))
    · exact num_agree (k := 3) h2 g2 (mask_top (by omega) (by simp [reservedTop, typeNumber, l1]))
  | keepalive h1 h2 h3 =>
    cases h' with
    | keepalive g1 g2 g3 =>
    have e3 := optField_unique h3 g3
    subst e3
    exact .mk_append (num_agree (k := 7) h2 g2
      (mask_top (by omega) (by simp [reservedTop, typeNumber]))) (.refl _ _)
  | requestResponse h1 h2 h3 => cases h' with
    | requestResponse g1 g2 g3 => exact .of_eq (pay_unique h3 g3)
  | requestFnf h1 h2 h3 => cases h' with
    | requestFnf g1 g2 g3 => exact .of_eq (pay_unique h3 g3)
  | requestStream h1 h2 h3 h4 => cases h' with
    | requestStream g1 g2 g3 g4 =>
      have e4 := pay_unique h4 g4
      subst e4
      exact .mk_append (num_agree (k := 3) h3 g3
        (mask_top (by omega) (by simp [reservedTop, typeNumber]))) (.refl _ _)
  | requestChannel h1 h2 h3 h4 => cases h' with
    | requestChannel g1 g2 g3 g4 =>
      have e4 := pay_unique h4 g4
      subst e4
      exact .mk_append (num_agree (k := 3) h3 g3
        (mask_top (by omega) (by simp [reservedTop, typeNumber]))) (.refl _ _)
  | requestN h1 h2 => cases h' with
    | requestN g1 g2 =>
      exact .mk_append (num_agree (k := 3) h2 g2
        (mask_top (by omega) (by simp [reservedTop, typeNumber]))) (.refl _ _)
  | cancel h1 => cases h' with
    | cancel g1 => exact .refl _ _
  | payload h1 h2 h3 => cases h' with
    | payload g1 g2 g3 => exact .of_eq (pay_unique h3 g3)
  | error h1 h2 h3 h4 h5 => cases h' with
    | error g1 g2 g3 g4 g5 =>
      exact .of_eq (by rw [num_full (k := 4) h2 g2, optField_unique h5 g5])
  | metadataPush h1 => cases h' with
    | metadataPush g1 => exact .of_eq (h1.symm.trans g1)
  | @resume _ vb kb sb cb _ v h1 h2 h3 h4 => cases h' with
    | resume g1 g2 g3 g4 =>
      have e1 := ver_unique h1 g1
      have e2 := prefixed_unique h2 g2
      subst e1 e2
      have l1 := ver_length h1
      have l2 := h2.length
      have l3 := num_length h3
      have := htok v rfl
      simp only [List.append_assoc]
      refine .mk_append (.refl _ _) (.mk_append (.refl _ _) (.mk_append ?_ (.mk_append ?_
        (.refl _ _))))
      · refine num_agree (k := 7) h3 g3 (mask_top (by omega) ?_)
        simp [reservedTop, typeNumber, l1, l2, this]; omega
      · refine num_agree (k := 7) h4 g4 (mask_top (by omega) ?_)
        simp [reservedTop, typeNumber, l1, l2, l3, this]; omega
  | resumeOk h1 => cases h' with
    | resumeOk g1 =>
      exact .mk_append (num_agree (k := 7) h1 g1
        (mask_top (by omega) (by simp [reservedTop, typeNumber]))) (.refl _ _)

theorem ignored_ge {ty tok i : Nat} (h : 6 ≤ i) : ignoredMask ty tok i = reservedMask ty tok i := by
  rw [ignoredMask, if_neg (by omega), if_neg (by omega)]

theorem ignored_lt {ty tok i : Nat} (h : i < 4) : ignoredMask ty tok i = reservedMask ty tok i := by
  rw [ignoredMask, if_neg (by omega), if_neg (by omega)]

theorem testBit6 (n : Nat) : n.testBit 6 = decide (n / 64 % 2 = 1) := by
  rw [Nat.testBit_eq_decide_div_mod_eq]

theorem fl_bit6 {a b fl : Nat} (h : fl = (a * 256 + b) / 16 % 32 * 16) :
    fl / 64 % 2 = b / 64 % 2 := by omega

theorem header_unique {h h' : Bytes} {sid ty fl fl' tok : Nat} (hh : Header h sid ty fl)
    (hh' : Header h' sid ty fl') (hf : SameFlags ty fl fl') :
    Agree (ignoredMask ty tok) h h' := by
  obtain ⟨s, w, rfl, hs, hw, h1, h2, h3⟩ := hh
  obtain ⟨s', w', rfl, hs', hw', h1', h2', h3'⟩ := hh'
  refine .mk_append (num_agree (k := 3) ⟨hs, h1⟩ ⟨hs', h1'⟩ rfl) ?_
  match w, w', hw, hw' with
  | [a, b], [a', b'], _, _ =>
  rw [beVal_pair] at h2 h3 h2' h3'
  have hb := b.isLt
  have hb' := b'.isLt
  have f0 : a.toNat / 4 = a'.toNat / 4 := by omega
  rw [hs]
  refine ⟨rfl, fun i => ?_⟩
  match i with
  | 0 =>
    show a ||| (if keepsFlags ty then 0x02#8 else 0x03#8) =
      a' ||| (if keepsFlags ty then 0x02#8 else 0x03#8)
    split
    · next hk =>
      have := hf.1 hk
      have f1 : a.toNat % 2 = a'.toNat % 2 := by omega
      rw [or_02_eq, or_02_eq, f0, f1]
    · rw [or_03_eq, or_03_eq, f0]
  | 1 =>
    show b ||| (if keepsFlags ty then 0x0F#8 else if ty = 3 then 0xBF#8 else 0xFF#8) =
      b' ||| (if keepsFlags ty then 0x0F#8 else if ty = 3 then 0xBF#8 else 0xFF#8)
    split
    · next hk =>
      have := hf.1 hk
      have f1 : b.toNat / 16 = b'.toNat / 16 := by omega
      rw [or_0F_eq, or_0F_eq, f1]
    · split
      · next h3t =>
        have := hf.2 h3t
        rw [testBit6, testBit6, fl_bit6 h3, fl_bit6 h3', decide_eq_decide] at this
        have f1 : b.toNat / 64 % 2 = b'.toNat / 64 % 2 := by omega
        rw [or_BF_eq, or_BF_eq, f1]
      · rw [or_FF_eq, or_FF_eq]
  | i + 2 => rfl

theorem parses_unique {b b' rest : Bytes} {f : Frame} (h : Parses b f rest)
    (h' : Parses b' f rest) : AgreeExceptIgnored b b' := by
  have ht := (parses_typeOf h).2
  have htok : ∀ v, f = .resume v → u16At b 10 = v.resumeToken.length := by
    rintro v rfl; exact resume_tok h
  unfold AgreeExceptIgnored
  rw [ht]
  generalize u16At b 10 = tok at *
  obtain ⟨hd, body, sid, fl, rfl, hh, hb⟩ := h
  obtain ⟨hd', body', sid', fl', rfl, hh', hb'⟩ := h'
  have := body_sid hb hb'
  subst this
  refine .mk_append (header_unique hh hh' (body_flags hb hb')) ?_
  rw [header_six hh]
  have := body_unique hb hb' htok
  refine ⟨this.1, fun i => ?_⟩
  have := this.2 i
  show _ ||| ignoredMask (typeNumber f) tok (i + 6) = _ ||| ignoredMask (typeNumber f) tok (i + 6)
  rw [ignored_ge (by omega)]
  exact this

/-! ## Conversely, ignored bits are ignored -/

theorem body_of_sameFlags {sid fl fl' : Nat} {b rest : Bytes} {f : Frame}
    (h : Body sid fl b f rest) (hf : SameFlags (typeNumber f) fl fl') : Body sid fl' b f rest := by
  cases h with
  | setup h1 h2 h3 h4 h5 h6 h7 h8 => have := hf.1 rfl; subst this; exact .setup h1 h2 h3 h4 h5 h6 h7 h8
  | lease h1 h2 h3 => exact .lease h1 h2 h3
  | keepalive h1 h2 h3 => exact .keepalive (h1.trans (hf.2 rfl)) h2 h3
  | requestResponse h1 h2 h3 => have := hf.1 rfl; subst this; exact .requestResponse h1 h2 h3
  | requestFnf h1 h2 h3 => have := hf.1 rfl; subst this; exact .requestFnf h1 h2 h3
  | requestStream h1 h2 h3 h4 => have := hf.1 rfl; subst this; exact .requestStream h1 h2 h3 h4
  | requestChannel h1 h2 h3 h4 => have := hf.1 rfl; subst this; exact .requestChannel h1 h2 h3 h4
  | requestN h1 h2 => exact .requestN h1 h2
  | cancel h1 => exact .cancel h1
  | payload h1 h2 h3 => have := hf.1 rfl; subst this; exact .payload h1 h2 h3
  | error h1 h2 h3 h4 h5 => exact .error h1 h2 h3 h4 h5
  | metadataPush h1 => exact .metadataPush h1
  | resume h1 h2 h3 h4 => exact .resume h1 h2 h3 h4
  | resumeOk h1 => exact .resumeOk h1

theorem or_03_div : ∀ a : U8, (a ||| 0x03#8).toNat / 4 = a.toNat / 4 := by decide
theorem or_BF_bit : ∀ a : U8, (a ||| 0xBF#8).toNat / 64 % 2 = a.toNat / 64 % 2 := by decide

theorem typeWord {a b a' b' : Nat} (f0 : a / 4 = a' / 4) (_ : b < 256) (_ : b' < 256) :
    (a * 256 + b) / 1024 = (a' * 256 + b') / 1024 := by omega

theorem header_ignored {ty tok : Nat} {h h' : Bytes} {sid fl : Nat}
    (ha : Agree (ignoredMask ty tok) h h') (hh : Header h sid ty fl) :
    ∃ fl', Header h' sid ty fl' ∧ SameFlags ty fl fl' := by
  obtain ⟨s, w, rfl, hs, hw, h1, h2, h3⟩ := hh
  obtain ⟨s', w', rfl, hs', hw'⟩ := ha.append
  have n1 := hs'.num (k := 3) ⟨hs, h1⟩ rfl (by
      intro i hi
      rw [ignored_lt (by omega)]
      exact mask_zero (by omega) (by omega) (by omega) (reservedTop_lt (by omega)))
  obtain ⟨hl, hb⟩ := hw'
  rw [hs] at hb
  match w, w', hw, hl with
  | [a, b], [a', b'], _, _ =>
  have e0 := hb 0
  have e1 := hb 1
  simp only [List.getD_cons_zero, List.getD_cons_succ] at e0 e1
  change a ||| (if keepsFlags ty then 0x02#8 else 0x03#8) =
    a' ||| (if keepsFlags ty then 0x02#8 else 0x03#8) at e0
  change b ||| (if keepsFlags ty then 0x0F#8 else if ty = 3 then 0xBF#8 else 0xFF#8) =
    b' ||| (if keepsFlags ty then 0x0F#8 else if ty = 3 then 0xBF#8 else 0xFF#8) at e1
  have hb1 := b.isLt
  have hb2 := b'.isLt
  rw [beVal_pair] at h2 h3
  have f0 : a.toNat / 4 = a'.toNat / 4 := by
    split at e0
    · rw [← or_02_div a, e0, or_02_div]
    · rw [← or_03_div a, e0, or_03_div]
  refine ⟨(a'.toNat * 256 + b'.toNat) / 16 % 32 * 16,
    ⟨s', [a', b'], rfl, n1.1, rfl, n1.2, by rw [beVal_pair]; exact h2.trans (typeWord f0 hb1 hb2), by rw [beVal_pair]⟩, ?_, ?_⟩
  · intro hk
    simp only [hk, if_true] at e0 e1
    have f1 : a.toNat % 2 = a'.toNat % 2 := by rw [← or_02_mod a, e0, or_02_mod]
    have f2 : b.toNat / 16 = b'.toNat / 16 := by rw [← or_0F b, e1, or_0F]
    exact (flagWord f0 f1 f2 hb1 hb2 h2 h3).2
  · intro h3t
    subst h3t
    rw [if_neg (by decide), if_pos rfl] at e1
    have f1 : b.toNat / 64 % 2 = b'.toNat / 64 % 2 := by rw [← or_BF_bit b, e1, or_BF_bit]
    rw [testBit6, testBit6, fl_bit6 h3, fl_bit6 rfl, f1]

theorem parses_ignored {b b' rest : Bytes} {f : Frame} (h : Parses b f rest)
    (ha : AgreeExceptIgnored b b') : Parses b' f rest := by
  have ht := (parses_typeOf h).2
  have htok : ∀ v, f = .resume v → u16At b 10 = v.resumeToken.length := by
    rintro v rfl; exact resume_tok h
  unfold AgreeExceptIgnored at ha
  rw [ht] at ha
  generalize u16At b 10 = tok at *
  obtain ⟨hd, body, sid, fl, rfl, hh, hb⟩ := h
  obtain ⟨x, y, rfl, a1, a2⟩ := ha.append
  rw [header_six hh] at a2
  obtain ⟨fl', hh', hf⟩ := header_ignored a1 hh
  refine ⟨x, y, sid, fl', rfl, hh', body_of_sameFlags (body_agree hb ⟨a2.1, fun i => ?_⟩ htok) hf⟩
  have : y.getD i 0#8 ||| ignoredMask (typeNumber f) tok (i + 6) = _ ||| _ := (a2.2 i).symm
  rw [ignored_ge (by omega)] at this
  exact this.symm

/-! ## Frames back to back -/

theorem reads_cons {b : Bytes} {f : Frame} {fs : List Frame} (h : ReadsAs b (f :: fs)) :
    ∃ rest, decode b = .ok f rest ∧ ReadsAs rest fs := by
  generalize hb : b = b' at h
  cases h with
  | cons h1 h2 => subst hb; exact ⟨_, h1, h2⟩

theorem decode_nil (f : Frame) (rest : Bytes) : decode [] ≠ .ok f rest := by
  intro h
  have : (Frame.decode : Dec Bytes Frame) [] = _ := decode_short (by decide)
  exact absurd (this.symm.trans h) (by simp)

theorem reads_nil {fs : List Frame} (h : ReadsAs [] fs) : fs = [] := by
  cases fs with
  | nil => rfl
  | cons f fs => obtain ⟨rest, h, -⟩ := reads_cons h; exact absurd h (decode_nil f rest)

theorem toBytes_ne_nil {f : Frame} {b : Bytes} (hw : WellFormed f) (h : f.toBytes = .ok b) :
    b ≠ [] := by
  have h1 := toBytes_wellFormed hw
  have h2 := decode_layout hw
  rw [h] at h1; cases h1
  intro e; rw [e] at h2
  exact decode_nil _ _ h2

theorem fixedEnd_normalize {f : Frame} : FixedEnd (normalize f) ↔ FixedEnd f := by
  cases f <;> exact Iff.rfl

end Binate
