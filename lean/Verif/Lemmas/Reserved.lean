import Verif.Lemmas.Consume
import Verif.Spec.Reserved

/-! # Reserved bits do not influence `decode` -/

namespace Binate

open Spec

theorem getD_append (x y : Bytes) (i : Nat) :
    (x ++ y).getD i 0#8 = if i < x.length then x.getD i 0#8 else y.getD (i - x.length) 0#8 := by
  simp only [List.getD_eq_getElem?_getD]
  split
  · next h => rw [List.getElem?_append_left h]
  · next h => rw [List.getElem?_append_right (Nat.not_lt.1 h)]

theorem getD_default {x : Bytes} {i : Nat} (h : x.length ≤ i) : x.getD i 0#8 = 0#8 := by
  rw [List.getD_eq_getElem?_getD, List.getElem?_eq_none h]; rfl

theorem Spec.Agree.append {m : Nat → U8} {x y b' : Bytes} (h : Agree m (x ++ y) b') :
    ∃ x' y', b' = x' ++ y' ∧ Agree m x x' ∧ Agree (fun i => m (i + x.length)) y y' := by
  obtain ⟨hl, hb⟩ := h
  rw [List.length_append] at hl
  have h1 : (b'.take x.length).length = x.length := by rw [List.length_take]; omega
  refine ⟨b'.take x.length, b'.drop x.length, (List.take_append_drop _ _).symm,
    ⟨h1.symm, ?_⟩, ⟨by rw [List.length_drop]; omega, ?_⟩⟩
  · intro i
    by_cases hi : i < x.length
    · have := hb i
      rw [getD_append, if_pos hi, ← List.take_append_drop x.length b', getD_append,
        if_pos (by omega)] at this
      exact this
    · rw [getD_default (by omega), getD_default (by omega)]
  · intro i
    have := hb (i + x.length)
    rw [getD_append, if_neg (by omega), Nat.add_sub_cancel, ← List.take_append_drop x.length b',
      getD_append, if_neg (by omega), h1, Nat.add_sub_cancel] at this
    exact this

theorem Spec.Agree.eq {m : Nat → U8} {x x' : Bytes} (h : Agree m x x')
    (hm : ∀ i, i < x.length → m i = 0#8) : x' = x := by
  obtain ⟨hl, hb⟩ := h
  apply List.ext_getElem hl.symm
  intro i h1 h2
  have := hb i
  rw [hm i h2, BitVec.or_zero, BitVec.or_zero, List.getD_eq_getElem?_getD,
    List.getD_eq_getElem?_getD, List.getElem?_eq_getElem h1, List.getElem?_eq_getElem h2] at this
  exact this.symm

theorem Spec.Agree.symm {m : Nat → U8} {x x' : Bytes} (h : Agree m x x') : Agree m x' x :=
  ⟨h.1.symm, fun i => (h.2 i).symm⟩

theorem or_80 (a : U8) : (a ||| 0x80#8).toNat % 128 = a.toNat % 128 := by
  rw [BitVec.toNat_or, show (128 : Nat) = 2 ^ 7 from rfl, Nat.or_mod_two_pow]
  simp

theorem or_02_div : ∀ a : U8, (a ||| 0x02#8).toNat / 4 = a.toNat / 4 := by decide
theorem or_02_mod : ∀ a : U8, (a ||| 0x02#8).toNat % 2 = a.toNat % 2 := by decide
theorem or_0F : ∀ a : U8, (a ||| 0x0F#8).toNat / 16 = a.toNat / 16 := by decide

theorem Spec.Agree.num {m : Nat → U8} {k v : Nat} {x x' : Bytes} (h : Agree m x x')
    (hn : Num (k + 1) (8 * k + 7) v x) (h0 : m 0 = 0x80#8) (hm : ∀ i, i < k → m (i + 1) = 0#8) :
    Num (k + 1) (8 * k + 7) v x' := by
  obtain ⟨hl, rfl⟩ := hn
  refine ⟨h.1 ▸ hl, ?_⟩
  match x, hl with
  | a :: t, hl =>
  have ht : t.length = k := by simpa using hl
  obtain ⟨p, q, rfl, hp, hq⟩ := Spec.Agree.append (x := [a]) (y := t) h
  have hq' := hq.eq (fun i hi => by show m (i + 1) = 0#8; exact hm i (by omega))
  subst hq'
  match p, hp.1 with
  | [a'], _ =>
  have hb := hp.2 0
  simp only [List.getD_cons_zero, h0] at hb
  have hb : a.toNat % 128 = a'.toNat % 128 := by rw [← or_80 a, hb, or_80]
  show beVal (a :: q) % _ = beVal (a' :: q) % _
  simp only [beVal, ht]
  rw [show 2 ^ (8 * k + 7) = 128 * 256 ^ k by
    rw [Nat.pow_add, Nat.pow_mul, Nat.mul_comm]]
  have e : ∀ u : Nat, (u * 256 ^ k + beVal q) % (128 * 256 ^ k) =
      (u % 128) * 256 ^ k + beVal q := by
    intro u
    have hlt : beVal q < 256 ^ k := ht ▸ beVal_lt q
    have hu := Nat.div_add_mod u 128
    have h1 : u * 256 ^ k + beVal q =
        (128 * 256 ^ k) * (u / 128) + ((u % 128) * 256 ^ k + beVal q) := by
      conv => lhs; rw [← hu]
      rw [Nat.add_mul, Nat.mul_right_comm]; omega
    rw [h1, Nat.mul_add_mod, Nat.mod_eq_of_lt]
    have hm : u % 128 < 128 := Nat.mod_lt _ (by omega)
    calc (u % 128) * 256 ^ k + beVal q < (u % 128) * 256 ^ k + 256 ^ k := by omega
      _ = (u % 128 + 1) * 256 ^ k := by rw [Nat.add_mul, Nat.one_mul]
      _ ≤ 128 * 256 ^ k := Nat.mul_le_mul_right _ (by omega)
  rw [e, e, hb]

theorem reservedTop_lt {ty tok i : Nat} (h : i < 6) : reservedTop ty tok i = false := by
  unfold reservedTop
  split <;> simp <;> omega

theorem mask_zero {ty tok i : Nat} (h0 : i ≠ 0) (h4 : i ≠ 4) (h5 : i ≠ 5)
    (h : reservedTop ty tok i = false) : reservedMask ty tok i = 0#8 := by
  rw [reservedMask, if_neg h0, if_neg h4, if_neg h5, h]; rfl

theorem mask_top {ty tok i : Nat} (h6 : 6 ≤ i) (h : reservedTop ty tok i = true) :
    reservedMask ty tok i = 0x80#8 := by
  rw [reservedMask, if_neg (by omega), if_neg (by omega), if_neg (by omega), h]; rfl

theorem beVal_pair (a b : U8) : beVal [a, b] = a.toNat * 256 + b.toNat := by
  rw [beVal_two, toNat_append8]

theorem flagWord {a b a' b' t fl : Nat} (f0 : a / 4 = a' / 4) (f1 : a % 2 = a' % 2)
    (f2 : b / 16 = b' / 16) (_ : b < 256) (_ : b' < 256) (h2 : t = (a * 256 + b) / 1024)
    (h3 : fl = (a * 256 + b) / 16 % 32 * 16) :
    t = (a' * 256 + b') / 1024 ∧ fl = (a' * 256 + b') / 16 % 32 * 16 := by
  omega

theorem Spec.Agree.header {ty tok : Nat} {h h' : Bytes} {sid t fl : Nat}
    (ha : Agree (reservedMask ty tok) h h') (hh : Header h sid t fl) : Header h' sid t fl := by
  obtain ⟨s, w, rfl, hs, hw, h1, h2, h3⟩ := hh
  obtain ⟨s', w', rfl, hs', hw'⟩ := ha.append
  refine ⟨s', w', rfl, hs'.1 ▸ hs, hw'.1 ▸ hw, ?_, ?_⟩
  · exact (hs'.num (k := 3) ⟨hs, h1⟩ rfl (by
      intro i hi
      exact mask_zero (by omega) (by omega) (by omega) (reservedTop_lt (by omega)))).2
  · obtain ⟨hl, hb⟩ := hw'
    rw [hs] at hb
    match w, w', hw, hl with
    | [a, b], [a', b'], _, _ =>
    have e0 := hb 0
    have e1 := hb 1
    simp only [List.getD_cons_zero, List.getD_cons_succ] at e0 e1
    change a ||| 0x02#8 = a' ||| 0x02#8 at e0
    change b ||| 0x0F#8 = b' ||| 0x0F#8 at e1
    have f0 : a.toNat / 4 = a'.toNat / 4 := by rw [← or_02_div a, e0, or_02_div]
    have f1 : a.toNat % 2 = a'.toNat % 2 := by rw [← or_02_mod a, e0, or_02_mod]
    have f2 : b.toNat / 16 = b'.toNat / 16 := by rw [← or_0F b, e1, or_0F]
    rw [beVal_pair] at *
    exact flagWord f0 f1 f2 b.isLt b'.isLt h2 h3

/-- The masks that a body sees. -/
theorem body_agree {sid fl tok : Nat} {b b' rest : Bytes} {f : Frame} (h : Body sid fl b f rest)
    (ha : Agree (fun i => reservedMask (typeNumber f) tok (i + 6)) b b')
    (htok : ∀ v, f = .resume v → tok = v.resumeToken.length) :
    Body sid fl b' f rest := by
  cases h with
  | @setup _ vb ib tb kb mb db pb v h1 h2 h3 h4 h5 h6 h7 h8 =>
    have l2 := ver_length h2
    have l3 := num_length h3
    have l4 := num_length h4
    rw [show vb ++ ib ++ tb ++ kb ++ mb ++ db ++ pb = vb ++ (ib ++ (tb ++ (kb ++ mb ++ db ++ pb)))
      by simp] at ha
    obtain ⟨x1, y1, rfl, a1, ha⟩ := ha.append
    obtain ⟨x2, y2, rfl, a2, ha⟩ := ha.append
    obtain ⟨x3, y3, rfl, a3, ha⟩ := ha.append
    rw [l2] at a2 a3 ha
    rw [l3] at a3 ha
    rw [l4] at ha
    have e1 := a1.eq (fun i hi => mask_zero (by omega) (by omega) (by omega)
      (by simp [reservedTop, typeNumber]; omega))
    have e3 := ha.eq (fun i hi => mask_zero (by omega) (by omega) (by omega)
      (by simp [reservedTop, typeNumber]))
    subst e1 e3
    have n2 := a2.num (k := 3) h3 (mask_top (by omega) (by simp [reservedTop, typeNumber]))
      (fun i hi => mask_zero (by omega) (by omega) (by omega)
        (by simp [reservedTop, typeNumber]; omega))
    have n3 := a3.num (k := 3) h4 (mask_top (by omega) (by simp [reservedTop, typeNumber]))
      (fun i hi => mask_zero (by omega) (by omega) (by omega)
        (by simp [reservedTop, typeNumber]))
    have := Body.setup h1 h2 n2 n3 h5 h6 h7 h8
    simpa using this
  | @lease _ tb nb mb v h1 h2 h3 =>
    have l1 := num_length h1
    have l2 := num_length h2
    rw [List.append_assoc] at ha
    obtain ⟨x1, y1, rfl, a1, ha⟩ := ha.append
    obtain ⟨x2, y2, rfl, a2, ha⟩ := ha.append
    rw [l1] at a2 ha
    rw [l2] at ha
    have e3 := ha.eq (fun i hi => mask_zero (by omega) (by omega) (by omega)
      (by simp [reservedTop, typeNumber]))
    subst e3
    have n1 := a1.num (k := 3) h1 (mask_top (by omega) (by simp [reservedTop, typeNumber]))
      (fun i hi => mask_zero (by omega) (by omega) (by omega)
        (by simp [reservedTop, typeNumber]; omega))
    have n2 := a2.num (k := 3) h2 (mask_top (by omega) (by simp [reservedTop, typeNumber]))
      (fun i hi => mask_zero (by omega) (by omega) (by omega)
        (by simp [reservedTop, typeNumber]))
    have := Body.lease (fl := fl) n1 n2 h3
    simpa using this
  | @keepalive _ pb db v h1 h2 h3 =>
    have l1 := num_length h2
    obtain ⟨x1, y1, rfl, a1, ha⟩ := ha.append
    rw [l1] at ha
    have e3 := ha.eq (fun i hi => mask_zero (by omega) (by omega) (by omega)
      (by simp [reservedTop, typeNumber]))
    subst e3
    have n1 := a1.num (k := 7) h2 (mask_top (by omega) (by simp [reservedTop, typeNumber]))
      (fun i hi => mask_zero (by omega) (by omega) (by omega)
        (by simp [reservedTop, typeNumber]))
    exact .keepalive h1 n1 h3
  | @requestStream _ _ nb pb v h1 h2 h3 h4 =>
    have l1 := num_length h3
    obtain ⟨x1, y1, rfl, a1, ha⟩ := ha.append
    rw [l1] at ha
    have e3 := ha.eq (fun i hi => mask_zero (by omega) (by omega) (by omega)
      (by simp [reservedTop, typeNumber]))
    subst e3
    have n1 := a1.num (k := 3) h3 (mask_top (by omega) (by simp [reservedTop, typeNumber]))
      (fun i hi => mask_zero (by omega) (by omega) (by omega)
        (by simp [reservedTop, typeNumber]))
    exact .requestStream h1 h2 n1 h4
  | @requestChannel _ _ nb pb v h1 h2 h3 h4 =>
    have l1 := num_length h3
    obtain ⟨x1, y1, rfl, a1, ha⟩ := ha.append
    rw [l1] at ha
    have e3 := ha.eq (fun i hi => mask_zero (by omega) (by omega) (by omega)
      (by simp [reservedTop, typeNumber]))
    subst e3
    have n1 := a1.num (k := 3) h3 (mask_top (by omega) (by simp [reservedTop, typeNumber]))
      (fun i hi => mask_zero (by omega) (by omega) (by omega)
        (by simp [reservedTop, typeNumber]))
    exact .requestChannel h1 h2 n1 h4
  | @requestN _ _ nb _ v h1 h2 =>
    have l1 := num_length h2
    obtain ⟨x1, y1, rfl, a1, ha⟩ := ha.append
    rw [l1] at ha
    have e3 := ha.eq (fun i hi => mask_zero (by omega) (by omega) (by omega)
      (by simp [reservedTop, typeNumber]))
    subst e3
    have n1 := a1.num (k := 3) h2 (mask_top (by omega) (by simp [reservedTop, typeNumber]))
      (fun i hi => mask_zero (by omega) (by omega) (by omega)
        (by simp [reservedTop, typeNumber]))
    exact .requestN h1 n1
  | @resumeOk _ pb _ v h1 =>
    have l1 := num_length h1
    obtain ⟨x1, y1, rfl, a1, ha⟩ := ha.append
    rw [l1] at ha
    have e3 := ha.eq (fun i hi => mask_zero (by omega) (by omega) (by omega)
      (by simp [reservedTop, typeNumber]))
    subst e3
    have n1 := a1.num (k := 7) h1 (mask_top (by omega) (by simp [reservedTop, typeNumber]))
      (fun i hi => mask_zero (by omega) (by omega) (by omega)
        (by simp [reservedTop, typeNumber]))
    exact .resumeOk n1
  | @resume _ vb kb sb cb _ v h1 h2 h3 h4 =>
    have ht := htok v rfl
    subst ht
    have l1 := ver_length h1
    have l2 := h2.length
    have l3 := num_length h3
    have l4 := num_length h4
    rw [show vb ++ kb ++ sb ++ cb ++ rest = (vb ++ kb) ++ (sb ++ (cb ++ rest)) by simp] at ha
    obtain ⟨x1, y1, rfl, a1, ha⟩ := ha.append
    obtain ⟨x2, y2, rfl, a2, ha⟩ := ha.append
    obtain ⟨x3, y3, rfl, a3, ha⟩ := ha.append
    have l12 : (vb ++ kb).length = 6 + v.resumeToken.length := by
      rw [List.length_append, l1, l2]; omega
    rw [l12] at a2 a3 ha
    rw [l3] at a3 ha
    rw [l4] at ha
    have e1 := a1.eq (fun i hi => mask_zero (by omega) (by omega) (by omega)
      (by simp [reservedTop, typeNumber]; omega))
    have e3 := ha.eq (fun i hi => mask_zero (by omega) (by omega) (by omega)
      (by simp [reservedTop, typeNumber]; omega))
    subst e1 e3
    have n2 := a2.num (k := 7) h3
      (mask_top (by omega) (by simp [reservedTop, typeNumber]; omega))
      (fun i hi => mask_zero (by omega) (by omega) (by omega)
        (by simp [reservedTop, typeNumber]; omega))
    have n3 := a3.num (k := 7) h4
      (mask_top (by omega) (by simp [reservedTop, typeNumber]; omega))
      (fun i hi => mask_zero (by omega) (by omega) (by omega)
        (by simp [reservedTop, typeNumber]; omega))
    have := Body.resume (fl := fl) (rest := y3) h1 h2 n2 n3
    simpa using this
  | requestResponse h1 h2 h3 =>
    have e := ha.eq (fun i hi => mask_zero (by omega) (by omega) (by omega) rfl)
    subst e; exact .requestResponse h1 h2 h3
  | requestFnf h1 h2 h3 =>
    have e := ha.eq (fun i hi => mask_zero (by omega) (by omega) (by omega) rfl)
    subst e; exact .requestFnf h1 h2 h3
  | cancel h1 =>
    have e := ha.eq (fun i hi => mask_zero (by omega) (by omega) (by omega) rfl)
    subst e; exact .cancel h1
  | payload h1 h2 h3 =>
    have e := ha.eq (fun i hi => mask_zero (by omega) (by omega) (by omega) rfl)
    subst e; exact .payload h1 h2 h3
  | error h1 h2 h3 h4 h5 =>
    have e := ha.eq (fun i hi => mask_zero (by omega) (by omega) (by omega) rfl)
    subst e; exact .error h1 h2 h3 h4 h5
  | metadataPush h1 =>
    have e := ha.eq (fun i hi => mask_zero (by omega) (by omega) (by omega) rfl)
    subst e; exact .metadataPush h1

theorem byteAt_append_right (x y : Bytes) (i : Nat) : byteAt (x ++ y) (x.length + i) = byteAt y i := by
  unfold byteAt
  rw [getD_append, if_neg (by omega), Nat.add_sub_cancel_left]

theorem resume_tok {b rest : Bytes} {v : ResumeFrame} (h : Parses b (.resume v) rest) :
    u16At b 10 = v.resumeToken.length := by
  obtain ⟨hd, body, sid, fl, rfl, hh, hb⟩ := h
  cases hb with
  | @resume _ vb kb sb cb _ _ h1 h2 h3 h4 =>
    obtain ⟨l, rfl, hl, he⟩ := h2
    have l1 := ver_length h1
    have l6 := header_six hh
    match l, hl with
    | [p, q], _ =>
    rw [beVal_pair] at he
    have e : hd ++ (vb ++ ([p, q] ++ v.resumeToken) ++ sb ++ cb ++ rest) =
        (hd ++ vb) ++ (p :: q :: (v.resumeToken ++ sb ++ cb ++ rest)) := by simp
    have l10 : (hd ++ vb).length = 10 := by rw [List.length_append, l1, l6]
    rw [e, ← he, u16At]
    have b0 := byteAt_append_right (hd ++ vb) (p :: q :: (v.resumeToken ++ sb ++ cb ++ rest)) 0
    have b1 := byteAt_append_right (hd ++ vb) (p :: q :: (v.resumeToken ++ sb ++ cb ++ rest)) 1
    rw [l10] at b0 b1
    rw [b0, b1]
    rfl

theorem parses_agree {b b' rest : Bytes} {f : Frame} (h : Parses b f rest)
    (ha : AgreeExceptReserved b b') : Parses b' f rest := by
  have ht := (parses_typeOf h).2
  have htok : ∀ v, f = .resume v → u16At b 10 = v.resumeToken.length := by
    rintro v rfl; exact resume_tok h
  unfold AgreeExceptReserved at ha
  rw [ht] at ha
  generalize u16At b 10 = tok at *
  obtain ⟨hd, body, sid, fl, rfl, hh, hb⟩ := h
  obtain ⟨x, y, rfl, a1, a2⟩ := ha.append
  rw [header_six hh] at a2
  exact ⟨x, y, sid, fl, rfl, a1.header hh, body_agree hb a2 htok⟩

theorem agree_header {b b' : Bytes} {ty tok : Nat} (h : Agree (reservedMask ty tok) b b')
    (h6 : 6 ≤ b.length) : typeOf b' = typeOf b ∧ streamIdOf b' = streamIdOf b := by
  have hb := List.take_append_drop 6 b
  rw [← hb] at h
  obtain ⟨x, y, rfl, a1, a2⟩ := h.append
  have l : (b.take 6).length = 6 := by rw [List.length_take]; omega
  have hh : Header (b.take 6) (streamIdOf b) (typeOf b)
      (beVal ((b.take 6).drop 4) / 16 % 32 * 16) := by
    obtain ⟨c0, c1, c2, c3, c4, c5, r, rfl⟩ := exists_six h6
    refine ⟨[c0, c1, c2, c3], [c4, c5], rfl, rfl, rfl, ?_, ?_, rfl⟩
    · rw [streamIdOf_cons, and_max31, beVal_four]
    · rw [typeOf_cons, beVal_two]
  exact header_fields (a1.header hh)

theorem byteAt_agree {b b' : Bytes} {m : Nat → U8} (h : Agree m b b') {i : Nat} (hm : m i = 0#8) :
    byteAt b' i = byteAt b i := by
  have := h.2 i
  rw [hm, BitVec.or_zero, BitVec.or_zero] at this
  unfold byteAt; rw [this]

theorem reservedTop_tok {ty : Nat} (h : ty ≠ 13) (t t' i : Nat) :
    reservedTop ty t i = reservedTop ty t' i := by
  unfold reservedTop
  split <;> first | rfl | exact absurd rfl h

theorem agree_reserved_symm {b b' : Bytes} (h : AgreeExceptReserved b b') (h6 : 6 ≤ b.length) :
    AgreeExceptReserved b' b := by
  have ht := (agree_header h h6).1
  unfold AgreeExceptReserved
  rw [ht]
  by_cases h13 : typeOf b = 13
  · have hm : ∀ i, i = 10 ∨ i = 11 → reservedMask (typeOf b) (u16At b 10) i = 0#8 := by
      intro i hi
      refine mask_zero (by omega) (by omega) (by omega) ?_
      rw [h13]; simp [reservedTop]; omega
    have e : u16At b' 10 = u16At b 10 := by
      unfold u16At
      rw [byteAt_agree h (hm 10 (by omega)), byteAt_agree h (hm 11 (by omega))]
    rw [e]; exact h.symm
  · have e : reservedMask (typeOf b) (u16At b' 10) = reservedMask (typeOf b) (u16At b 10) := by
      funext i
      unfold reservedMask
      rw [reservedTop_tok h13 (u16At b' 10) (u16At b 10)]
    rw [e]; exact h.symm

theorem codeOf_agree {b b' : Bytes} (h : AgreeExceptReserved b b') (h11 : typeOf b = 11) :
    codeOf b' = codeOf b := by
  have hm : ∀ i, 6 ≤ i → reservedMask (typeOf b) (u16At b 10) i = 0#8 := by
    intro i hi
    refine mask_zero (by omega) (by omega) (by omega) ?_
    rw [h11]; rfl
  unfold codeOf
  rw [byteAt_agree h (hm 6 (by omega)), byteAt_agree h (hm 7 (by omega)),
    byteAt_agree h (hm 8 (by omega)), byteAt_agree h (hm 9 (by omega))]

theorem beVal_quad (a b c d : U8) :
    beVal [a, b, c, d] = a.toNat * 16777216 + b.toNat * 65536 + c.toNat * 256 + d.toNat := by
  rw [beVal_four]
  simp only [toNat_append8]
  omega

theorem codeOf_append {hd cb db : Bytes} (h6 : hd.length = 6) (h4 : cb.length = 4) :
    codeOf (hd ++ (cb ++ db)) = beVal cb := by
  match cb, h4 with
  | [c0, c1, c2, c3], _ =>
  have b6 := byteAt_append_right hd ([c0, c1, c2, c3] ++ db) 0
  have b7 := byteAt_append_right hd ([c0, c1, c2, c3] ++ db) 1
  have b8 := byteAt_append_right hd ([c0, c1, c2, c3] ++ db) 2
  have b9 := byteAt_append_right hd ([c0, c1, c2, c3] ++ db) 3
  rw [h6] at b6 b7 b8 b9
  rw [codeOf, b6, b7, b8, b9, beVal_quad]
  simp only [byteAt, List.cons_append, List.getD_cons_succ, List.getD_cons_zero]

end Binate
