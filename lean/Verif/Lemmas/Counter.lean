import Verif.Spec.Counter

/-! # Helper lemmas on the request counter -/

namespace Binate

open Spec RequestCounter

theorem toInt_wrap (w : U32) : w.toInt = wrap32 w.toNat := by
  have := w.isLt
  unfold wrap32
  rw [BitVec.toInt_eq_toNat_cond]
  split <;> omega

theorem wrap32_congr {i j : Int} (h : (i - j) % 2 ^ 32 = 0) : wrap32 i = wrap32 j := by
  unfold wrap32
  omega

theorem wrap32_id {i : Int} (h1 : -2 ^ 31 ≤ i) (h2 : i < 2 ^ 31) : wrap32 i = i := by
  unfold wrap32; omega

theorem wrap32_diff (i : Int) : (wrap32 i - i) % 2 ^ 32 = 0 := by
  unfold wrap32; omega

theorem load_new (n : U32) : (RequestCounter.new n).load = n.toNat % 2 ^ 31 := by
  have e : (n &&& COUNTER_MASK).toNat = n.toNat % 2 ^ 31 := by
    rw [BitVec.toNat_and, show COUNTER_MASK.toNat = 2 ^ 31 - 1 from rfl, Nat.and_two_pow_sub_one_eq_mod]
  rw [load, new, toInt_wrap, e, wrap32_id (by omega) (by omega)]
  omega

theorem load_dec (c : RequestCounter) : (c.dec.2).load = wrap32 (c.load - 1) := by
  have h : (c.dec.2).load = wrap32 (c.word - 1#32 : U32).toNat := toInt_wrap _
  rw [h, load, toInt_wrap]
  apply wrap32_congr
  have := wrap32_diff c.word.toNat
  rw [BitVec.toNat_sub]
  have := c.word.isLt
  simp only [show (1#32).toNat = 1 from rfl]
  omega

theorem load_add (c : RequestCounter) (n : U32) : (c.add n).load = wrap32 (c.load + n.toNat) := by
  have h : (c.add n).load = wrap32 (c.word + n : U32).toNat := toInt_wrap _
  rw [h, load, toInt_wrap]
  apply wrap32_congr
  have := wrap32_diff c.word.toNat
  rw [BitVec.toNat_add]
  omega

theorem isZero_load (c : RequestCounter) : c.isZero = (c.load == 0) := by
  rw [Bool.eq_iff_iff, isZero, beq_iff_eq, beq_iff_eq, load]
  constructor
  · intro h; rw [h]; rfl
  · intro h
    apply BitVec.eq_of_toInt_eq
    rw [h]; rfl

theorem wrap32_add (i j : Int) : wrap32 (wrap32 i + j) = wrap32 (i + j) := by
  apply wrap32_congr
  have := wrap32_diff i
  omega

theorem step_load (c : RequestCounter) (op : Op) :
    (c.step op).2.load = wrap32 (c.load + net [op]) ∧ (c.step op).1 = expected c.load op := by
  have hw : c.load = wrap32 c.load := by
    rw [load, toInt_wrap]; exact (wrap32_congr (wrap32_diff _)).symm
  cases op with
  | dec => exact ⟨load_dec c, rfl⟩
  | add n =>
    refine ⟨?_, rfl⟩
    rw [show (c.step (.add n)).2 = c.add n from rfl, load_add]
    congr 1
  | load => exact ⟨by rw [show net [Op.load] = 0 from rfl, Int.add_zero]; exact hw, rfl⟩
  | isZero =>
    refine ⟨by rw [show net [Op.isZero] = 0 from rfl, Int.add_zero]; exact hw, ?_⟩
    show Ret.bool c.isZero = _
    rw [isZero_load]; rfl

theorem net_cons (op : Op) (ops : List Op) : net (op :: ops) = net [op] + net ops := by
  simp only [net, totalAdded, decs, List.map_cons, List.sum_cons, List.map_nil, List.sum_nil,
    List.countP_cons, List.countP_nil, Int.natCast_add, Nat.add_zero, Nat.zero_add]
  omega

theorem net_append (xs ys : List Op) : net (xs ++ ys) = net xs + net ys := by
  induction xs with
  | nil => simp [net, totalAdded, decs]
  | cons x xs ih => rw [List.cons_append, net_cons, ih, net_cons x xs]; omega

theorem load_wrapped (c : RequestCounter) : wrap32 c.load = c.load := by
  rw [load, toInt_wrap]; exact wrap32_congr (wrap32_diff _)

theorem exec_load (c : RequestCounter) (ops : List Op) :
    (c.exec ops).2.load = wrap32 (c.load + net ops) := by
  induction ops generalizing c with
  | nil =>
    rw [show net [] = 0 from rfl, Int.add_zero, load_wrapped]; rfl
  | cons op ops ih =>
    show ((c.step op).2.exec ops).2.load = _
    rw [ih, (step_load c op).1, wrap32_add, net_cons op ops, Int.add_assoc]

theorem exec_log (c : RequestCounter) (ops : List Op) :
    (c.exec ops).1.length = ops.length ∧
      ∀ i (h : i < ops.length), (c.exec ops).1[i]? =
        some (ops[i], expected (wrap32 (c.load + net (ops.take i))) ops[i]) := by
  induction ops generalizing c with
  | nil => exact ⟨rfl, fun i h => absurd h (Nat.not_lt_zero _)⟩
  | cons op ops ih =>
    have e : (c.exec (op :: ops)).1 = (op, (c.step op).1) :: ((c.step op).2.exec ops).1 := rfl
    obtain ⟨h1, h2⟩ := ih (c.step op).2
    rw [e]
    refine ⟨by rw [List.length_cons, List.length_cons, h1], ?_⟩
    intro i h
    cases i with
    | zero =>
      rw [List.getElem?_cons_zero, List.take_zero, show net [] = 0 from rfl, Int.add_zero,
        load_wrapped, (step_load c op).2]
      rfl
    | succ i =>
      rw [List.getElem?_cons_succ, h2 i (Nat.lt_of_succ_lt_succ h), List.take_succ_cons,
        (step_load c op).1, wrap32_add, net_cons op (ops.take i), Int.add_assoc]
      rfl

/-- As long as nothing wraps, the granted decs are covered by permits. -/
theorem granted_le (c : RequestCounter) (ops : List Op) (h1 : c.load + totalAdded ops < 2 ^ 31)
    (h2 : -2 ^ 31 ≤ c.load - decs ops) :
    ((c.exec ops).1.countP granted : Int) ≤ max c.load 0 + totalAdded ops := by
  induction ops generalizing c with
  | nil =>
    show ((0 : Nat) : Int) ≤ _
    have : totalAdded [] = 0 := rfl
    omega
  | cons op ops ih =>
    have e : (c.exec (op :: ops)).1 = (op, (c.step op).1) :: ((c.step op).2.exec ops).1 := rfl
    have s := step_load c op
    have e1 : totalAdded (op :: ops) = added op + totalAdded ops := by
      simp [totalAdded]
    have e2 : decs (op :: ops) = decs ops + (if isDec op then 1 else 0) := by
      simp [decs, List.countP_cons]
    have hl : (c.step op).2.load = c.load + net [op] := by
      rw [s.1]
      apply wrap32_id <;> cases op <;>
        simp only [net, totalAdded, decs, added, isDec, List.map_cons, List.map_nil, List.sum_cons,
          List.sum_nil, List.countP_cons, List.countP_nil, if_true, if_false, Bool.false_eq_true]
          at * <;> omega
    have ih' := ih (c.step op).2 (by
        rw [hl]; cases op <;>
        simp only [net, totalAdded, decs, added, isDec, List.map_cons, List.map_nil, List.sum_cons,
          List.sum_nil, List.countP_cons, List.countP_nil, if_true, if_false, Bool.false_eq_true]
          at * <;> omega) (by
        rw [hl]; cases op <;>
        simp only [net, totalAdded, decs, added, isDec, List.map_cons, List.map_nil, List.sum_cons,
          List.sum_nil, List.countP_cons, List.countP_nil, if_true, if_false, Bool.false_eq_true]
          at * <;> omega)
    rw [e, List.countP_cons, s.2]
    rw [hl] at ih'
    rw [e1]
    cases op with
    | dec =>
      simp only [expected, granted, decide_eq_true_eq]
      simp only [net, totalAdded, decs, added, isDec, List.map_cons, List.map_nil, List.sum_cons,
          List.sum_nil, List.countP_cons, List.countP_nil, if_true] at ih' ⊢
      split <;> omega
    | add n =>
      simp only [granted, Bool.false_eq_true, if_false]
      simp only [net, totalAdded, decs, added, isDec, List.map_cons, List.map_nil, List.sum_cons,
          List.sum_nil, List.countP_cons, List.countP_nil, if_false, Bool.false_eq_true] at ih' ⊢
      omega
    | load =>
      simp only [granted, Bool.false_eq_true, if_false]
      simp only [net, totalAdded, decs, added, isDec, List.map_cons, List.map_nil, List.sum_cons,
          List.sum_nil, List.countP_cons, List.countP_nil, if_false, Bool.false_eq_true] at ih' ⊢
      omega
    | isZero =>
      simp only [granted, Bool.false_eq_true, if_false]
      simp only [net, totalAdded, decs, added, isDec, List.map_cons, List.map_nil, List.sum_cons,
          List.sum_nil, List.countP_cons, List.countP_nil, if_false, Bool.false_eq_true] at ih' ⊢
      omega

theorem exec_append (c : RequestCounter) (xs ys : List Op) :
    (c.exec (xs ++ ys)).1 = (c.exec xs).1 ++ ((c.exec xs).2.exec ys).1 := by
  induction xs generalizing c with
  | nil => rfl
  | cons x xs ih =>
    show (x, (c.step x).1) :: ((c.step x).2.exec (xs ++ ys)).1 = _
    rw [ih]
    rfl

theorem granted_le_decs (c : RequestCounter) (ops : List Op) :
    (c.exec ops).1.countP granted ≤ decs ops := by
  induction ops generalizing c with
  | nil => exact Nat.le_refl 0
  | cons op ops ih =>
    have e : (c.exec (op :: ops)).1 = (op, (c.step op).1) :: ((c.step op).2.exec ops).1 := rfl
    have := ih (c.step op).2
    rw [e, List.countP_cons, decs, List.countP_cons]
    rw [decs] at this
    cases op with
    | dec =>
      simp only [isDec, if_true]
      split <;> omega
    | add n => simpa [granted, isDec] using this
    | load => simpa [granted, isDec] using this
    | isZero => simpa [granted, isDec] using this

theorem last_dec {ops : List Op} (h : 0 < decs ops) :
    ∃ xs ys, ops = xs ++ .dec :: ys ∧ decs ys = 0 := by
  induction ops with
  | nil => exact absurd h (by simp [decs])
  | cons op ops ih =>
    by_cases h' : 0 < decs ops
    · obtain ⟨xs, ys, e, h0⟩ := ih h'
      exact ⟨op :: xs, ys, by rw [e]; rfl, h0⟩
    · cases op with
      | dec => exact ⟨[], ops, rfl, by omega⟩
      | add n => exact absurd h (by simpa [decs, isDec] using h')
      | load => exact absurd h (by simpa [decs, isDec] using h')
      | isZero => exact absurd h (by simpa [decs, isDec] using h')

/-- `granted_le` with one more `dec`: the last one may wrap the counter, which nobody sees. -/
theorem granted_le' (c : RequestCounter) (ops : List Op) (h1 : c.load + totalAdded ops < 2 ^ 31)
    (h2 : -2 ^ 31 ≤ c.load - decs ops + 1) :
    ((c.exec ops).1.countP granted : Int) ≤ max c.load 0 + totalAdded ops := by
  by_cases hd : 0 < decs ops
  · obtain ⟨xs, ys, e, h0⟩ := last_dec hd
    subst e
    have d1 : decs (xs ++ .dec :: ys) = decs xs + 1 + decs ys := by
      simp only [decs, List.countP_append, List.countP_cons, isDec, if_true]
      omega
    have a1 : totalAdded (xs ++ .dec :: ys) = totalAdded xs + totalAdded ys := by
      simp [totalAdded, added]
    rw [d1] at h2
    rw [a1] at h1 ⊢
    have g1 := granted_le c xs (by omega) (by omega)
    have g2 := granted_le_decs c xs
    have g3 := granted_le_decs ((c.exec xs).2.step .dec).2 ys
    have hl : (c.exec xs).2.load = c.load + (totalAdded xs - decs xs) := by
      rw [exec_load, wrap32_id] <;> unfold net <;> omega
    rw [exec_append]
    show ((List.countP granted ((c.exec xs).1 ++ (Op.dec, ((c.exec xs).2.step .dec).1) ::
      (((c.exec xs).2.step .dec).2.exec ys).1) : Nat) : Int) ≤ _
    rw [List.countP_append, List.countP_cons, (step_load _ .dec).2]
    simp only [expected, granted, decide_eq_true_eq, hl]
    split <;> omega
  · exact granted_le c ops h1 (by
      have := load_wrapped c
      unfold wrap32 at this
      omega)

theorem dec_log' (c : RequestCounter) (n i : Nat) (hi : i < n) :
    (c.exec (List.replicate n Op.dec)).1[i]? =
      some (.dec, .int (wrap32 (c.load - (i : Int)))) := by
  have h := (exec_log c (List.replicate n Op.dec)).2 i
    (by rw [List.length_replicate]; exact hi)
  rw [h, List.getElem_replicate, List.take_replicate, Nat.min_eq_left (Nat.le_of_lt hi)]
  have : net (List.replicate i Op.dec) = -(i : Int) := by
    simp only [net, totalAdded, decs, List.map_replicate, added, List.countP_replicate, isDec]
    simp
  rw [this]
  simp only [expected]
  rfl

/-- Without overdraw and wrap-around the counter shows the available permits. -/
theorem available_load (c : RequestCounter) (a : Nat) (ops : List Op) (h0 : c.load = a)
    (h1 : NoOverdraw a ops) (h2 : a + totalAdded ops < 2 ^ 31) :
    (c.exec ops).2.load = available a ops := by
  induction ops generalizing c a with
  | nil => exact h0
  | cons op ops ih =>
    show ((c.step op).2.exec ops).2.load = _
    have s := (step_load c op).1
    have e1 : totalAdded (op :: ops) = added op + totalAdded ops := by simp [totalAdded]
    rw [e1] at h2
    cases op with
    | dec =>
      obtain ⟨hp, hn⟩ := h1
      refine ih _ (a - 1) ?_ hn (by simp only [added] at h2; omega)
      rw [s, h0]
      have : net [Op.dec] = -1 := rfl
      rw [this, wrap32_id] <;> omega
    | add n =>
      refine ih _ (a + n.toNat) ?_ h1 (by simp only [added] at h2; omega)
      rw [s, h0]
      have : net [Op.add n] = n.toNat := by simp [net, totalAdded, added, decs, isDec]
      simp only [added] at h2
      rw [this, wrap32_id] <;> omega
    | load =>
      refine ih _ a ?_ h1 (by simp only [added] at h2; omega)
      exact h0
    | isZero =>
      refine ih _ a ?_ h1 (by simp only [added] at h2; omega)
      exact h0

theorem dec_log (n i : Nat) (hi : i < n) :
    ((RequestCounter.new 0#32).exec (List.replicate n Op.dec)).1[i]? =
      some (.dec, .int (wrap32 (-(i : Int)))) := by
  have h := (exec_log (RequestCounter.new 0#32) (List.replicate n Op.dec)).2 i
    (by rw [List.length_replicate]; exact hi)
  rw [h, List.getElem_replicate, List.take_replicate, Nat.min_eq_left (Nat.le_of_lt hi), load_new]
  have : net (List.replicate i Op.dec) = -(i : Int) := by
    simp only [net, totalAdded, decs, List.map_replicate, added, List.countP_replicate, isDec]
    simp
  rw [this]
  simp [expected]

end Binate
