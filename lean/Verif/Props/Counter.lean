import Verif.Lemmas.Counter

/-! # Properties of the request counter

C44–C46. -/

namespace Binate

open Spec RequestCounter

/-! ## C44 -/

/-- **C44.** After any operations by any threads, in the order in which they take effect, the
counter is exactly initial + added − taken, reduced to an `i32`. -/
theorem C44_exact (c : RequestCounter) (ops : List Op) :
    (c.exec ops).2.load = wrap32 (c.load + net ops) := exec_load c ops

/-- **C44**, the results: every operation returns what the exact balance of the operations before
it says. -/
theorem C44_results (c : RequestCounter) (ops : List Op) :
    (c.exec ops).1.length = ops.length ∧
      ∀ i (h : i < ops.length), (c.exec ops).1[i]? =
        some (ops[i], expected (wrap32 (c.load + net (ops.take i))) ops[i]) := exec_log c ops

/-- **C44**, the final value does not depend on the interleaving. -/
theorem C44_interleaving (c : RequestCounter) {ops ops' : List Op} (h : ops.Perm ops') :
    (c.exec ops).2 = (c.exec ops').2 := by
  have hn : net ops = net ops' := by
    unfold net totalAdded decs
    rw [(h.map added).sum_nat, h.countP_eq]
  have : (c.exec ops).2.load = (c.exec ops').2.load := by rw [exec_load, exec_load, hn]
  exact congrArg RequestCounter.mk (BitVec.eq_of_toInt_eq this)

/-- **C44**, a new counter holds the permits it was given (31 bits of them). -/
theorem C44_initial (n : U32) : (RequestCounter.new n).load = n.toNat % 2 ^ 31 := load_new n

example : ((RequestCounter.new 2#32).exec [.dec, .isZero, .add 3#32, .dec, .load]).1 =
    [(.dec, .int 2), (.isZero, .bool false), (.add 3#32, .unit), (.dec, .int 4), (.load, .int 3)] := by
  decide

/-! ## C45 -/

/-- **C45**, as long as there are at most 2^31 + 1 more `dec` calls than initial permits: the number
of `dec` calls that were told there was a permit never exceeds the permits granted so far. Stated
for every execution, hence for every prefix of an execution. -/
theorem C45_no_over_grant_partial (n : U32) (ops : List Op)
    (h1 : n.toNat % 2 ^ 31 + totalAdded ops < 2 ^ 31)
    (h2 : decs ops ≤ n.toNat % 2 ^ 31 + 2 ^ 31 + 1) :
    ((RequestCounter.new n).exec ops).1.countP granted ≤ n.toNat % 2 ^ 31 + totalAdded ops := by
  have e := load_new n
  have := granted_le' (RequestCounter.new n) ops (by rw [e]; omega) (by rw [e]; omega)
  rw [e] at this
  omega

/-- **C45**, that bound is the best possible, whatever the number of initial permits: one more `dec`
can be granted without a permit. -/
theorem C45_sharp (n : U32) :
    ∃ ops, totalAdded ops = 0 ∧ decs ops = n.toNat % 2 ^ 31 + 2 ^ 31 + 2 ∧
      n.toNat % 2 ^ 31 < ((RequestCounter.new n).exec ops).1.countP granted := by
  have hp : n.toNat % 2 ^ 31 < 2 ^ 31 := Nat.mod_lt _ (by decide)
  have hl : (RequestCounter.new n).load = ((n.toNat % 2 ^ 31 : Nat) : Int) := by
    rw [load_new]; rfl
  have hd : ∀ k : Nat, decs (List.replicate k Op.dec) = k := fun k => by
    simp [decs, List.countP_replicate, show isDec .dec = true from rfl]
  have ha : ∀ k : Nat, totalAdded (List.replicate k Op.dec) = 0 := fun k => by
    simp [totalAdded, added]
  generalize n.toNat % 2 ^ 31 = p at hp hl
  generalize RequestCounter.new n = c at hl
  refine ⟨List.replicate (p + (2 ^ 31 + 2)) .dec, ha _, by rw [hd], ?_⟩
  rw [← List.replicate_append_replicate, exec_append, List.countP_append]
  have h1 : (c.exec (List.replicate p .dec)).1.countP granted = p := by
    have hn := (exec_log c (List.replicate p .dec)).1
    rw [List.length_replicate] at hn
    conv => rhs; rw [← hn]
    rw [List.countP_eq_length]
    intro x hx
    obtain ⟨i, hi, e⟩ := List.getElem_of_mem hx
    have := dec_log' c p i (by omega)
    rw [List.getElem?_eq_getElem hi, e] at this
    cases this
    have : 0 < wrap32 (c.load - (i : Int)) := by
      rw [hl, wrap32_id] <;> omega
    simpa [granted] using this
  have h2 : 0 < ((c.exec (List.replicate p .dec)).2.exec
      (List.replicate (2 ^ 31 + 2) .dec)).1.countP granted := by
    have hz : (c.exec (List.replicate p .dec)).2.load = 0 := by
      rw [exec_load]
      have : net (List.replicate p Op.dec) = -(p : Int) := by
        rw [net, ha, hd]; omega
      rw [this, hl, Int.add_right_neg]
      rfl
    generalize (c.exec (List.replicate p .dec)).2 = d at hz
    rw [List.countP_pos_iff]
    refine ⟨_, List.mem_of_getElem? (dec_log' d (2 ^ 31 + 2) (2 ^ 31 + 1) (by omega)), ?_⟩
    rw [hz]
    have : ∀ i : Nat, i = 2 ^ 31 + 1 → 0 < wrap32 (0 - (i : Int)) := by
      intro i hi
      unfold wrap32
      omega
    simp only [granted, decide_eq_true_eq]
    exact this _ rfl
  omega

/-- **C45** is false without a bound on the number of `dec` calls: 2^31 + 2 of them on a counter
without permits wrap it around to a positive value, and one of them is told there is a permit. -/
theorem C45_no_over_grant_false :
    ¬ ∀ (n : U32) (ops : List Op), n.toNat % 2 ^ 31 + totalAdded ops < 2 ^ 31 →
      ((RequestCounter.new n).exec ops).1.countP granted ≤ n.toNat % 2 ^ 31 + totalAdded ops := by
  intro h
  have key : ∀ k : Nat, totalAdded (List.replicate k Op.dec) = 0 := by
    intro k
    simp [totalAdded, added]
  have h' : ∀ k : Nat, ((RequestCounter.new 0#32).exec (List.replicate k Op.dec)).1.countP granted
      = 0 := by
    intro k
    have := h 0#32 (List.replicate k Op.dec) (by rw [key]; decide)
    rw [key] at this
    exact Nat.le_zero.1 this
  have bad : ∀ k i : Nat, i < k → ¬ 0 < wrap32 (-(i : Int)) := by
    intro k i hi hpos
    have h0 := List.countP_eq_zero.1 (h' k)
    have hm := List.mem_of_getElem? (dec_log k i hi)
    have := h0 _ hm
    simp only [granted, decide_eq_true_eq] at this
    exact this hpos
  have : ∀ i : Nat, i = 2 ^ 31 + 1 → 0 < wrap32 (-(i : Int)) := by
    intro i hi
    unfold wrap32
    omega
  exact bad (2 ^ 31 + 2) (2 ^ 31 + 1) (by omega) (this _ rfl)

example : ((RequestCounter.new 1#32).exec [.dec, .dec, .add 1#32, .dec]).1.countP granted = 1 := by
  decide

/-! ## C46 -/

/-- **C46** is false in three ways: a `dec` on an exhausted counter makes `is_zero` false although
no permit is available; the next added permit then makes it true although one is available; and
permits above 2^31 − 1 wrap to a negative count. -/
theorem C46_is_zero_false :
    (available 0 [.dec] = 0 ∧ ((RequestCounter.new 0#32).exec [.dec]).2.isZero = false) ∧
    (available 0 [.dec, .add 1#32] = 1 ∧
      ((RequestCounter.new 0#32).exec [.dec, .add 1#32]).2.isZero = true) ∧
    (available 1 [.add 0x7FFFFFFF#32] = 2 ^ 31 ∧
      ((RequestCounter.new 1#32).exec [.add 0x7FFFFFFF#32]).2.load < 0) := by
  decide

/-- **C46**, when no `dec` is made without a permit and at most 2^31 − 1 permits were granted in
total: `load` shows the available permits and `is_zero` is true exactly when there are none. -/
theorem C46_is_zero_partial (n : U32) (ops : List Op) (h1 : NoOverdraw (n.toNat % 2 ^ 31) ops)
    (h2 : n.toNat % 2 ^ 31 + totalAdded ops < 2 ^ 31) :
    ((RequestCounter.new n).exec ops).2.load = available (n.toNat % 2 ^ 31) ops ∧
      (((RequestCounter.new n).exec ops).2.isZero = true ↔
        available (n.toNat % 2 ^ 31) ops = 0) := by
  have h := available_load (RequestCounter.new n) _ ops (by rw [load_new]; omega) h1 h2
  refine ⟨h, ?_⟩
  rw [isZero_load, h, beq_iff_eq]
  omega

/-- **C46**, what `is_zero` says in every case: that as many permits were taken as were granted, where
refused `dec` calls count as taken, up to multiples of 2^32. -/
theorem C46_is_zero_iff (n : U32) (ops : List Op) :
    ((RequestCounter.new n).exec ops).2.isZero = true ↔
      (2 ^ 32 : Int) ∣ (n.toNat % 2 ^ 31 : Nat) + totalAdded ops - decs ops := by
  rw [isZero_load, exec_load, beq_iff_eq, load_new, net, Int.dvd_iff_emod_eq_zero]
  unfold wrap32
  omega

example : NoOverdraw 1 [.dec, .add 2#32, .dec] := ⟨by decide, by decide, trivial⟩

end Binate
