import Verif.Lemmas.Wait

/-! # How long concurrent requests take

C87. The system is the one of C57, with the number of steps that each call has taken. -/

namespace Binate

open Spec RSocketMachine

/-- **C87.** Whatever the other callers, the transport and the peer do, a call of `fire_and_forget`
takes at most `maxSteps` steps of its own, and has returned (or panicked) when it has taken them:
no other caller can starve it. `keys` are the ids that were ever in the map of receivers. -/
theorem C87_wait_free {dbg : Bool} {tr : Transport} {m : RSocketMachine} {keys : List U32} {s : Conc}
    {k : Nat → Nat} (h : ConcRun dbg tr m keys s k) (hl : s.calls.length + keys.length ≤ 2 ^ 30)
    {i : Nat} {c : Call} (hi : s.calls[i]? = some c) :
    k i ≤ maxSteps keys m.chunkPayload (callPayload c) ∧
      (running c = true → k i < maxSteps keys m.chunkPayload (callPayload c)) := by
  have hd := draws_le h hl
  obtain ⟨rej, inv⟩ := waitInv h (by omega)
  have cinv := (concInv (run_reachable h).1 (by omega)).call i c hi
  have h1 := rej_le inv
  have h2 : rej.countP (·.1 == i) ≤ rej.length := List.countP_le_length
  have h3 := inv.steps i c hi
  have key : ∀ p, maxSteps keys m.chunkPayload p =
      2 * keys.length + maxSteps [] m.chunkPayload p := fun p => by
    simp only [maxSteps, List.length_nil]
    omega
  have low : ∀ p, 3 ≤ maxSteps [] m.chunkPayload p := fun p => by
    simp only [maxSteps, List.length_nil]
    omega
  rw [key]
  cases c with
  | probing p => have := low p; simp only [StepsOk, callPayload] at h3 ⊢; omega
  | checking p sid => have := low p; simp only [StepsOk, callPayload] at h3 ⊢; omega
  | sendingOne p sid => have := low p; simp only [StepsOk, callPayload] at h3 ⊢; omega
  | sending p sid idx n chunks =>
    obtain ⟨size, e1, -, -, -, e5, -⟩ := cinv
    simp only [StepsOk, callPayload, maxSteps, List.length_nil, e1] at h3 ⊢
    omega
  | done p sid r => simp only [StepsOk, callPayload] at h3 ⊢; exact ⟨by omega, nofun⟩
  | panicked p => simp only [StepsOk, callPayload] at h3 ⊢; exact ⟨by omega, nofun⟩

/-- **C87**: all calls together draw at most one id per call and one per key, so the limit of 2^30
draws in C57, C61 and C70 holds as long as no more than 2^30 calls were made and keys were used. -/
theorem C87_draws {dbg : Bool} {tr : Transport} {m : RSocketMachine} {keys : List U32} {s : Conc}
    {k : Nat → Nat} (h : ConcRun dbg tr m keys s k)
    (hl : s.calls.length + keys.length ≤ 2 ^ 30) : s.draws ≤ s.calls.length + keys.length :=
  draws_le h hl

/-- **C87**: a call can run to its end alone, from wherever the others have paused; they are left
where they were. However many calls were made before, it needs no more than its limit of steps, and
one more if it stopped between drawing an id and looking it up. -/
theorem C87_alone {dbg : Bool} {tr : Transport} {m : RSocketMachine} {keys : List U32} {s : Conc}
    {k : Nat → Nat} (h : ConcRun dbg tr m keys s k) (hk : keys.length < 2 ^ 30)
    {i : Nat} {c : Call} (hi : s.calls[i]? = some c) :
    ∃ s' k' c', ConcRun dbg tr m keys s' k' ∧ s'.calls = s.calls.set i c' ∧ running c' = false ∧
      callPayload c' = callPayload c ∧
      k' i ≤ k i + (maxSteps keys m.chunkPayload (callPayload c) + 1) ∧
      ∀ j, j ≠ i → k' j = k j :=
  canEnd h hk hi

/-- A client whose first id is in use, for the example. -/
abbrev firstUsed (w : U32) : RSocketMachine :=
  { fragmenting 1 with streamId := ⟨w⟩, chunkPayload := none, receivers := fun x => x == 1#32 }

/-- The bound is reached: with one key in use, an unfragmented request takes five steps. -/
example : ∃ s k, ConcRun true openTransport (firstUsed 1#32) [1#32] s k ∧ k 0 = 5 ∧
    maxSteps [1#32] (firstUsed 1#32).chunkPayload ⟨none, none⟩ = 5 ∧
    s.calls.map callResult = [some (.ok ())] := by
  let a : Payload := ⟨none, none⟩
  let R := ConcRun true openTransport (firstUsed 1#32) [1#32]
  have via : ∀ {s s' s'' : Conc} {k : Nat → Nat} {c : Call} (c' : Call), R s k →
      ConcStep true openTransport s s' → s' = s'' →
      s''.machine.receivers = s.machine.receivers → s.calls[0]? = some c →
      s''.calls = s.calls.set 0 c' → c' ≠ c → R s'' (bump k 0) :=
    fun c' r h e => e ▸ run_move c' r h
  have r0 : R ⟨firstUsed 1#32, [], 0, [], []⟩ (fun _ => 0) :=
    .init fun x hx => List.mem_singleton.2 (eq_of_beq hx)
  have r1 : R ⟨firstUsed 1#32, [.probing a], 0, [], [.fireAndForget a]⟩ _ := run_stay r0 (.call _ a) rfl nofun
  have r2 : R ⟨firstUsed 3#32, [.checking a 1#32], 1, [], [.fireAndForget a]⟩ _ :=
    via _ r1 (.fetch _ 0 a rfl) (by simp only [Conc.set]; rfl) rfl rfl rfl nofun
  have r3 : R ⟨firstUsed 3#32, [.probing a], 1, [], [.fireAndForget a]⟩ _ :=
    run_move _ r2 (.checkUsed _ 0 a 1#32 rfl rfl) rfl (i := 0) rfl rfl nofun
  have r4 : R ⟨firstUsed 5#32, [.checking a 3#32], 2, [], [.fireAndForget a]⟩ _ :=
    via _ r3 (.fetch _ 0 a rfl) (by simp only [Conc.set]; rfl) rfl rfl rfl nofun
  have r5 : R ⟨firstUsed 5#32, [.sendingOne a 3#32], 2, [], [.fireAndForget a]⟩ _ :=
    run_move _ r4 (.checkFree _ 0 a 3#32 rfl rfl) rfl (i := 0) rfl rfl nofun
  have r6 : R ⟨firstUsed 5#32, [.done a 3#32 (.ok ())], 2, [fnfFrame 3#32 false a],
      [.fireAndForget a]⟩ _ :=
    run_move _ r5 (.sendOne _ 0 a 3#32 ⟨3#32, ⟨0#16⟩, a⟩ rfl rfl) rfl (i := 0) rfl rfl nofun
  exact ⟨_, _, r6, rfl, rfl, rfl⟩

/-- One more call is made and draws an id. -/
private theorem otherDraws {m : RSocketMachine} {w : U32} {a : Call} {R : List Call} {d : Nat}
    {k : Nat → Nat} {q : Payload} {l : List Asked}
    (r : ConcRun true openTransport m [1#32] ⟨firstUsed w, a :: R, d, [], l⟩ k) :
    ∃ k' c l', ConcRun true openTransport m [1#32]
      ⟨firstUsed (w + 2#32), a :: (R ++ [c]), d + 1, [], l'⟩ k' ∧ k' 0 = k 0 := by
  let x := (⟨w⟩ : StreamIdProvider).draw.1
  have get : (a :: (R ++ [.probing q]))[R.length + 1]? = some (.probing q) := by simp
  have set : (a :: (R ++ [.probing q])).set (R.length + 1) (.checking q x) =
      a :: (R ++ [.checking q x]) := by simp
  let l' : List Asked := l ++ [.fireAndForget q]
  have r1 : ConcRun true openTransport m [1#32]
      ⟨firstUsed w, a :: (R ++ [.probing q]), d, [], l'⟩ k :=
    run_stay r (.call _ q) rfl fun i c hi => by
      show ((a :: R) ++ [Call.probing q])[i]? = some c
      rw [List.getElem?_append_left (lt_length_of_some hi)]
      exact hi
  have r2 := run_move (.checking q x) r1 (.fetch _ (R.length + 1) q get) rfl get rfl nofun
  refine ⟨bump k (R.length + 1), .checking q x, l', ?_, by rw [bump, if_neg (by omega)]⟩
  have e2 : (⟨firstUsed (w + 2#32), a :: (R ++ [.checking q x]), d + 1, [], l'⟩ : Conc) =
      { (Conc.set ⟨firstUsed w, a :: (R ++ [.probing q]), d, [], l'⟩ (R.length + 1)
        (.checking q x)) with
        machine := { firstUsed w with streamId := (firstUsed w).streamId.draw.2 }
        draws := d + 1 } := by
    simp only [Conc.set, set]
    rfl
  rw [e2]
  exact r2

private theorem othersDraw (n : Nat) {m : RSocketMachine} {w : U32} {a : Call} {R : List Call}
    {d : Nat} {k : Nat → Nat} {l : List Asked}
    (r : ConcRun true openTransport m [1#32] ⟨firstUsed w, a :: R, d, [], l⟩ k) :
    ∃ k' R' l', ConcRun true openTransport m [1#32]
      ⟨firstUsed (w + BitVec.ofNat 32 (2 * n)), a :: R', d + n, [], l'⟩ k' ∧ k' 0 = k 0 := by
  induction n with
  | zero => exact ⟨k, R, l, by rw [Nat.mul_zero, BitVec.add_zero]; exact r, rfl⟩
  | succ n ih =>
    obtain ⟨k1, R1, l1, r1, e1⟩ := ih
    obtain ⟨k2, c, l2, r2, e2⟩ := otherDraws (q := ⟨none, none⟩) r1
    refine ⟨k2, R1 ++ [c], l2, ?_, e2.trans e1⟩
    have e : w + BitVec.ofNat 32 (2 * (n + 1)) = w + BitVec.ofNat 32 (2 * n) + 2#32 := by
      rw [BitVec.add_assoc]
      congr 1
      apply BitVec.eq_of_toNat_eq
      rw [BitVec.toNat_add, BitVec.toNat_ofNat, BitVec.toNat_ofNat, BitVec.toNat_ofNat]
      omega
    rw [e, ← Nat.add_assoc]
    exact r2

/-- **C87**: the limit of 2^30 is needed. With a single key in use, which never changes, a call can take
any number of steps and still have no id, if the others draw all the free ids in between. -/
theorem C87_limit_needed (n : Nat) : ∃ s k,
    ConcRun true openTransport (firstUsed 1#32) [1#32] s k ∧
    s.calls[0]? = some (.probing ⟨none, none⟩) ∧ k 0 = 2 * n := by
  suffices ∃ w k R d l, ConcRun true openTransport (firstUsed 1#32) [1#32]
      ⟨firstUsed w, .probing ⟨none, none⟩ :: R, d, [], l⟩ k ∧ (w = 1#32 ∨ w = 0x80000001#32) ∧
      k 0 = 2 * n by
    obtain ⟨w, k, R, d, l, r, -, e⟩ := this
    exact ⟨_, k, r, rfl, e⟩
  let a : Payload := ⟨none, none⟩
  induction n with
  | zero =>
    have r0 : ConcRun true openTransport (firstUsed 1#32) [1#32] ⟨firstUsed 1#32, [], 0, [], []⟩
        (fun _ => 0) := .init fun x hx => List.mem_singleton.2 (eq_of_beq hx)
    have r1 : ConcRun true openTransport (firstUsed 1#32) [1#32]
        ⟨firstUsed 1#32, [.probing a], 0, [], [.fireAndForget a]⟩ _ := run_stay r0 (.call _ a) rfl nofun
    exact ⟨_, _, _, _, _, r1, .inl rfl, rfl⟩
  | succ n ih =>
    obtain ⟨w, k, R, d, l, r, hw, e⟩ := ih
    have via : ∀ {s s' s'' : Conc} {k : Nat → Nat} {c : Call} (c' : Call),
        ConcRun true openTransport (firstUsed 1#32) [1#32] s k →
        ConcStep true openTransport s s' → s' = s'' →
        s''.machine.receivers = s.machine.receivers → s.calls[0]? = some c →
        s''.calls = s.calls.set 0 c' → c' ≠ c →
        ConcRun true openTransport (firstUsed 1#32) [1#32] s'' (bump k 0) :=
      fun c' r h e => e ▸ run_move c' r h
    have hx : (⟨w⟩ : StreamIdProvider).draw.1 = 1#32 := by rcases hw with rfl | rfl <;> rfl
    have r1 : ConcRun true openTransport (firstUsed 1#32) [1#32]
        ⟨firstUsed (w + 2#32), .checking a 1#32 :: R, d + 1, [], l⟩ (bump k 0) :=
      via (.checking a 1#32) r (.fetch _ 0 a rfl)
        (by simp only [Conc.set, List.set_cons_zero]; rw [hx]; rfl) rfl rfl rfl nofun
    have r2 : ConcRun true openTransport (firstUsed 1#32) [1#32]
        ⟨firstUsed (w + 2#32), .probing a :: R, d + 1, [], l⟩ (bump (bump k 0) 0) :=
      run_move _ r1 (.checkUsed _ 0 a 1#32 rfl rfl) rfl (i := 0) rfl rfl nofun
    obtain ⟨k3, R3, l3, r3, e3⟩ := othersDraw (2 ^ 30 - 1) r2
    refine ⟨_, k3, R3, _, l3, r3, ?_, ?_⟩
    · rcases hw with rfl | rfl
      · exact .inr (by decide)
      · exact .inl (by decide)
    · rw [e3, bump, if_pos rfl, bump, if_pos rfl, e]
      omega

end Binate
