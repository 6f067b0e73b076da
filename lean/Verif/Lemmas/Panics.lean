import Verif.Spec.Panics
import Verif.Lemmas.Ctor

/-! # Helper lemmas on panic messages -/

namespace Binate

open Spec

theorem dam31_msg (dbg : Bool) (nm : String) (x : U32) :
    debugAssertMaxU31 dbg nm x =
      if dbg = true ∧ 2 ^ 31 ≤ x.toNat then .panic (nm ++ " MUST be <= MAX_U31 (0x7FFFFFFF)")
      else .ok () := by
  unfold debugAssertMaxU31 Outcome.debugAssert
  have hx := maxU31_le (x := x)
  cases dbg
  · rfl
  · by_cases h : x.toNat < 2 ^ 31
    · rw [decide_eq_true (hx.2 h)]
      exact (if_neg (fun k => absurd h (Nat.not_lt.2 k.2))).symm
    · rw [decide_eq_false (fun k => h (hx.1 k))]
      exact (if_pos ⟨rfl, Nat.not_lt.1 h⟩).symm

theorem dam63_msg (dbg : Bool) (nm : String) (x : U64) :
    debugAssertMaxU63 dbg nm x =
      if dbg = true ∧ 2 ^ 63 ≤ x.toNat then
        .panic (nm ++ " MUST be <= MAX_U63 (0x7FFF_FFFF_FFFF_FFFF)")
      else .ok () := by
  unfold debugAssertMaxU63 Outcome.debugAssert
  have hx := maxU63_le (x := x)
  cases dbg
  · rfl
  · by_cases h : x.toNat < 2 ^ 63
    · rw [decide_eq_true (hx.2 h)]
      exact (if_neg (fun k => absurd h (Nat.not_lt.2 k.2))).symm
    · rw [decide_eq_false (fun k => h (hx.1 k))]
      exact (if_pos ⟨rfl, Nat.not_lt.1 h⟩).symm

theorem danz_msg (dbg : Bool) (nm : String) (x : U32) :
    debugAssertNonZero dbg nm x =
      if dbg = true ∧ x.toNat = 0 then .panic (nm ++ " MUST be non-zero") else .ok () := by
  unfold debugAssertNonZero Outcome.debugAssert
  cases dbg
  · rfl
  · by_cases h : x.toNat = 0
    · have hx : x = 0#32 := BitVec.eq_of_toNat_eq h
      subst hx
      rfl
    · have hx : (x != 0#32) = true := by
        rw [bne_iff_ne]
        rintro rfl
        exact h rfl
      rw [hx]
      exact (if_neg (fun k => h k.2)).symm

/-- In a debug build a call panics with the first fault. -/
theorem run_fault (c : NewCall) :
    (∃ f, c.run true = .ok f ∧ c.faults = []) ∨
      ∃ m rest, c.run true = .panic m ∧ c.faults = m :: rest := by
  cases c
  case metadataPush => exact .inl ⟨_, rfl, rfl⟩
  all_goals
    simp only [NewCall.run, NewCall.faults, NewCall.named31, NewCall.named63, NewCall.namedPos,
      LeaseFrame.new, KeepaliveFrame.new, RequestResponseFrame.new, RequestFnfFrame.new,
      RequestStreamFrame.new, RequestChannelFrame.new, RequestNFrame.new, CancelFrame.new,
      PayloadFrame.new, ErrorFrame.new, ResumeFrame.new, ResumeOkFrame.new, bind,
      dam31_msg, dam63_msg, danz_msg, true_and, blame, List.filter_cons, List.filter_nil,
      Bool.not_eq_true', decide_eq_false_iff_not, Nat.not_lt, Nat.le_zero]
    repeat' split
    all_goals first
      | exact .inl ⟨_, rfl, rfl⟩
      | exact .inr ⟨_, _, rfl, rfl⟩

theorem assert_msg (n k : Nat) (m : String) :
    Outcome.assert (decide (n ≤ k)) m = if k < n then .panic m else .ok () := by
  unfold Outcome.assert
  by_cases h : n ≤ k
  · rw [decide_eq_true h, if_neg (Nat.not_lt.2 h)]
    rfl
  · rw [decide_eq_false h, if_pos (Nat.not_le.1 h)]
    rfl

theorem apply_fault (dbg : Bool) (b : SetupFrame) (c : SetupCall) :
    (∃ b', SetupFrameBuilder.apply dbg b c = .ok b' ∧ setupFault dbg c = none) ∨
      ∃ m, SetupFrameBuilder.apply dbg b c = .panic m ∧ setupFault dbg c = some m := by
  have key : ∀ (p : Prop) [Decidable p] (m : String) (k : Outcome SetupFrame) (b' : SetupFrame),
      k = .ok b' →
      (∃ b', ((if p then Outcome.panic m else .ok ()).bind fun _ => k) = .ok b' ∧
        (if p then some m else none) = none) ∨
      ∃ m', ((if p then Outcome.panic m else .ok ()).bind fun _ => k) = .panic m' ∧
        (if p then some m else none) = some m' := by
    intro p _ m k b' hk
    split
    · exact .inr ⟨m, rfl, rfl⟩
    · exact .inl ⟨b', hk, rfl⟩
  cases c
  case setKeepaliveInterval i =>
    simp only [SetupFrameBuilder.apply, setupFault, dam31_msg, bind]
    exact key _ _ _ _ rfl
  case setKeepaliveTimeout i =>
    simp only [SetupFrameBuilder.apply, setupFault, dam31_msg, bind]
    exact key _ _ _ _ rfl
  case setResumeToken t =>
    simp only [SetupFrameBuilder.apply, setupFault, assert_msg, bind]
    exact key _ _ _ _ rfl
  case setMetadataMimetype t =>
    simp only [SetupFrameBuilder.apply, setupFault, assert_msg, bind]
    exact key _ _ _ _ rfl
  case setDataMimetype t =>
    simp only [SetupFrameBuilder.apply, setupFault, assert_msg, bind]
    exact key _ _ _ _ rfl
  all_goals exact .inl ⟨_, rfl, rfl⟩

theorem run_setup_fault (dbg : Bool) (calls : List SetupCall) (b : SetupFrame) :
    (∃ f, SetupFrameBuilder.run dbg b calls = .ok f ∧ calls.findSome? (setupFault dbg) = none) ∨
      ∃ m, SetupFrameBuilder.run dbg b calls = .panic m ∧
        calls.findSome? (setupFault dbg) = some m := by
  induction calls generalizing b with
  | nil => exact .inl ⟨b, rfl, rfl⟩
  | cons c cs ih =>
    rcases apply_fault dbg b c with ⟨b', h1, h2⟩ | ⟨m, h1, h2⟩
    · rw [List.findSome?_cons, h2]
      show (∃ f, (SetupFrameBuilder.apply dbg b c).bind _ = _ ∧ _) ∨
        ∃ m, (SetupFrameBuilder.apply dbg b c).bind _ = _ ∧ _
      rw [h1]
      exact ih b'
    · rw [List.findSome?_cons, h2]
      refine .inr ⟨m, ?_, rfl⟩
      show (SetupFrameBuilder.apply dbg b c).bind _ = _
      rw [h1]
      rfl

end Binate
