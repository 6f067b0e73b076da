import Verif.Spec.HandlerLive
import Verif.Lemmas.Handler

/-! # Waiting for the lock of the handler -/

namespace Binate

open RequestHanlder Spec

variable {H : Type}

/-- The lock does not stay free for ever while calls wait for it. -/
theorem lock_given {σ : Nat → State H} (hl : LockGiven σ) (n : Nat) :
    ∃ k, n ≤ k ∧ ((σ k).holder ≠ none ∨ (σ k).queue = []) := by
  by_contra hno
  have hno : ∀ k, n ≤ k → (σ k).holder = none ∧ (σ k).queue ≠ [] := fun k hk =>
    ⟨by_contra fun e => hno ⟨k, hk, .inl e⟩, fun e => hno ⟨k, hk, .inr e⟩⟩
  obtain ⟨k, hk, hs⟩ := hl n fun k hk => by
    obtain ⟨h1, h2⟩ := hno k hk
    obtain ⟨c, rest, hq⟩ := List.exists_cons_of_ne_nil h2
    have := Step.grant (σ k) c rest h1 hq
    exact ⟨_, ⟨_, this⟩, this⟩
  have := (hno (k + 1) (by omega)).1
  generalize σ (k + 1) = t at hs this
  cases hs
  cases this

/-- No call that was given the lock keeps it for ever. -/
theorem holders_run {σ : Nat → State H} (hh : HoldersRun σ) {n : Nat} {c : Call H}
    (_hc : (σ n).holder = some c) : ∃ k, n ≤ k ∧ (σ k).holder ≠ some c := by
  by_contra hno
  have hno : ∀ k, n ≤ k → (σ k).holder = some c := fun k hk => by_contra fun e => hno ⟨k, hk, e⟩
  obtain ⟨k, hk, hs⟩ := hh c.number c.handler n fun k hk => by
    have := Step.done (σ k) c (hno k hk)
    exact ⟨_, ⟨_, this⟩, this⟩
  have free : ∀ {s t : State H} {a : Nat} {x : H}, Step s (.done a x) t → t.holder = none := by
    intro s t a x hs
    cases hs
    rfl
  have := (free hs).symm.trans (hno (k + 1) (by omega))
  cases this

/-- How far a call with `front` before it is from returning. -/
def lockRank (s : State H) (front : List (Call H)) : Nat :=
  2 * front.length + if s.holder.isNone then 1 else 0

/-- What one step means for a pending call. -/
theorem step_pending {s t : State H} {e : Event H} (st : Step s e t) {front back : List (Call H)}
    {c : Call H} (hp : pending s = front ++ c :: back) :
    (e = .done c.number c.handler ∧ t.current = c.handler ∧ pending t = back) ∨
    e = .cancel c.number ∨
    ∃ front' back', pending t = front' ++ c :: back' ∧ lockRank t front' ≤ lockRank s front ∧
      (t.holder ≠ s.holder → lockRank t front' < lockRank s front) ∧
      ((∀ h, e ≠ .call h) → back = [] → back' = []) := by
  cases st with
  | call h =>
    refine .inr (.inr ⟨front, back ++ [⟨s.calls, h⟩], by rw [pending_call, hp]; simp, Nat.le_refl _,
      fun hn => absurd rfl hn, fun hn => absurd rfl (hn h)⟩)
  | grant d rest hh hq =>
    refine .inr (.inr ⟨front, back, by rw [← hp]; simp [pending, hh, hq], ?_, fun _ => ?_,
      fun _ hb => hb⟩)
    · simp [lockRank]
    · simp [lockRank, hh]
  | done d hh =>
    have p0 : pending s = d :: s.queue := by simp [pending, hh]
    rw [p0] at hp
    cases front with
    | nil =>
      simp only [List.nil_append, List.cons.injEq] at hp
      rw [hp.1]
      exact .inl ⟨rfl, rfl, by simp [pending, hp.2]⟩
    | cons x f =>
      simp only [List.cons_append, List.cons.injEq] at hp
      refine .inr (.inr ⟨f, back, by simp [pending, hp.2], ?_, fun _ => ?_, fun _ hb => hb⟩) <;>
      simp only [lockRank, List.length_cons, hh, Option.isNone_none, Option.isNone_some, if_true,
        Bool.false_eq_true, if_false] <;> omega
  | cancelWaiting fr d bk hq =>
    by_cases hd : d.number = c.number
    · exact .inr (.inl (by rw [hd]))
    · have p0 : pending s = (s.holder.toList ++ fr) ++ d :: bk := by simp [pending, hq]
      have p5 : pending { s with queue := fr ++ bk, dropped := s.dropped ++ [d.handler] } =
        (s.holder.toList ++ fr) ++ bk := by simp [pending]
      rw [p5]
      rw [p0] at hp
      refine .inr (.inr ?_)
      have less : ∀ f : List (Call H), f.length ≤ front.length →
          lockRank { s with queue := fr ++ bk, dropped := s.dropped ++ [d.handler] } f ≤
            lockRank s front := by
        intro f hf
        simp only [lockRank]
        omega
      rcases List.append_eq_append_iff.1 hp with ⟨m, hm1, hm2⟩ | ⟨m, hm1, hm2⟩
      · cases m with
        | nil =>
          simp only [List.nil_append, List.cons.injEq] at hm2
          exact absurd (congrArg Call.number hm2.1) hd
        | cons x m =>
          simp only [List.cons_append, List.cons.injEq] at hm2
          refine ⟨(s.holder.toList ++ fr) ++ m, back, by rw [hm2.2]; simp, less _ ?_,
            fun hn => absurd rfl hn, fun _ hb => hb⟩
          rw [hm1]
          simp
      · cases m with
        | nil =>
          simp only [List.nil_append, List.cons.injEq] at hm2
          exact absurd (congrArg Call.number hm2.1.symm) hd
        | cons x m =>
          simp only [List.cons_append, List.cons.injEq] at hm2
          refine ⟨front, m ++ bk, by rw [hm1, ← hm2.1]; simp, less _ (Nat.le_refl _),
            fun hn => absurd rfl hn, fun _ hb => ?_⟩
          rw [hb] at hm2
          simp at hm2
  | cancelHolding d hh =>
    have p0 : pending s = d :: s.queue := by simp [pending, hh]
    rw [p0] at hp
    cases front with
    | nil =>
      simp only [List.nil_append, List.cons.injEq] at hp
      rw [hp.1]
      exact .inr (.inl rfl)
    | cons x f =>
      simp only [List.cons_append, List.cons.injEq] at hp
      refine .inr (.inr ⟨f, back, by simp [pending, hp.2], ?_, fun _ => ?_, fun _ hb => hb⟩) <;>
      simp only [lockRank, List.length_cons, hh, Option.isNone_none, Option.isNone_some, if_true,
        Bool.false_eq_true, if_false] <;> omega

/-- A call ends at step `j`: it returns with its handler in place, or it is dropped. If it was the last
one and no other is made, none is pending then. -/
def EndsAt (σ : Nat → State H) (happens : Nat → Option (Event H)) (n : Nat) (c : Call H)
    (back : List (Call H)) (j : Nat) : Prop :=
  happens j = some (.done c.number c.handler) ∧ (σ (j + 1)).current = c.handler ∧
    ((∀ k, n ≤ k → ∀ h, happens k ≠ some (.call h)) → back = [] → pending (σ (j + 1)) = []) ∨
  happens j = some (.cancel c.number)

/-- What several steps mean for a pending call. -/
theorem steps_pending {σ : Nat → State H} {happens : Nat → Option (Event H)} (h : Endless σ happens)
    {n k : Nat} (hk : n ≤ k) {front back : List (Call H)} {c : Call H}
    (hp : pending (σ n) = front ++ c :: back) :
    (∃ j, n ≤ j ∧ j < k ∧ EndsAt σ happens n c back j) ∨
    ∃ front' back', pending (σ k) = front' ++ c :: back' ∧
      lockRank (σ k) front' ≤ lockRank (σ n) front ∧
      ((σ k).holder ≠ (σ n).holder → lockRank (σ k) front' < lockRank (σ n) front) ∧
      ((∀ k, n ≤ k → ∀ h, happens k ≠ some (.call h)) → back = [] → back' = []) := by
  induction k, hk using Nat.le_induction with
  | base => exact .inr ⟨front, back, hp, Nat.le_refl _, fun hn => absurd rfl hn, fun _ hb => hb⟩
  | succ k hk ih =>
    rcases ih with ⟨j, h1, h2, h3⟩ | ⟨f, b, h1, h2, h3, h8⟩
    · exact .inl ⟨j, h1, by omega, h3⟩
    · have hs := h k
      cases he : happens k with
      | none =>
        rw [he] at hs
        have hs : σ (k + 1) = σ k := hs
        exact .inr ⟨f, b, by rw [hs]; exact h1, by rw [hs]; exact h2, by rw [hs]; exact h3, h8⟩
      | some e =>
        rw [he] at hs
        rcases step_pending hs h1 with ⟨h4, h5, h6⟩ | h4 | ⟨f', b', h4, h5, h6, h9⟩
        · exact .inl ⟨k, hk, by omega, .inl ⟨by rw [he, h4], h5, fun a b' => h6.trans (h8 a b')⟩⟩
        · exact .inl ⟨k, hk, by omega, .inr (by rw [he, h4])⟩
        · refine .inr ⟨f', b', h4, by omega, fun hn => ?_,
            fun a b' => h9 (fun x hx => a k hk x (hx ▸ he)) (h8 a b')⟩
          by_cases h7 : (σ (k + 1)).holder = (σ k).holder
          · rw [h7] at hn
            have := h3 hn
            omega
          · have := h6 h7
            omega

/-- Every pending call ends. -/
theorem pending_ends {σ : Nat → State H} {happens : Nat → Option (Event H)} (h : Endless σ happens)
    (hl : LockGiven σ) (hh : HoldersRun σ) {n : Nat} {front back : List (Call H)} {c : Call H}
    (hp : pending (σ n) = front ++ c :: back) :
    ∃ k, n ≤ k ∧ EndsAt σ happens n c back k := by
  generalize hr : lockRank (σ n) front = r
  induction r using Nat.strong_induction_on generalizing n front back with
  | _ r ih =>
    have go : ∀ k, n ≤ k → (∀ f b, pending (σ k) = f ++ c :: b → (σ k).holder ≠ (σ n).holder) →
        ∃ k, n ≤ k ∧ EndsAt σ happens n c back k := by
      intro k hk hne
      rcases steps_pending h hk hp with ⟨j, h1, -, h3⟩ | ⟨f, b, h1, -, h3, h6⟩
      · exact ⟨j, h1, h3⟩
      · obtain ⟨j, h4, h5⟩ := ih _ (hr ▸ h3 (hne f b h1)) h1 rfl
        refine ⟨j, by omega, h5.imp_left fun ⟨a, a', a''⟩ => ⟨a, a', fun x y => ?_⟩⟩
        exact a'' (fun i hi => x i (by omega)) (h6 x y)
    cases hc : (σ n).holder with
    | some d =>
      obtain ⟨k, h1, h2⟩ := holders_run hh hc
      exact go k h1 fun _ _ _ => hc ▸ h2
    | none =>
      obtain ⟨k, h1, h2⟩ := lock_given hl n
      refine go k h1 fun f b hp' hn => ?_
      rw [hc] at hn
      rcases h2 with h2 | h2
      · exact h2 hn
      · simp [pending, hn, h2] at hp'

/-- Nothing happens any more when no call is pending and none is made. -/
theorem quiet_after {σ : Nat → State H} {happens : Nat → Option (Event H)} (h : Endless σ happens)
    {n : Nat} (hq : ∀ k, n ≤ k → ∀ x, happens k ≠ some (.call x)) (hp : pending (σ n) = [])
    {k : Nat} (hk : n ≤ k) : σ k = σ n := by
  induction k, hk using Nat.le_induction with
  | base => rfl
  | succ k hk ih =>
    have hs := h k
    cases he : happens k with
    | none => rw [he] at hs; exact Eq.trans hs ih
    | some e =>
      rw [he, ih] at hs
      have h0 : (σ n).holder = none ∧ (σ n).queue = [] := by
        cases hx : (σ n).holder <;> simp_all [pending]
      have hs : Step (σ n) e (σ (k + 1)) := hs
      generalize σ (k + 1) = t at hs
      cases hs with
      | call x => exact absurd he (hq k hk x)
      | grant d rest hh hq => rw [h0.2] at hq; cases hq
      | done d hh => rw [h0.1] at hh; cases hh
      | cancelWaiting fr d bk hq => rw [h0.2] at hq; cases fr <;> cases hq
      | cancelHolding d hh => rw [h0.1] at hh; cases hh

end Binate
