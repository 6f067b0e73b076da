/-! # Executions that go on for ever, and fair schedulers -/

namespace Binate.Spec

/-- States that follow one another by steps; there may be pauses, so this includes executions that
come to an end. -/
def Follows {α : Type} (step : α → α → Prop) (σ : Nat → α) : Prop :=
  ∀ n, step (σ n) (σ (n + 1)) ∨ σ (n + 1) = σ n

/-- What can be done from some point on for ever is done at some time. What cannot be done is not asked
for: a program that is stuck is treated fairly. -/
def Fair {α : Type} (step act : α → α → Prop) (σ : Nat → α) : Prop :=
  ∀ n, (∀ k, n ≤ k → ∃ s, step (σ k) s ∧ act (σ k) s) → ∃ k, n ≤ k ∧ act (σ k) (σ (k + 1))

end Binate.Spec
