import Verif.Model.Basic

/-! # Rewriting rules for the two monads of the model -/

namespace Binate

namespace Outcome

variable {α β : Type}

@[simp] theorem ok_bind (a : α) (f : α → Outcome β) : (Outcome.ok a >>= f) = f a := rfl
@[simp] theorem panic_bind (m : String) (f : α → Outcome β) :
    (Outcome.panic m >>= f) = .panic m := rfl
@[simp] theorem diverge_bind (f : α → Outcome β) : (Outcome.diverge >>= f) = .diverge := rfl
@[simp] theorem pure_eq (a : α) : (pure a : Outcome α) = .ok a := rfl

@[simp] theorem assert_true (m : String) : Outcome.assert true m = .ok () := rfl
@[simp] theorem assert_false (m : String) : Outcome.assert false m = .panic m := rfl
@[simp] theorem debugAssert_release (c : Bool) (m : String) :
    Outcome.debugAssert false c m = .ok () := by simp [Outcome.debugAssert]
@[simp] theorem debugAssert_true (dbg : Bool) (m : String) :
    Outcome.debugAssert dbg true m = .ok () := by simp [Outcome.debugAssert]
@[simp] theorem debugAssert_debug_false (m : String) :
    Outcome.debugAssert true false m = .panic m := by simp [Outcome.debugAssert]

theorem bind_eq_ok {x : Outcome α} {f : α → Outcome β} {b : β} :
    (x >>= f) = .ok b ↔ ∃ a, x = .ok a ∧ f a = .ok b := by
  cases x <;> simp

end Outcome

namespace Dec

variable {σ α β : Type}

theorem bind_apply (d : Dec σ α) (f : α → Dec σ β) (s : σ) :
    (d >>= f) s = match d s with
      | .ok a s' => f a s'
      | .err e s' => .err e s'
      | .panic m => .panic m
      | .diverge => .diverge := rfl

@[simp] theorem pure_apply (a : α) (s : σ) : (pure a : Dec σ α) s = .ok a s := rfl
@[simp] theorem fail_apply (e : DecodeError) (s : σ) : (Dec.fail e : Dec σ α) s = .err e s := rfl
@[simp] theorem panic_apply (m : String) (s : σ) : (Dec.panic m : Dec σ α) s = .panic m := rfl

theorem bind_ok {d : Dec σ α} {f : α → Dec σ β} {s s' : σ} {a : α} (h : d s = .ok a s') :
    (d >>= f) s = f a s' := by rw [bind_apply, h]

theorem bind_err {d : Dec σ α} {f : α → Dec σ β} {s s' : σ} {e : DecodeError}
    (h : d s = .err e s') : (d >>= f) s = .err e s' := by rw [bind_apply, h]

theorem bind_eq_ok {d : Dec σ α} {f : α → Dec σ β} {s s' : σ} {b : β} :
    (d >>= f) s = .ok b s' ↔ ∃ a s₁, d s = .ok a s₁ ∧ f a s₁ = .ok b s' := by
  rw [bind_apply]; cases d s <;> simp
  constructor
  · intro h; exact ⟨_, _, ⟨rfl, rfl⟩, h⟩
  · rintro ⟨_, _, ⟨rfl, rfl⟩, h⟩; exact h

@[ext] theorem ext {d d' : Dec σ α} (h : ∀ s, d s = d' s) : d = d' := funext h

end Dec

end Binate
