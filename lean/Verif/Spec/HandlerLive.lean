import Verif.Spec.Handler
import Verif.Spec.Fair

/-! # Executions of `set_request_handler` that go on for ever -/

namespace Binate.Spec

open RequestHanlder

variable {H : Type}

/-- The states `σ` follow one another, and `happens` tells what happened in between; there may be
pauses. -/
def Endless (σ : Nat → State H) (happens : Nat → Option (Event H)) : Prop :=
  ∀ n, match happens n with
    | some e => Step (σ n) e (σ (n + 1))
    | none => σ (n + 1) = σ n

/-- The lock is fair: if it can be given to a call from some point on for ever, it is. -/
def LockGiven (σ : Nat → State H) : Prop :=
  Fair (fun s t => ∃ e, Step s e t) (fun s t => Step s .grant t) σ

/-- The scheduler is fair: a call that can go on to its end from some point on for ever does so. -/
def HoldersRun (σ : Nat → State H) : Prop :=
  ∀ c h, Fair (fun s t => ∃ e, Step s e t) (fun s t => Step s (.done c h) t) σ

end Binate.Spec
