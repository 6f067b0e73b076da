import Verif.Spec.Noisy
import Verif.Lemmas.Hosted

/-! # Lemmas on log lines that panic: the task is as good as dropped -/

namespace Binate

open Spec RSocketMachine

variable {dbg : Bool} {tr : Transport} {role : Role} {timeout created spawned : Nat}

/-- The machine with the task dropped by a runtime that is being shut down. -/
def noisyHosted (h : Noisy) : Hosted := ⟨h.sys, true, h.dogPanicked⟩

theorem noisy_step {h h' : Noisy} (hs : Noisy.Step dbg tr h h') :
    Hosted.Step dbg tr (noisyHosted h) (noisyHosted h') := by
  cases hs with
  | run s hs hg => exact .run (noisyHosted h) s hs hg
  | dogPanics hf hd _ _ => exact .dropDog (noisyHosted h) rfl hf hd
  | listenerPanics st hl _ => exact .dropListener (noisyHosted h) rfl hl

theorem noisy_hosted {h : Noisy} (hr : Noisy.Reachable dbg tr role timeout created spawned h) :
    Hosted.Reachable dbg tr role timeout created spawned (noisyHosted h) := by
  induction hr with
  | init => exact .step .init (.shutdown _)
  | step _ hs ih => exact .step ih (noisy_step hs)

theorem noisy_steps {h h' : Noisy} (hs : NoisySteps dbg tr h h') :
    HostedSteps dbg tr (noisyHosted h) (noisyHosted h') := by
  induction hs with
  | refl => exact .refl _
  | step hs _ ih => exact .step (noisy_step hs) ih

/-- Time does not go back. -/
theorem system_clock {s s' : System} (hs : System.Step dbg tr s s') : s.clock ≤ s'.clock := by
  cases hs with
  | time now hn => exact hn
  | _ => exact Nat.le_refl _

theorem noisy_late {h : Noisy} (hr : Noisy.Reachable dbg tr role timeout created spawned h)
    (hp : h.dogPanicked = true) : created + timeout < h.sys.clock := by
  induction hr with
  | init => cases hp
  | @step h _ hr hs ih =>
    cases hs with
    | run s hs _ => exact Nat.lt_of_lt_of_le (ih hp) (system_clock hs)
    | dogPanics _ _ _ hl =>
      obtain ⟨s, hsr, ha⟩ := hosted_asleep (noisy_hosted hr)
      have hc : h.sys.conc = s.conc := ha.conc
      rw [hc, (sysInv hsr).timeout, (sysInv hsr).last] at hl
      show created + timeout < h.sys.clock
      omega
    | listenerPanics => exact ih hp

theorem system_deaf {s s' : System} (hs : System.Step dbg tr s s') (hl : s.listening = false) :
    s'.listening = false ∧ s'.seen = s.seen := by
  cases hs with
  | status st h => rw [hl] at h; cases h
  | statusEnd h => rw [hl] at h; cases h
  | _ => exact ⟨hl, rfl⟩

end Binate
