import Verif.Model.Tended
import Verif.Spec.StormLive
import Verif.Spec.WildHandler

/-! # A machine with its request handler -/

namespace Binate.Spec

open RSocketMachine

/-- What happens to a new machine and its handlers. -/
structure TendedForever {H : Type} (dbg : Bool) (tr : WildTransport) (dummy : H) (role : Role)
    (timeout created spawned : Nat) (τ : Nat → Tended H) : Prop where
  start : τ 0 = Tended.new dummy role timeout created spawned
  follows : Follows (Tended.Step dbg tr) τ

/-- The scheduler is fair to the threads that drop a clone of the machine. -/
def DropsEnd {H : Type} (dbg : Bool) (tr : WildTransport) (τ : Nat → Tended H) : Prop :=
  Fair (Tended.Step dbg tr) (fun a b => b.falling < a.falling) τ

/-- Nothing is left of the machine but clones that are being dropped. -/
def OnlyFalling (h : Storm) : Prop :=
  h.sys.handles = 0 ∧ h.sys.listening = false ∧ (h.sys.dog = .stopped ∨ h.dogGone = true)

end Binate.Spec
