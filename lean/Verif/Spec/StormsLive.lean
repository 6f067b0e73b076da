import Verif.Spec.Storms
import Verif.Spec.StormLive

/-! # Executions of any number of sockets that go on for ever, with everything that can go wrong -/

namespace Binate.Spec

open RSocketMachine

/-- What happens when there is nothing at first; there may be pauses. -/
structure StormsForever (dbg : Bool) (trs : Nat → WildTransport) (τ : Nat → Storms) : Prop where
  start : ∃ now, τ 0 = Storms.init now
  follows : Follows (Storms.Step dbg trs) τ

/-- Every time comes. -/
def StormsEveryTime (τ : Nat → Storms) : Prop := ∀ t, ∃ n, t ≤ (τ n).clock

/-- The scheduler is fair to socket `g` in what `act` describes. -/
def FairTo (dbg : Bool) (trs : Nat → WildTransport) (τ : Nat → Storms) (g : Handle)
    (act : Storm → Storm → Prop) : Prop :=
  Fair (Storms.Step dbg trs) (fun t t' => act (stormOf t g) (stormOf t' g)) τ

end Binate.Spec
