import Verif.Props.Conc
import Verif.Spec.Order

/-! # The log along an execution -/

namespace Binate

open Spec RSocketMachine

theorem ownInv_explains {dbg : Bool} {tr : Transport} {m : RSocketMachine} {s : Conc}
    {log : List Sent} (inv : OwnInv tr m s log) (h0 : m.chunkPayload ≠ some 0) :
    Explains dbg tr m s log where
  accounts := inv.acc
  owners := inv.lt
  payloads := inv.payloads
  pushes := inv.pushed
  none_yet i c hi hs := own_nil (inv.call i c hi) hs
  own i c hi sid hs := by
    have hc := inv.call i c hi
    refine ⟨callFrames sid m.chunkPayload (callPayload c), ?_, own_prefix hc hs, ?_⟩
    · rw [fnfSend_spec (inv.ids i c sid hi hs).1 h0, deliver_open, List.nil_append]
    · intro hr
      cases c with
      | done p x r => cases hr; cases hs; exact hc.2.1
      | _ => cases hr

/-- A call that has returned stays as it is, and no call disappears. -/
theorem steps_history {dbg : Bool} {tr : Transport} {s s' : Conc} (h : ConcSteps dbg tr s s')
    (i : Nat) (c : Call) (hi : s.calls[i]? = some c) :
    ∃ c', s'.calls[i]? = some c' ∧ (running c = false → c' = c) := by
  induction h with
  | refl => exact ⟨c, hi, fun _ => rfl⟩
  | step _ hs ih =>
    obtain ⟨c', h1, h2⟩ := ih
    obtain ⟨c'', h3, -, h4⟩ := (C57_history hs).2 i c' h1
    refine ⟨c'', h3, fun hr => ?_⟩
    rw [← h2 hr]
    exact h4 (by rw [h2 hr]; exact hr)

end Binate
