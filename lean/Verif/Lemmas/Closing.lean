import Verif.Lemmas.System
import Verif.Spec.Closing
import Verif.Props.Order

/-! # Executions of the whole system from one state to another -/

namespace Binate

open Spec RSocketMachine System

variable {dbg : Bool} {tr : Transport}

theorem running_iff {c : Call} : running c = true ↔ ¬ Ended c := by
  cases c with
  | done => exact ⟨fun h => (nomatch h), fun h => absurd (Ended.returned ..) h⟩
  | panicked => exact ⟨fun h => (nomatch h), fun h => absurd (Ended.panicked _) h⟩
  | probing | checking | sending | sendingOne => exact ⟨fun _ h => (nomatch h), fun _ => rfl⟩

theorem systemSteps_conc {s s' : System} (h : SystemSteps dbg tr s s') :
    ConcSteps dbg tr s.conc s'.conc := by
  induction h with
  | refl => exact .refl _
  | step _ hs ih =>
    cases hs with
    | request c new hh hc => exact ih.step hc
    | _ => exact ih

theorem systemSteps_happened {s s' : System} (h : SystemSteps dbg tr s s') :
    ∃ added, s'.happened = s.happened ++ added ∧
      s'.conc.wire = s.conc.wire ++ framesOf added := by
  induction h with
  | refl => exact ⟨[], (List.append_nil _).symm, (List.append_nil _).symm⟩
  | @step s₁ s₂ _ hs ih =>
    obtain ⟨added, h1, h2⟩ := ih
    have same : s₂.conc.wire = s₁.conc.wire → ∀ new, s₂.happened = s₁.happened ++ new →
        framesOf new = [] → ∃ added, s₂.happened = s.happened ++ added ∧
          s₂.conc.wire = s.conc.wire ++ framesOf added := by
      intro hw new hn hf
      exact ⟨added ++ new, by rw [hn, h1, List.append_assoc], by
        rw [hw, h2, framesOf_append, hf, List.append_nil]⟩
    cases hs with
    | time now => exact same rfl [] (List.append_nil _).symm rfl
    | request c new hh hc hn =>
      refine ⟨added ++ new.map .frame, ?_, ?_⟩
      · show s₁.happened ++ new.map .frame = _
        rw [h1, List.append_assoc]
      · show c.wire = _
        rw [hn, h2, framesOf_append, (of_frames new).1, List.append_assoc]
    | close hh => exact same rfl _ rfl rfl
    | wakeEarly hd => exact same rfl [] (List.append_nil _).symm rfl
    | wakeLate hd => exact same rfl _ rfl rfl
    | dogCloses hd => exact same rfl _ rfl rfl
    | status st hl => exact same rfl _ rfl (of_status st).1
    | statusEnd hl => exact same rfl [] (List.append_nil _).symm rfl
    | clone hh => exact same rfl [] (List.append_nil _).symm rfl
    | drop hh hb => exact same rfl [] (List.append_nil _).symm rfl

/-- With no handle left nothing is asked any more. -/
theorem systemSteps_unowned {s s' : System} (h : SystemSteps dbg tr s s') (h0 : s.handles = 0) :
    s'.handles = 0 ∧ s'.conc = s.conc := by
  induction h with
  | refl => exact ⟨h0, rfl⟩
  | @step s₁ s₂ _ hs ih =>
    obtain ⟨h1, h2⟩ := ih
    cases hs with
    | request c new hh => omega
    | close hh => omega
    | clone hh => omega
    | drop hh => omega
    | time | wakeEarly | wakeLate | dogCloses | status | statusEnd => exact ⟨h1, h2⟩

/-- If nothing is asked and no call is under way, the requests stand still. -/
theorem concSteps_idle {s s' : Conc} (h : ConcSteps dbg tr s s')
    (hc : ∀ c ∈ s.calls, running c = false) (ha : s'.asked = s.asked) :
    s'.calls = s.calls ∧ s'.wire = s.wire := by
  have grow : ∀ {a b : Conc}, ConcStep dbg tr a b →
      (b.asked = a.asked ∨ b.asked.length = a.asked.length + 1) ∧
      (b.asked = a.asked → (b.calls = a.calls ∧ b.wire = a.wire) ∨
        ∃ (i : Nat) (c : Call), a.calls[i]? = some c ∧ running c = true) := by
    intro a b hs
    cases hs <;> first
      | exact ⟨.inl rfl, fun _ => .inr ⟨_, _, by assumption, rfl⟩⟩
      | exact ⟨.inl rfl, fun _ => .inl ⟨rfl, rfl⟩⟩
      | exact ⟨.inr (by simp), fun he => absurd (congrArg List.length he) (by simp)⟩
  have len : ∀ {a b : Conc}, ConcSteps dbg tr a b → a.asked.length ≤ b.asked.length := by
    intro a b h
    induction h with
    | refl => exact Nat.le_refl _
    | step _ hs ih =>
      rcases (grow hs).1 with e | e
      · rw [e]; exact ih
      · omega
  induction h with
  | refl => exact ⟨rfl, rfl⟩
  | @step s₁ s₂ h₁ hs ih =>
    have h2 := len h₁
    have h3 : s₂.asked.length = s.asked.length := congrArg List.length ha
    rcases (grow hs).1 with e | e
    · obtain ⟨i1, i2⟩ := ih (e ▸ ha)
      rcases (grow hs).2 e with ⟨e1, e2⟩ | ⟨i, c, hi, hr⟩
      · exact ⟨e1.trans i1, e2.trans i2⟩
      · rw [i1] at hi
        rw [hc c (List.mem_of_getElem? hi)] at hr
        cases hr
    · omega

end Binate
