import Verif.Spec.Hosted
import Verif.Lemmas.System

/-! # Lemmas on a machine whose runtime is shut down -/

namespace Binate

open Spec RSocketMachine

variable {dbg : Bool} {tr : Transport} {role : Role} {timeout created spawned : Nat}

theorem SameButCount.symm {a b : System} (h : SameButCount a b) : SameButCount b a :=
  ⟨h.1.symm, h.2.symm, h.3.symm, h.4.symm, h.5.symm, h.6.symm, h.7.symm, h.8.symm, h.9.symm⟩

/-- The count of references decides nothing. -/
theorem sameButCount_step {a a' b : System} (h : SameButCount a b) (hs : System.Step dbg tr a a') :
    ∃ b', System.Step dbg tr b b' ∧ SameButCount a' b' := by
  obtain ⟨h1, h2, h3, h4, h5, h6, h7, h8, h9⟩ := h
  cases hs with
  | time now hn => exact ⟨_, .time b now (h6 ▸ hn), h1, h2, h3, h4, h5, rfl, h7, h8, h9⟩
  | request c new hh hs hc =>
    rw [h1] at hs hc
    exact ⟨_, .request b c new (h5 ▸ hh) hs hc, rfl, h2, h3, h4, h5, h6, congrArg (· ++ _) h7, h8, h9⟩
  | close hh =>
    exact ⟨_, .close b (h5 ▸ hh), h1, h2, h3, h4, h5, h6, congrArg (· ++ _) h7, congrArg (· + 1) h8, h9⟩
  | wakeEarly hd hl hn =>
    rw [h1, h6] at hn
    rw [h3, h1, h6] at hl
    exact ⟨_, .wakeEarly b (h2 ▸ hd) hl hn, h1, h2, h6, h4, h5, h6, h7, h8, h9⟩
  | wakeLate hd hl hn =>
    rw [h1, h6] at hn
    rw [h3, h1, h6] at hl
    exact ⟨_, .wakeLate b (h2 ▸ hd) hl hn, h1, rfl, h3, h4, h5, h6, congrArg (· ++ _) h7, h8, h9⟩
  | dogCloses hd =>
    exact ⟨_, .dogCloses b (h2 ▸ hd), h1, rfl, h3, h4, h5, h6, congrArg (· ++ _) h7, h8, h9⟩
  | status st hl =>
    exact ⟨_, .status b st (h4 ▸ hl), h1, h2, h3, h4, h5, h6, congrArg (· ++ _) h7, h8,
      congrArg (· ++ _) h9⟩
  | statusEnd hl => exact ⟨_, .statusEnd b (h4 ▸ hl), h1, h2, h3, rfl, h5, h6, h7, h8, h9⟩
  | clone hh => exact ⟨_, .clone b (h5 ▸ hh), h1, h2, h3, h4, congrArg (· + 1) h5, h6, h7, h8, h9⟩
  | drop hh hb =>
    rw [h5, h1] at hb
    exact ⟨_, .drop b (h5 ▸ hh) hb, h1, h2, h3, h4, congrArg (· - 1) h5, h6, h7, h8, h9⟩

theorem release_listener {s : System} {k : Nat} (h : s.strong = s.handles + taskCount s.listening + k)
    (hl : s.listening = true) : s.release.strong = s.handles + taskCount false + k := by
  rw [hl] at h
  show s.strong - 1 = _
  rw [h]
  show s.handles + 1 + k - 1 = s.handles + 0 + k
  omega

/-- What holds in every reachable state. -/
structure HostInv (h : Hosted) : Prop where
  strong : h.sys.strong =
    h.sys.handles + taskCount h.sys.listening + taskCount (h.sys.dog != .stopped && !h.dogDropped)
  released : h.sys.released = (h.sys.strong == 0)
  dropped : h.dogDropped = true → h.sys.dog = .sleeping
  down : h.dogDropped = true → h.down = true

theorem hostInv {h : Hosted} (hr : Hosted.Reachable dbg tr role timeout created spawned h) :
    HostInv h := by
  induction hr with
  | init => exact ⟨rfl, rfl, nofun, nofun⟩
  | @step h _ _ hs inv =>
    obtain ⟨i1, i2, i3, i4⟩ := inv
    cases hs with
    | shutdown => exact ⟨i1, i2, i3, fun _ => rfl⟩
    | dropDog hd hf hsl =>
      refine ⟨?_, release_released i2, fun _ => hsl, fun _ => hd⟩
      rw [hf, hsl] at i1
      show _ - 1 = _ + _ + taskCount (_ && !true)
      rw [i1, Bool.not_true, Bool.and_false]
      rfl
    | dropListener hd hl =>
      exact ⟨release_listener i1 hl, release_released i2, i3, i4⟩
    | run s hs hg =>
      cases hs with
      | time now hn => exact ⟨i1, i2, i3, i4⟩
      | request c new hh hs hc => exact ⟨i1, i2, i3, i4⟩
      | close hh => exact ⟨i1, i2, i3, i4⟩
      | wakeEarly hd hl hn => exact ⟨i1, i2, i3, i4⟩
      | wakeLate hd hl hn =>
        refine ⟨?_, i2, fun h => ((hg h).1.trans (i3 h)), i4⟩
        rw [hd] at i1
        exact i1
      | dogCloses hd =>
        have hf : ¬ h.dogDropped = true := fun hf => by rw [i3 hf] at hd; cases hd
        refine ⟨?_, release_released (s := h.sys.emit [.act .close]) i2, fun hh => absurd hh hf, i4⟩
        rw [Bool.not_eq_true] at hf
        rw [hf, hd] at i1
        show h.sys.strong - 1 = h.sys.handles + taskCount h.sys.listening + 0
        rw [i1]
        rfl
      | status st hl => exact ⟨i1, i2, i3, i4⟩
      | statusEnd hl =>
        exact ⟨release_listener i1 hl, release_released i2, i3, i4⟩
      | clone hh =>
        refine ⟨?_, ?_, i3, i4⟩
        · show h.sys.strong + 1 = h.sys.handles + 1 + taskCount h.sys.listening +
            taskCount (h.sys.dog != .stopped && !h.dogDropped)
          omega
        · show h.sys.released = (h.sys.strong + 1 == 0)
          rw [i2, beq_eq_false_iff_ne.2 (show h.sys.strong ≠ 0 by omega)]
          rfl
      | drop hh hb =>
        refine ⟨?_, release_released i2, i3, i4⟩
        show h.sys.strong - 1 = h.sys.handles - 1 + taskCount h.sys.listening +
          taskCount (h.sys.dog != .stopped && !h.dogDropped)
        omega

theorem hosted_asleep {h : Hosted} (hr : Hosted.Reachable dbg tr role timeout created spawned h) :
    ∃ s, System.Reachable dbg tr role timeout created spawned s ∧ SameButCount h.sys s := by
  induction hr with
  | init => exact ⟨_, .init, rfl, rfl, rfl, rfl, rfl, rfl, rfl, rfl, rfl⟩
  | step _ hs ih =>
    obtain ⟨s, hr, ha⟩ := ih
    cases hs with
    | run s' hs _ =>
      obtain ⟨b, hb, hab⟩ := sameButCount_step ha hs
      exact ⟨b, .step hr hb, hab⟩
    | shutdown => exact ⟨s, hr, ha⟩
    | dropDog => exact ⟨s, hr, ha.1, ha.2, ha.3, ha.4, ha.5, ha.6, ha.7, ha.8, ha.9⟩
    | dropListener hd hl =>
      exact ⟨_, .step hr (.statusEnd s (ha.listening ▸ hl)), ha.1, ha.2, ha.3, rfl, ha.5, ha.6, ha.7, ha.8,
        ha.9⟩

theorem HostedSteps.keep {h h' : Hosted} (hs : HostedSteps dbg tr h h')
    (hr : Hosted.Reachable dbg tr role timeout created spawned h) :
    Hosted.Reachable dbg tr role timeout created spawned h' ∧
    (h.dogDropped = true → h'.dogDropped = true) := by
  induction hs with
  | refl => exact ⟨hr, id⟩
  | step hs _ ih =>
    obtain ⟨h1, h2⟩ := ih (.step hr hs)
    refine ⟨h1, fun hd => h2 ?_⟩
    cases hs with
    | run => exact hd
    | shutdown => exact hd
    | dropDog => rfl
    | dropListener => exact hd

end Binate
