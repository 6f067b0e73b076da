import Verif.Spec.Storm
import Verif.Lemmas.WildSystem
import Verif.Lemmas.Hosted

/-! # Lemmas on everything at once: panics are refusals, and a task that is gone was dropped -/

namespace Binate

open Spec RSocketMachine

variable {dbg : Bool} {tr : WildTransport} {e : Error} {role : Role} {timeout created spawned : Nat}

theorem alikeSystem_release {w : WildSystem} {s : System} (h : AlikeSystem tr e w s) :
    AlikeSystem tr e w.release s.release := by
  obtain ⟨h1, h2, h3, h4, h5, h6, h7, h8, h9, h10, h11⟩ := h
  refine ⟨h1, h2, h3, h4, h5, congrArg (· - 1) h6, ?_, h8, h9, h10, h11⟩
  show (w.released || w.strong == 1) = (s.released || s.strong == 1)
  rw [h6, h7]

theorem alikeSystem_deaf {w : WildSystem} {s : System} (h : AlikeSystem tr e w s) :
    AlikeSystem tr e { w.release with listening := false } { s.release with listening := false } := by
  obtain ⟨h1, h2, h3, h4, h5, h6, h7, h8, h9, h10, h11⟩ := alikeSystem_release h
  exact ⟨h1, h2, h3, rfl, h5, h6, h7, h8, h9, h10, h11⟩

theorem hosted_conc {tr : Transport} {h : Hosted}
    (hr : Hosted.Reachable dbg tr role timeout created spawned h) :
    ConcReachable dbg tr (RSocketMachine.new role timeout created) h.sys.conc := by
  obtain ⟨s, hs, ha⟩ := hosted_asleep hr
  rw [ha.conc]
  exact (sysInv hs).conc

theorem wildStep_wire {c c' : WildConc} (hs : WildStep dbg tr c c') : ∃ new, c'.wire = c.wire ++ new := by
  cases hs <;> first
    | exact ⟨_, rfl⟩
    | exact ⟨[], (List.append_nil _).symm⟩

theorem ended_idle {c : Call} (h : Spec.Ended c) : System.busy c = false := by
  cases c <;> first
    | rfl
    | cases h

theorem idle_ended {c : Call} (h : System.busy c = false) : Spec.Ended c := by
  cases c <;> first
    | exact .returned _ _ _
    | exact .panicked _
    | cases h

theorem stormSteps_reach {h h' : Storm} (hs : StormSteps dbg tr h h')
    (hr : Storm.Reachable dbg tr role timeout created spawned h) :
    Storm.Reachable dbg tr role timeout created spawned h' := by
  induction hs with
  | refl => exact hr
  | step hs _ ih => exact ih (.step hr hs)

theorem stormSteps_trans {a b c : Storm} (h : StormSteps dbg tr a b) (h' : StormSteps dbg tr b c) :
    StormSteps dbg tr a c := by
  induction h with
  | refl => exact h'
  | step hs _ ih => exact .step hs (ih h')

/-- A shutdown may have begun unnoticed. -/
theorem storm_forward {h h' : Storm} {g : Hosted} (ha : AlikeStorm tr e h g) (hd : g.down = true)
    (hr : Hosted.Reachable dbg (refusing e tr) role timeout created spawned g)
    (hs : Storm.Step dbg tr h h') :
    ∃ g', Hosted.Step dbg (refusing e tr) g g' ∧ AlikeStorm tr e h' g' ∧ g'.down = true := by
  obtain ⟨a, b⟩ := ha
  cases hs with
  | run s hs hg =>
    obtain ⟨s', h1, h2⟩ := wildSystem_forward a (hosted_conc hr) hs
    refine ⟨_, .run g s' h1 fun hh => ?_, ⟨h2, b⟩, hd⟩
    obtain ⟨k1, k2⟩ := hg (b.trans hh)
    exact ⟨h2.dog.symm.trans (k1.trans a.dog), h2.slept.symm.trans (k2.trans a.slept)⟩
  | shutdown => exact ⟨_, .shutdown g, ⟨a, b⟩, rfl⟩
  | dropDog _ hf hsl =>
    exact ⟨_, .dropDog g hd (b ▸ hf) (a.dog ▸ hsl), ⟨alikeSystem_release a, rfl⟩, hd⟩
  | dropListener _ hl =>
    exact ⟨_, .dropListener g hd (a.listening ▸ hl), ⟨alikeSystem_deaf a, b⟩, hd⟩
  | dogPanics hf hsl _ _ =>
    exact ⟨_, .dropDog g hd (b ▸ hf) (a.dog ▸ hsl), ⟨alikeSystem_release a, rfl⟩, hd⟩
  | listenerPanics _ hl _ =>
    exact ⟨_, .dropListener g hd (a.listening ▸ hl), ⟨alikeSystem_deaf a, b⟩, hd⟩

theorem storm_back {h : Storm} {g g' : Hosted} (hno : ∀ x f, tr x f ≠ .diverge)
    (ha : AlikeStorm tr e h g) (hd : h.down = g.down)
    (hr : Hosted.Reachable dbg (refusing e tr) role timeout created spawned g)
    (hs : Hosted.Step dbg (refusing e tr) g g') :
    ∃ h', Storm.Step dbg tr h h' ∧ AlikeStorm tr e h' g' ∧ h'.down = g'.down := by
  obtain ⟨a, b⟩ := ha
  cases hs with
  | run s hs hg =>
    obtain ⟨w, h1, h2⟩ := wildSystem_back hno a (hosted_conc hr) hs
    refine ⟨_, .run h w h1 fun hh => ?_, ⟨h2, b⟩, hd⟩
    obtain ⟨k1, k2⟩ := hg (b.symm.trans hh)
    exact ⟨h2.dog.trans (k1.trans a.dog.symm), h2.slept.trans (k2.trans a.slept.symm)⟩
  | shutdown => exact ⟨_, .shutdown h, ⟨a, b⟩, rfl⟩
  | dropDog hw hf hsl =>
    exact ⟨_, .dropDog h (hd ▸ hw) (b ▸ hf) (a.dog ▸ hsl), ⟨alikeSystem_release a, rfl⟩, hd⟩
  | dropListener hw hl =>
    exact ⟨_, .dropListener h (hd ▸ hw) (a.listening ▸ hl), ⟨alikeSystem_deaf a, b⟩, hd⟩

theorem storm_hosted (e : Error) {h : Storm}
    (hr : Storm.Reachable dbg tr role timeout created spawned h) :
    ∃ g, Hosted.Reachable dbg (refusing e tr) role timeout created spawned g ∧ AlikeStorm tr e h g ∧
      g.down = true := by
  induction hr with
  | init => exact ⟨_, .step .init (.shutdown _), ⟨alikeSystem_new, rfl⟩, rfl⟩
  | step _ hs ih =>
    obtain ⟨g, hg, ha, hd⟩ := ih
    obtain ⟨g', h1, h2, h3⟩ := storm_forward ha hd hg hs
    exact ⟨g', .step hg h1, h2, h3⟩

theorem storm_steps {h h' : Storm} {g : Hosted} (ha : AlikeStorm tr e h g) (hd : g.down = true)
    (hr : Hosted.Reachable dbg (refusing e tr) role timeout created spawned g)
    (hs : StormSteps dbg tr h h') :
    ∃ g', HostedSteps dbg (refusing e tr) g g' ∧ AlikeStorm tr e h' g' := by
  induction hs generalizing g with
  | refl => exact ⟨g, .refl g, ha⟩
  | step hs _ ih =>
    obtain ⟨g1, h1, h2, h3⟩ := storm_forward ha hd hr hs
    obtain ⟨g2, h4, h5⟩ := ih h2 h3 (.step hr h1)
    exact ⟨g2, .step h1 h4, h5⟩

/-- A watchdog is gone because of the shutdown or after the timeout. -/
theorem storm_gone {h : Storm} (hr : Storm.Reachable dbg tr role timeout created spawned h)
    (hg : h.dogGone = true) : h.down = true ∨ created + timeout < h.sys.clock := by
  induction hr with
  | init => cases hg
  | @step h _ hr hs ih =>
    cases hs with
    | run s hs _ =>
      refine (ih hg).imp_right fun hlt => Nat.lt_of_lt_of_le hlt ?_
      cases hs with
      | time now hn => exact hn
      | _ => exact Nat.le_refl _
    | shutdown => exact .inl rfl
    | dropDog hd => exact .inl hd
    | dropListener hd => exact .inl hd
    | dogPanics _ _ _ hl =>
      obtain ⟨g, hgr, ha, -⟩ := storm_hosted ⟨.io, none⟩ hr
      obtain ⟨s, hsr, hb⟩ := hosted_asleep hgr
      have hm : h.sys.conc.machine = s.conc.machine := by rw [ha.sys.conc.machine, hb.conc]
      rw [hm, (sysInv hsr).timeout, (sysInv hsr).last] at hl
      refine .inr ?_
      show created + timeout < h.sys.clock
      omega
    | listenerPanics => exact ih hg

end Binate
