import Verif.Lemmas.WildConc
import Verif.Lemmas.System
import Verif.Spec.WildSystem

/-! # The system over a connection that panics: simulation in both directions -/

namespace Binate

open Spec RSocketMachine

variable {dbg : Bool} {tr : WildTransport} {e : Error} {role : Role} {timeout created spawned : Nat}

theorem alike_busy {w : WildConc} {s : Conc} (h : Alike tr e w s) :
    (∀ c ∈ w.calls, System.busy c = false) ↔ ∀ c ∈ s.calls, System.busy c = false := by
  constructor
  · intro hw c hc
    obtain ⟨i, hi⟩ := List.mem_iff_getElem?.1 hc
    obtain ⟨hl, -⟩ := List.getElem?_eq_some_iff.1 hi
    have hj : w.calls[i]? = some (w.calls[i]'(by rw [h.count]; exact hl)) := List.getElem?_eq_getElem _
    rcases h.calls i _ _ hj hi with h1 | ⟨p, sid, -, h2, -⟩
    · rw [← h1]; exact hw _ (List.mem_of_getElem? hj)
    · rw [h2]; rfl
  · intro hs c hc
    obtain ⟨i, hi⟩ := List.mem_iff_getElem?.1 hc
    obtain ⟨hl, -⟩ := List.getElem?_eq_some_iff.1 hi
    have hj : s.calls[i]? = some (s.calls[i]'(by rw [← h.count]; exact hl)) := List.getElem?_eq_getElem _
    rcases h.calls i _ _ hi hj with h1 | ⟨p, sid, h2, -, -⟩
    · rw [h1]; exact hs _ (List.mem_of_getElem? hj)
    · rw [h2]; rfl

theorem wildSystem_forward {w w' : WildSystem} {s : System} (h : AlikeSystem tr e w s)
    {m : RSocketMachine} (hr : ConcReachable dbg (refusing e tr) m s.conc)
    (hs : WildSystem.Step dbg tr w w') :
    ∃ s', System.Step dbg (refusing e tr) s s' ∧ AlikeSystem tr e w' s' := by
  obtain ⟨h1, h2, h3, h4, h5, h6, h7, h8, h9, h10, h11⟩ := h
  cases hs with
  | time now hn =>
    exact ⟨_, .time s now (h8 ▸ hn), h1, h2, h3, h4, h5, h6, h7, rfl, h9, h10, h11⟩
  | request c new hh hs hc =>
    obtain ⟨c', hs', ha⟩ := wild_forward h1 hr hs
    refine ⟨_, .request s c' new (h5 ▸ hh) hs' (by rw [← ha.wire, hc, h1.wire]), ha, h2, h3, h4, h5, h6,
      h7, h8, congrArg (· ++ _) h9, h10, h11⟩
  | close hh =>
    exact ⟨_, .close s (h5 ▸ hh), h1, h2, h3, h4, h5, h6, h7, h8, congrArg (· ++ _) h9,
      congrArg (· + 1) h10, h11⟩
  | closePanics hh =>
    exact ⟨_, .close s (h5 ▸ hh), h1, h2, h3, h4, h5, h6, h7, h8, congrArg (· ++ _) h9,
      congrArg (· + 1) h10, h11⟩
  | wakeEarly hd hl hn =>
    rw [h1.machine, h8] at hn
    rw [h3, h1.machine, h8] at hl
    exact ⟨_, .wakeEarly s (h2 ▸ hd) hl hn, h1, h2, h8, h4, h5, h6, h7, h8, h9, h10, h11⟩
  | wakeLate hd hl hn =>
    rw [h1.machine, h8] at hn
    rw [h3, h1.machine, h8] at hl
    exact ⟨_, .wakeLate s (h2 ▸ hd) hl hn, h1, rfl, h3, h4, h5, h6, h7, h8, congrArg (· ++ _) h9, h10, h11⟩
  | dogCloses hd =>
    refine ⟨_, .dogCloses s (h2 ▸ hd), h1, rfl, h3, h4, h5, congrArg (· - 1) h6, ?_, h8,
      congrArg (· ++ _) h9, h10, h11⟩
    show (w.released || w.strong == 1) = (s.released || s.strong == 1)
    rw [h6, h7]
  | dogPanics hd =>
    refine ⟨_, .dogCloses s (h2 ▸ hd), h1, rfl, h3, h4, h5, congrArg (· - 1) h6, ?_, h8,
      congrArg (· ++ _) h9, h10, h11⟩
    show (w.released || w.strong == 1) = (s.released || s.strong == 1)
    rw [h6, h7]
  | status st hl =>
    exact ⟨_, .status s st (h4 ▸ hl), h1, h2, h3, h4, h5, h6, h7, h8, congrArg (· ++ _) h9, h10,
      congrArg (· ++ _) h11⟩
  | statusEnd hl =>
    refine ⟨_, .statusEnd s (h4 ▸ hl), h1, h2, h3, rfl, h5, congrArg (· - 1) h6, ?_, h8, h9, h10, h11⟩
    show (w.released || w.strong == 1) = (s.released || s.strong == 1)
    rw [h6, h7]
  | statusPanics hl =>
    refine ⟨_, .statusEnd s (h4 ▸ hl), h1, h2, h3, rfl, h5, congrArg (· - 1) h6, ?_, h8, h9, h10, h11⟩
    show (w.released || w.strong == 1) = (s.released || s.strong == 1)
    rw [h6, h7]
  | clone hh =>
    exact ⟨_, .clone s (h5 ▸ hh), h1, h2, h3, h4, congrArg (· + 1) h5, congrArg (· + 1) h6, h7, h8, h9, h10,
      h11⟩
  | drop hh hb =>
    refine ⟨_, .drop s (h5 ▸ hh) fun h => (alike_busy h1).1 (hb (h5.trans h)), h1, h2, h3, h4,
      congrArg (· - 1) h5, congrArg (· - 1) h6, ?_, h8, h9, h10, h11⟩
    show (w.released || w.strong == 1) = (s.released || s.strong == 1)
    rw [h6, h7]

theorem wildSystem_back {w : WildSystem} {s s' : System} (hno : ∀ x f, tr x f ≠ .diverge)
    (h : AlikeSystem tr e w s)
    {m : RSocketMachine} (hr : ConcReachable dbg (refusing e tr) m s.conc)
    (hs : System.Step dbg (refusing e tr) s s') :
    ∃ w', WildSystem.Step dbg tr w w' ∧ AlikeSystem tr e w' s' := by
  obtain ⟨h1, h2, h3, h4, h5, h6, h7, h8, h9, h10, h11⟩ := h
  cases hs with
  | time now hn =>
    exact ⟨_, .time w now (h8 ▸ hn), h1, h2, h3, h4, h5, h6, h7, rfl, h9, h10, h11⟩
  | request c new hh hs hc =>
    obtain ⟨c', hs', ha⟩ := wild_back hno h1 hr hs
    refine ⟨_, .request w c' new (h5 ▸ hh) hs' (by rw [ha.wire, hc, h1.wire]), ha, h2, h3, h4, h5, h6,
      h7, h8, congrArg (· ++ _) h9, h10, h11⟩
  | close hh =>
    exact ⟨_, .close w (h5 ▸ hh), h1, h2, h3, h4, h5, h6, h7, h8, congrArg (· ++ _) h9,
      congrArg (· + 1) h10, h11⟩
  | wakeEarly hd hl hn =>
    rw [← h1.machine, ← h8] at hn
    rw [← h3, ← h1.machine, ← h8] at hl
    exact ⟨_, .wakeEarly w (h2 ▸ hd) hl hn, h1, h2, h8, h4, h5, h6, h7, h8, h9, h10, h11⟩
  | wakeLate hd hl hn =>
    rw [← h1.machine, ← h8] at hn
    rw [← h3, ← h1.machine, ← h8] at hl
    exact ⟨_, .wakeLate w (h2 ▸ hd) hl hn, h1, rfl, h3, h4, h5, h6, h7, h8, congrArg (· ++ _) h9, h10, h11⟩
  | dogCloses hd =>
    refine ⟨_, .dogCloses w (h2 ▸ hd), h1, rfl, h3, h4, h5, congrArg (· - 1) h6, ?_, h8,
      congrArg (· ++ _) h9, h10, h11⟩
    show (w.released || w.strong == 1) = (s.released || s.strong == 1)
    rw [h6, h7]
  | status st hl =>
    exact ⟨_, .status w st (h4 ▸ hl), h1, h2, h3, h4, h5, h6, h7, h8, congrArg (· ++ _) h9, h10,
      congrArg (· ++ _) h11⟩
  | statusEnd hl =>
    refine ⟨_, .statusEnd w (h4 ▸ hl), h1, h2, h3, rfl, h5, congrArg (· - 1) h6, ?_, h8, h9, h10, h11⟩
    show (w.released || w.strong == 1) = (s.released || s.strong == 1)
    rw [h6, h7]
  | clone hh =>
    exact ⟨_, .clone w (h5 ▸ hh), h1, h2, h3, h4, congrArg (· + 1) h5, congrArg (· + 1) h6, h7, h8, h9, h10,
      h11⟩
  | drop hh hb =>
    refine ⟨_, .drop w (h5 ▸ hh) fun h => (alike_busy h1).2 (hb (h5.symm.trans h)), h1, h2, h3, h4,
      congrArg (· - 1) h5, congrArg (· - 1) h6, ?_, h8, h9, h10, h11⟩
    show (w.released || w.strong == 1) = (s.released || s.strong == 1)
    rw [h6, h7]

theorem alikeSystem_new : AlikeSystem tr e (WildSystem.new role timeout created spawned)
    (System.new role timeout created spawned) :=
  ⟨alike_init _, rfl, rfl, rfl, rfl, rfl, rfl, rfl, rfl, rfl, rfl⟩

end Binate
