import Verif.Lemmas.WildHandler
import Verif.Props.Handler
import Verif.Props.HandlerLive

/-! # C115: handlers that panic when they are dropped -/

namespace Binate

open RequestHanlder Spec

variable {H : Type}

/-- **C115**: whatever calls do while handlers panic, they do as well while none does: the handler in
place, the calls that wait, and the lock are the same. -/
theorem C115_as_calm {s t : State H} {es : List (WildEvent H)} (h : WildRun s es t) :
    Run s (es.map withoutPanic) t :=
  wildHandler_run h

/-- **C115**, the other way round: any of the handlers that are dropped may panic, and nothing else
changes. -/
theorem C115_any_panic {s t : State H} {es : List (WildEvent H)} (h : Run s (es.map withoutPanic) t) :
    WildRun s es t :=
  wildHandler_runBack h es rfl

/-- **C115**: the handler in place is that of the call that ended last without being dropped, even if this
call ended with a panic. -/
theorem C115_current {dummy : H} {es : List (WildEvent H)} {s : State H}
    (h : WildRun (State.new dummy) es s) : s.current = (putInPlace es).getLast?.getD dummy := by
  rw [← assigned_withoutPanic]
  exact C80_current (wildHandler_run h)

/-- **C115**: no handler is lost, and none is dropped twice: not the one that panicked, nor the one that
was on its way into its place. -/
theorem C115_kept {dummy : H} {es : List (WildEvent H)} {s : State H}
    (h : WildRun (State.new dummy) es s) :
    (s.dropped ++ s.current :: (pending s).map Call.handler).Perm (dummy :: given es) := by
  rw [← passed_withoutPanic]
  exact C80_kept (wildHandler_run h)

/-- **C115**: a panic does not keep the lock: while some call is pending, the lock can be given, or a call
can return and can end with a panic of the handler that it replaces. -/
theorem C115_no_deadlock (s : State H) (hp : pending s ≠ []) :
    (∃ t, WildStep s (.calm .grant) t) ∨
      ∃ n h t, WildStep s (.calm (.done n h)) t ∧ WildStep s (.donePanics n h) t := by
  rcases C80_no_deadlock s hp with ⟨t, h⟩ | ⟨n, x, t, h⟩
  · exact .inl ⟨t, .calm h⟩
  · exact .inr ⟨n, x, t, .calm h, wildHandler_back (e := .donePanics n x) h⟩

/-- **C115**: in the end every call returns or ends with a panic of the handler that it replaces, having put
its own handler in place in both cases, unless its future is dropped. -/
theorem C115_returns {σ : Nat → State H} {happens : Nat → Option (WildEvent H)}
    (h : WildEndless σ happens) (hl : LockGiven σ) (hh : HoldersRun σ) {n : Nat} {c : Call H}
    (hc : c ∈ pending (σ n)) :
    ∃ k, n ≤ k ∧
      ((happens k = some (.calm (.done c.number c.handler)) ∨
          happens k = some (.donePanics c.number c.handler)) ∧ (σ (k + 1)).current = c.handler ∨
        happens k = some (.calm (.cancel c.number)) ∨ happens k = some (.cancelPanics c.number)) := by
  obtain ⟨k, hk, hd⟩ := C109_returns (wildEndless h) hl hh hc
  refine ⟨k, hk, ?_⟩
  rcases hd with ⟨he, h2⟩ | he
  all_goals
    obtain ⟨e, h1, h3⟩ := Option.map_eq_some_iff.1 he
    rw [h1]
    rcases e with e | ⟨m, x⟩ | m
  · exact .inl ⟨.inl (congrArg _ (congrArg _ h3)), h2⟩
  · obtain ⟨rfl, rfl⟩ := Event.done.inj h3
    exact .inl ⟨.inr rfl, h2⟩
  · cases h3
  · exact .inr (.inl (congrArg _ (congrArg _ h3)))
  · cases h3
  · cases h3
    exact .inr (.inr rfl)

/-- The first handler panics when it is replaced; a call that waits gets the lock all the same, and its
predecessor's handler panics as well. -/
example : ∃ s, WildRun (State.new 0) [.calm (.call 1), .calm (.call 2), .calm (.call 3), .calm .grant,
    .donePanics 0 1, .cancelPanics 2, .calm .grant, .donePanics 1 2] s ∧
    s.current = 2 ∧ s.dropped = [0, 3, 1] ∧ pending s = [] := by
  have r0 := WildRun.nil (State.new 0)
  have r1 := r0.snoc (.calm (.call _ 1))
  have r2 := r1.snoc (.calm (.call _ 2))
  have r3 := r2.snoc (.calm (.call _ 3))
  have r4 := r3.snoc (.calm (.grant _ ⟨0, 1⟩ [⟨1, 2⟩, ⟨2, 3⟩] rfl rfl))
  have r5 := r4.snoc (.donePanics _ ⟨0, 1⟩ rfl)
  have r6 := r5.snoc (.cancelWaitingPanics _ [⟨1, 2⟩] ⟨2, 3⟩ [] rfl)
  have r7 := r6.snoc (.calm (.grant _ ⟨1, 2⟩ [] rfl rfl))
  have r8 := r7.snoc (.donePanics _ ⟨1, 2⟩ rfl)
  exact ⟨_, r8, rfl, rfl, rfl⟩

/-- A call that meets the conditions of `C115_returns` and ends with a panic. -/
example : ∃ (σ : Nat → State Nat) (happens : Nat → Option (WildEvent Nat)), WildEndless σ happens ∧
    LockGiven σ ∧ HoldersRun σ ∧ ⟨0, 7⟩ ∈ pending (σ 0) ∧ happens 1 = some (.donePanics 0 7) := by
  let σ : Nat → State Nat
    | 0 => ⟨5, none, [⟨0, 7⟩], 1, []⟩
    | 1 => ⟨5, some ⟨0, 7⟩, [], 1, []⟩
    | _ + 2 => ⟨7, none, [], 1, [5]⟩
  let happens : Nat → Option (WildEvent Nat)
    | 0 => some (.calm .grant)
    | 1 => some (.donePanics 0 7)
    | _ + 2 => none
  refine ⟨σ, happens, ?_, ?_, ?_, ?_, rfl⟩
  · intro n
    match n with
    | 0 => exact .calm (.grant _ ⟨0, 7⟩ [] rfl rfl)
    | 1 => exact .donePanics _ ⟨0, 7⟩ rfl
    | _ + 2 => rfl
  · intro n hn
    obtain ⟨t, -, ht⟩ := hn (n + 2) (Nat.le_add_right ..)
    have free : ∀ c rest, (σ (n + 2)).queue ≠ c :: rest := nofun
    cases ht with
    | grant c rest _ hq => exact absurd hq (free c rest)
  · intro c x n hn
    obtain ⟨t, -, ht⟩ := hn (n + 2) (Nat.le_add_right ..)
    have free : ∀ c, (σ (n + 2)).holder ≠ some c := nofun
    cases ht with
    | done c hc => exact absurd hc (free c)
  · exact List.mem_singleton.2 rfl

end Binate
