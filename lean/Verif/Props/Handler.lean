import Verif.Lemmas.Handler

/-! # Properties of `set_request_handler`

C80. -/

namespace Binate

open RequestHanlder Spec

variable {H : Type}

/-- **C80**: the handler behind the lock is that of the call that returned last, and the one that
the machine was made with before any call returned. -/
theorem C80_current {dummy : H} {es : List (Event H)} {s : State H}
    (hr : Run (State.new dummy) es s) : s.current = (assigned es).getLast?.getD dummy :=
  (handlerInv hr).current

/-- **C80**: a call that returns has put in place the handler that was passed to it. -/
theorem C80_own {dummy : H} {es : List (Event H)} {s : State H}
    (hr : Run (State.new dummy) es s) (n : Nat) (h : H) (hn : Event.done n h ∈ es) :
    (passed es)[n]? = some h :=
  (handlerInv hr).theirs n h hn

/-- **C80**: calls return in the order in which they were made. -/
theorem C80_order {dummy : H} {es : List (Event H)} {s : State H}
    (hr : Run (State.new dummy) es s) : (returned es).Pairwise (· < ·) :=
  (List.pairwise_append.1 (handlerInv hr).fifo).1

/-- **C80**: every call is exactly one of returned, dropped and pending, and only once; in
particular a call that was dropped never puts its handler in place, not even later. -/
theorem C80_once {dummy : H} {es : List (Event H)} {s : State H}
    (hr : Run (State.new dummy) es s) :
    (returned es ++ cancelled es ++ (pending s).map Call.number).Perm
      (List.range (passed es).length) :=
  (handlerInv hr).once

/-- **C80**: no handler is lost and none is dropped twice: the dropped ones, the one behind the lock
and those of the pending calls are the first one and the ones passed to calls. -/
theorem C80_kept {dummy : H} {es : List (Event H)} {s : State H}
    (hr : Run (State.new dummy) es s) :
    (s.dropped ++ s.current :: (pending s).map Call.handler).Perm (dummy :: passed es) :=
  (handlerInv hr).kept

/-- **C80**: the calls do not block each other for good: while some call is pending, the lock can be
given or a call can return. -/
theorem C80_no_deadlock (s : State H) (hp : pending s ≠ []) :
    (∃ t, Step s .grant t) ∨ ∃ n h t, Step s (.done n h) t := by
  cases hh : s.holder with
  | some c => exact .inr ⟨_, _, _, .done s c hh⟩
  | none =>
    cases hq : s.queue with
    | nil => exact absurd (by simp [pending, hh, hq]) hp
    | cons c rest => exact .inl ⟨_, .grant s c rest hh hq⟩

/-- **C80**: whatever the others do, a call can be made at any time, and the future of a pending call
can be dropped at any time; the other calls stay in their order. -/
theorem C80_call_and_cancel (s : State H) :
    (∀ h, ∃ t, Step s (.call h) t ∧ (pending t).map Call.handler =
      (pending s).map Call.handler ++ [h]) ∧
    (∀ front c back, pending s = front ++ c :: back →
      ∃ t, Step s (.cancel c.number) t ∧ pending t = front ++ back) := by
  refine ⟨fun h => ⟨_, .call s h, ?_⟩, fun front c back hp => ?_⟩
  · simp [pending]
  · cases hh : s.holder with
    | none =>
      have hq : s.queue = front ++ c :: back := by
        rw [← hp]; simp [pending, hh]
      exact ⟨_, .cancelWaiting s front c back hq, by simp [pending, hh]⟩
    | some d =>
      have hq : d :: s.queue = front ++ c :: back := by
        rw [← hp]; simp [pending, hh]
      cases front with
      | nil =>
        cases hq
        exact ⟨_, .cancelHolding s c hh, by simp [pending]⟩
      | cons e front =>
        obtain ⟨rfl, hq'⟩ := List.cons.inj hq
        exact ⟨_, .cancelWaiting s front c back hq', by simp [pending, hh]⟩

/-- **C80**: nobody is overtaken for good: once more calls have returned than were before it, a
call has returned itself, unless it was dropped. -/
theorem C80_served {s t : State H} {es : List (Event H)} (hr : Run s es t)
    {front back : List (Call H)} {c : Call H} (hp : pending s = front ++ c :: back)
    (hn : front.length < (returned es).length) :
    c.number ∈ returned es ∨ c.number ∈ cancelled es := by
  rcases served_inv hr hp with h | h | ⟨_, _, _, h⟩
  · exact .inl h
  · exact .inr h
  · omega

/-- **C80**: at any time all pending calls can be brought to return, by at most two steps for each
of them. -/
theorem C80_finish (s : State H) : ∃ es t, Run s es t ∧ pending t = [] ∧
    returned es = (pending s).map Call.number ∧ cancelled es = [] ∧
    es.length ≤ 2 * (pending s).length := by
  generalize hn : (pending s).length = n
  induction n generalizing s with
  | zero =>
    have h0 := List.length_eq_zero_iff.1 hn
    exact ⟨[], s, .nil s, h0, by rw [h0]; rfl, rfl, by simp⟩
  | succ n ih =>
    have trans : ∀ {a b : State H} {xs : List (Event H)}, Run a xs b → ∀ {c ys}, Run b ys c →
        Run a (xs ++ ys) c := by
      intro a b xs h1 c ys h2
      induction h2 with
      | nil => simpa using h1
      | snoc _ st ih => rw [← List.append_assoc]; exact .snoc ih st
    have main : ∀ (a : State H) (c : Call H), a.holder = some c → a.queue.length = n →
        ∃ es t, Run a es t ∧ pending t = [] ∧ returned es = (pending a).map Call.number ∧
          cancelled es = [] ∧ es.length ≤ 2 * n + 1 := by
      intro a c hc hq
      have hs : Step a (.done c.number c.handler) _ := .done a c hc
      obtain ⟨es, t, r1, r2, r3, r4, r5⟩ := ih
        { a with current := c.handler, holder := none, dropped := a.dropped ++ [a.current] }
        (by simpa [pending] using hq)
      refine ⟨[.done c.number c.handler] ++ es, t, trans (.snoc (.nil a) hs) r1, r2, ?_, ?_, ?_⟩
      · have : returned ([.done c.number c.handler] ++ es) = c.number :: returned es := rfl
        rw [this, r3]
        simp [pending, hc]
      · exact r4
      · simp only [List.length_append, List.length_singleton]
        omega
    cases hh : s.holder with
    | some c =>
      obtain ⟨es, t, r1, r2, r3, r4, r5⟩ := main s c hh (by simpa [pending, hh] using hn)
      exact ⟨es, t, r1, r2, r3, r4, by omega⟩
    | none =>
      cases hq : s.queue with
      | nil => simp [pending, hh, hq] at hn
      | cons c rest =>
        obtain ⟨es, t, r1, r2, r3, r4, r5⟩ := main { s with holder := some c, queue := rest } c rfl
          (by simpa [pending, hh, hq] using hn)
        refine ⟨[.grant] ++ es, t, trans (.snoc (.nil s) (.grant s c rest hh hq)) r1, r2, ?_, r4, ?_⟩
        · have : returned ([.grant] ++ es) = returned es := rfl
          rw [this, r3]
          simp [pending, hh, hq]
        · simp only [List.length_append, List.length_singleton]
          omega

/-- Handlers 1 and 2 are passed in that order, the first call is dropped while it has the lock, and
the second puts its handler in place of handler 0. -/
example : ∃ s : State Nat, Run (State.new 0)
    [.call 1, .call 2, .grant, .cancel 0, .grant, .done 1 2] s ∧ s.current = 2 ∧
      s.dropped = [1, 0] :=
  ⟨_, .snoc (.snoc (.snoc (.snoc (.snoc (.snoc (.nil _) (.call _ 1)) (.call _ 2))
    (.grant _ ⟨0, 1⟩ [⟨1, 2⟩] rfl rfl)) (.cancelHolding _ ⟨0, 1⟩ rfl))
    (.grant _ ⟨1, 2⟩ [] rfl rfl)) (.done _ ⟨1, 2⟩ rfl), rfl, rfl⟩

end Binate
