import Verif.Model.System
import Verif.Spec.System
import Verif.Lemmas.System

/-! # Properties of the whole system: requests, background tasks, connection

C73, C75. -/

namespace Binate

open Spec RSocketMachine System

variable {dbg : Bool} {tr : Transport} {role : Role} {timeout created spawned : Nat}

/-! ## C73 -/

/-- **C73**, non-interference: whatever the background tasks do, the requests run as they would run
without them, and the frames that the connection gets are those of the requests, in their order. -/
theorem C73_requests {s : System} (h : Reachable dbg tr role timeout created spawned s) :
    ConcReachable dbg tr (RSocketMachine.new role timeout created) s.conc ∧
    framesOf s.happened = s.conc.wire := ⟨(sysInv h).conc, (sysInv h).frames⟩

/-- **C73**, closing: the connection is closed once per `close()` of the user, and once more
exactly if the watchdog has timed out and ended. -/
theorem C73_closes {s : System} (h : Reachable dbg tr role timeout created spawned s) :
    closesOf s.happened = s.userCloses + taskCount (s.dog == .stopped) := (sysInv h).closes

/-- **C73**, the watchdog acts only after the timeout, and it is due again at most `timeout` after
the later of its start and the end of the timeout, whatever frames were sent or received. -/
theorem C73_watchdog {s : System} (h : Reachable dbg tr role timeout created spawned s) :
    (s.dog ≠ .sleeping → created + timeout < s.clock) ∧
    (s.dog = .sleeping → s.slept ≤ max spawned (created + timeout)) :=
  ⟨(sysInv h).late, (sysInv h).due⟩

/-- **C73**, the log: one line per status that asks for one, in the order in which the listener saw
them, and one line for the timeout somewhere among them exactly if the watchdog has timed out. -/
theorem C73_log {s : System} (h : Reachable dbg tr role timeout created spawned s) :
    ∃ a b, linesOf s.happened =
        a ++ (if s.dog = .sleeping then [] else ["connection keepalive timed out"]) ++ b ∧
      a ++ b = s.seen.flatMap statusReport := (sysInv h).log

/-- **C73**, exactly what the watchdog does: it sleeps for the whole timeout, then it either goes back
to sleep or, if more than the timeout has passed since the machine was made, logs the timeout,
closes the connection and ends. -/
theorem C73_watchdog_steps {s s' : System} (h : Reachable dbg tr role timeout created spawned s)
    (hs : Step dbg tr s s') :
    (s'.dog = s.dog ∧ s'.slept = s.slept) ∨
    (s.dog = .sleeping ∧ s.slept + timeout ≤ s.clock ∧ s.clock ≤ created + timeout ∧
      s'.dog = .sleeping ∧ s'.slept = s.clock ∧ s'.happened = s.happened) ∨
    (s.dog = .sleeping ∧ s.slept + timeout ≤ s.clock ∧ created + timeout < s.clock ∧
      s'.dog = .timedOut ∧
      s'.happened = s.happened ++ [.act (.logError "connection keepalive timed out")]) ∨
    (s.dog = .timedOut ∧ s'.dog = .stopped ∧ s'.happened = s.happened ++ [.act .close]) := by
  have ht := (sysInv h).timeout
  have hl := (sysInv h).last
  cases hs with
  | time now => exact .inl ⟨rfl, rfl⟩
  | request c new hh => exact .inl ⟨rfl, rfl⟩
  | close hh => exact .inl ⟨rfl, rfl⟩
  | wakeEarly hd h1 h2 =>
    rw [ht] at h1
    rw [ht, hl] at h2
    exact .inr (.inl ⟨hd, h1, by omega, hd, rfl, rfl⟩)
  | wakeLate hd h1 h2 =>
    rw [ht] at h1
    rw [ht, hl] at h2
    exact .inr (.inr (.inl ⟨hd, h1, by omega, rfl, rfl⟩))
  | dogCloses hd => exact .inr (.inr (.inr ⟨hd, rfl, rfl⟩))
  | status st hl => exact .inl ⟨rfl, rfl⟩
  | statusEnd hl => exact .inl ⟨rfl, rfl⟩
  | clone hh => exact .inl ⟨rfl, rfl⟩
  | drop hh => exact .inl ⟨rfl, rfl⟩

/-- **C73**, the background tasks are never stuck: a watchdog that has slept long enough can go on,
one that has logged the timeout can close the connection, and the listener can take any status and
the end of the stream. -/
theorem C73_tasks_go_on {s : System} (h : Reachable dbg tr role timeout created spawned s) :
    (s.dog = .sleeping → s.slept + timeout ≤ s.clock → ∃ s', Step dbg tr s s' ∧
      (s'.dog = .timedOut ∨ s'.slept = s.clock)) ∧
    (s.dog = .timedOut → ∃ s', Step dbg tr s s' ∧ s'.dog = .stopped) ∧
    (s.listening = true → ∀ st, ∃ s', Step dbg tr s s' ∧ s'.listening = true ∧
      linesOf s'.happened = linesOf s.happened ++ statusReport st) ∧
    (s.listening = true → ∃ s', Step dbg tr s s' ∧ s'.listening = false) := by
  have ht := (sysInv h).timeout
  refine ⟨fun hd h1 => ?_, fun hd => ⟨_, .dogCloses s hd, rfl⟩, fun hl st => ?_,
    fun hl => ⟨_, .statusEnd s hl, rfl⟩⟩
  · rw [← ht] at h1
    by_cases h2 : s.clock - s.conc.machine.keepaliveLastReceived > s.conc.machine.keepaliveTimeout
    · exact ⟨_, .wakeLate s hd h1 h2, .inl rfl⟩
    · exact ⟨_, .wakeEarly s hd h1 h2, .inr rfl⟩
  · refine ⟨_, .status s st hl, hl, ?_⟩
    show linesOf (s.happened ++ (onStatus st).map .act) = _
    rw [linesOf_append, (of_status st).2.1]

/-- **C73**, the user is never blocked by the background tasks: as long as there is a handle, it can
be closed and cloned, and a request can take every step that it could take without them. -/
theorem C73_user_goes_on {s : System} (h0 : 0 < s.handles) :
    (∃ s', Step dbg tr s s' ∧ s'.happened = s.happened ++ [.act .close]) ∧
    (∃ s', Step dbg tr s s' ∧ s'.handles = s.handles + 1 ∧ s'.conc = s.conc) ∧
    (∀ c, ConcStep dbg tr s.conc c → ∃ s', Step dbg tr s s' ∧ s'.conc = c) := by
  refine ⟨⟨_, .close s h0, rfl⟩, ⟨_, .clone s h0, rfl, rfl⟩, fun c hc => ?_⟩
  have : ∃ new, c.wire = s.conc.wire ++ new := by
    cases hc <;> first
      | exact ⟨_, rfl⟩
      | exact ⟨[], (List.append_nil _).symm⟩
  obtain ⟨new, hn⟩ := this
  exact ⟨_, .request s c new h0 hc hn, rfl⟩

/-- The claim that nothing is handed to the connection once `close()` was called on it. -/
def C73_silent_statement : Prop :=
  ∀ (dbg : Bool) (tr : Transport) (role : Role) (timeout created spawned : Nat) (s : System),
    Reachable dbg tr role timeout created spawned s →
    ∀ a b, s.happened = a ++ .act .close :: b → framesOf b = []

/-- **C73**: that claim is false. The machine does not remember that it closed the connection. -/
theorem C73_silent_false : ¬ C73_silent_statement := by
  intro h
  have := h true openTransport .client 60 0 0 _
    (.step (.step .init (.close _ (by decide))) (.request _ _ [.metadataPush ⟨[]⟩] (by decide)
      (.push _ []) rfl)) [] [.frame (.metadataPush ⟨[]⟩)] rfl
  cases this

/-! ## C75 -/

/-- **C75**, exact: the connection is dropped exactly when the user has dropped every handle and
both background tasks have ended. -/
theorem C75_released_iff {s : System} (h : Reachable dbg tr role timeout created spawned s) :
    s.released = true ↔ s.handles = 0 ∧ s.listening = false ∧ s.dog = .stopped := by
  have inv := sysInv h
  rw [inv.released, beq_iff_eq, inv.strong]
  cases hl : s.listening <;> cases hd : s.dog <;> simp [taskCount]

/-- The claim that dropping all handles releases the connection. -/
def C75_statement : Prop :=
  ∀ (dbg : Bool) (tr : Transport) (role : Role) (timeout created spawned : Nat) (s : System),
    Reachable dbg tr role timeout created spawned s → s.handles = 0 → s.released = true

/-- **C75** is false: the background tasks hold the connection. -/
theorem C75_dropped_false : ¬ C75_statement := by
  intro h
  have := h true openTransport .client 60 0 0 _ (.step .init (.drop _ (by decide) (by
    intro _ c hc; cases hc))) rfl
  cases this

/-- **C75**, what holds for as long as the status stream does not end: the connection is never
dropped, whatever the user does. -/
theorem C75_listener_keeps_partial {s : System}
    (h : Reachable dbg tr role timeout created spawned s) (hl : s.listening = true) :
    s.released = false := by
  cases hr : s.released with
  | false => rfl
  | true =>
    have := ((C75_released_iff h).1 hr).2.1
    rw [hl] at this
    cases this

/-- **C75**: nothing is done to a connection that was dropped, and it is not dropped twice. -/
theorem C75_no_use_after_drop {s s' : System}
    (h : Reachable dbg tr role timeout created spawned s) (hr : s.released = true)
    (hs : Step dbg tr s s') : s'.happened = s.happened ∧ s'.released = true ∧ s'.strong = 0 := by
  obtain ⟨h1, h2, h3⟩ := (C75_released_iff h).1 hr
  have h0 : s.strong = 0 := by
    have := (sysInv h).released
    rw [hr] at this
    simpa using this.symm
  cases hs with
  | time now => exact ⟨rfl, hr, h0⟩
  | request c new hh => omega
  | close hh => omega
  | wakeEarly hd => rw [h3] at hd; cases hd
  | wakeLate hd => rw [h3] at hd; cases hd
  | dogCloses hd => rw [h3] at hd; cases hd
  | status st hl => rw [h2] at hl; cases hl
  | statusEnd hl => rw [h2] at hl; cases hl
  | clone hh => omega
  | drop hh => omega

/-- **C75**: no request is still going on when the last handle, and so when the connection, is
dropped. -/
theorem C75_calls_ended {s : System} (h : Reachable dbg tr role timeout created spawned s)
    (h0 : s.handles = 0 ∨ s.released = true) : ∀ c ∈ s.conc.calls, Ended c := by
  have h0 : s.handles = 0 := h0.elim id fun hr => ((C75_released_iff h).1 hr).1
  induction h with
  | init => cases h0
  | @step s s' hr hs ih =>
    have key : s.handles = 0 → s'.conc = s.conc → ∀ c ∈ s'.conc.calls, Ended c :=
      fun hh he => he ▸ ih (.inl hh) hh
    cases hs with
    | time now => exact key h0 rfl
    | request c new hh => exact absurd h0 (Nat.pos_iff_ne_zero.1 hh)
    | close hh => exact absurd h0 (Nat.pos_iff_ne_zero.1 hh)
    | wakeEarly hd => exact key h0 rfl
    | wakeLate hd => exact key h0 rfl
    | dogCloses hd => exact key h0 rfl
    | status st hl => exact key h0 rfl
    | statusEnd hl => exact key h0 rfl
    | clone hh => cases h0
    | drop hh hb =>
      have h1 : s.handles - 1 = 0 := h0
      intro c hc
      have := hb (by omega) c hc
      cases c with
      | done => exact .returned ..
      | panicked => exact .panicked _
      | probing | checking | sending | sendingOne => cases this

/-- **C75**: a handle can always be dropped if there is another one or no request is going on. -/
theorem C75_can_drop {s : System} (h0 : 0 < s.handles)
    (hc : 1 < s.handles ∨ ∀ c ∈ s.conc.calls, Ended c) :
    ∃ s', Step dbg tr s s' ∧ s'.handles + 1 = s.handles := by
  refine ⟨_, .drop s h0 fun h1 c hm => ?_, ?_⟩
  · rcases hc with hc | hc
    · omega
    · cases hc c hm <;> rfl
  · show s.handles - 1 + 1 = s.handles
    omega

/-- Non-vacuity: a run in which the watchdog times out, the status stream ends, the user drops the
handle, and the connection is dropped. -/
example : ∃ s, Reachable true openTransport .client 60 0 0 s ∧ s.released = true ∧
    s.happened = [.act (.logError "connection keepalive timed out"), .act .close] :=
  ⟨_, .step (.step (.step (.step (.step .init (.time _ 61 (by decide)))
    (.wakeLate _ rfl (by decide) (by decide))) (.dogCloses _ rfl)) (.statusEnd _ rfl))
    (.drop _ (by decide) (by intro _ c hc; cases hc)), rfl, rfl⟩

end Binate
