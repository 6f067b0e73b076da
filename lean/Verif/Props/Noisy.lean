import Verif.Model.Noisy
import Verif.Spec.Noisy
import Verif.Lemmas.Noisy
import Verif.Props.Hosted

/-! # Log lines that panic

C117. -/

namespace Binate

open Spec RSocketMachine

variable {dbg : Bool} {tr : Transport} {role : Role} {timeout created spawned : Nat}

/-- **C117**: the requests are not disturbed, and no panic is added to what the machine could otherwise have
done, up to the count of references. -/
theorem C117_requests {h : Noisy} (hr : Noisy.Reachable dbg tr role timeout created spawned h) :
    ConcReachable dbg tr (RSocketMachine.new role timeout created) h.sys.conc ∧
    framesOf h.sys.happened = h.sys.conc.wire ∧
    ∃ s, System.Reachable dbg tr role timeout created spawned s ∧ SameButCount h.sys s :=
  ⟨(C116_requests (noisy_hosted hr)).1, (C116_requests (noisy_hosted hr)).2,
    (C116_as_asleep (noisy_hosted hr)).1⟩

/-- **C117**, the user goes on: while there is a handle, it can be closed and cloned, and a request can take
every step that it could take otherwise. -/
theorem C117_user_goes_on {h : Noisy} (h0 : 0 < h.sys.handles) :
    (∃ h', Noisy.Step dbg tr h h' ∧ h'.sys.happened = h.sys.happened ++ [.act .close]) ∧
    (∃ h', Noisy.Step dbg tr h h' ∧ h'.sys.handles = h.sys.handles + 1 ∧ h'.sys.conc = h.sys.conc) ∧
    (∀ c, ConcStep dbg tr h.sys.conc c → ∃ h', Noisy.Step dbg tr h h' ∧ h'.sys.conc = c) := by
  refine ⟨⟨_, .run h _ (.close _ h0) fun _ => ⟨rfl, rfl⟩, rfl⟩,
    ⟨_, .run h _ (.clone _ h0) fun _ => ⟨rfl, rfl⟩, rfl, rfl⟩, fun c hc => ?_⟩
  have : ∃ new, c.wire = h.sys.conc.wire ++ new := by
    cases hc <;> first
      | exact ⟨_, rfl⟩
      | exact ⟨[], (List.append_nil _).symm⟩
  obtain ⟨new, hn⟩ := this
  exact ⟨_, .run h _ (.request _ c new h0 hc hn) fun _ => ⟨rfl, rfl⟩, rfl⟩

/-- **C117**, no reference is leaked: the connection is dropped exactly when the user has dropped every handle
and each background task has ended, with a panic or not. Nothing is done to it afterwards. -/
theorem C117_released {h h' : Noisy} (hr : Noisy.Reachable dbg tr role timeout created spawned h) :
    (h.sys.released = true ↔
      h.sys.handles = 0 ∧ h.sys.listening = false ∧ (h.sys.dog = .stopped ∨ h.dogPanicked = true)) ∧
    (h.sys.released = true → Noisy.Step dbg tr h h' →
      (∀ c ∈ h.sys.conc.calls, Ended c) ∧ h'.sys.happened = h.sys.happened ∧ h'.sys.released = true) :=
  ⟨C116_released_iff (noisy_hosted hr),
    fun hd hs => C116_no_use_after_drop (noisy_hosted hr) hd (noisy_step hs)⟩

/-- The claim that the watchdog closes the connection before it ends. -/
def C117_closes_statement : Prop :=
  ∀ (dbg : Bool) (tr : Transport) (role : Role) (timeout created spawned : Nat) (h : Noisy),
    Noisy.Reachable dbg tr role timeout created spawned h →
    h.sys.dog = .stopped ∨ h.dogPanicked = true → closesOf h.sys.happened = h.sys.userCloses + 1

/-- **C117** is false: `handle_connection_error` logs first and closes afterwards, so a panic while the timeout
is logged leaves the connection open. -/
theorem C117_closes_false : ¬ C117_closes_statement := by
  intro h
  have := h true openTransport .client 60 0 0 _
    (.step (.step .init (.run _ _ (.time _ 61 (by decide)) nofun))
      (.dogPanics _ rfl rfl (by decide) (by decide))) (.inr rfl)
  cases this

/-- **C117**, what holds: the watchdog has closed the connection exactly if it has ended without a panic. If it
panicked, the timeout had passed, and from then on nobody but the user closes the connection and no timeout is
in the log. -/
theorem C117_closes_partial {h : Noisy} (hr : Noisy.Reachable dbg tr role timeout created spawned h) :
    closesOf h.sys.happened = h.sys.userCloses + taskCount (h.sys.dog == .stopped) ∧
    (h.dogPanicked = true → created + timeout < h.sys.clock ∧
      ∀ h', NoisySteps dbg tr h h' → closesOf h'.sys.happened = h'.sys.userCloses ∧
        linesOf h'.sys.happened = h'.sys.seen.flatMap statusReport) :=
  ⟨C116_closes (noisy_hosted hr), fun hp => ⟨noisy_late hr hp, fun _ hs =>
    C116_unwatched (noisy_hosted hr) hp (noisy_steps hs)⟩⟩

/-- **C117**: a listener that panicked, or has ended otherwise, reports nothing more. The watchdog is not
affected. -/
theorem C117_listener {h h' : Noisy} (hs : Noisy.Step dbg tr h h') :
    (h.sys.listening = false → h'.sys.listening = false ∧ h'.sys.seen = h.sys.seen) ∧
    (h.sys.listening = true → h'.sys.listening = false →
      h'.sys.dog = h.sys.dog ∧ h'.sys.slept = h.sys.slept ∧ h'.dogPanicked = h.dogPanicked ∧
      h'.sys.happened = h.sys.happened ∧ h'.sys.conc = h.sys.conc ∧ h'.sys.handles = h.sys.handles) := by
  cases hs with
  | run s hs _ =>
    refine ⟨system_deaf hs, fun h1 h2 => ?_⟩
    cases hs with
    | statusEnd => exact ⟨rfl, rfl, rfl, rfl, rfl, rfl⟩
    | _ => cases h1.symm.trans h2
  | dogPanics => exact ⟨fun hl => ⟨hl, rfl⟩, fun h1 h2 => by cases h1.symm.trans h2⟩
  | listenerPanics st hl => exact ⟨fun h => (by rw [hl] at h; cases h), fun _ _ => ⟨rfl, rfl, rfl, rfl, rfl, rfl⟩⟩

/-- An error of the transport whose `Display` panics: the listener is gone, the connection is open and the
watchdog still closes it after the timeout. -/
example : ∃ h, Noisy.Reachable true openTransport .client 60 0 0 h ∧ h.sys.listening = false ∧
    h.sys.happened = [.act (.logError "connection keepalive timed out"), .act .close] :=
  ⟨_, .step (.step (.step (.step .init (.listenerPanics _ (.error "reset") rfl (by decide)))
      (.run _ _ (.time _ 61 (by decide)) nofun))
      (.run _ _ (.wakeLate _ rfl (by decide) (by decide)) nofun))
      (.run _ _ (.dogCloses _ rfl) nofun), rfl, rfl⟩

/-- A logger that panics: both tasks are gone, and the connection is dropped with the last handle. -/
example : ∃ h, Noisy.Reachable true openTransport .client 60 0 0 h ∧ h.dogPanicked = true ∧
    h.sys.happened = [] ∧ h.sys.released = true :=
  ⟨_, .step (.step (.step (.step .init (.listenerPanics _ .closed rfl (by decide)))
      (.run _ _ (.time _ 61 (by decide)) nofun))
      (.dogPanics _ rfl rfl (by decide) (by decide)))
      (.run _ _ (.drop _ (by decide) fun _ _ hc => by cases hc) fun _ => ⟨rfl, rfl⟩), rfl, rfl, rfl⟩

end Binate
