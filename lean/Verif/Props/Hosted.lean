import Verif.Model.Hosted
import Verif.Spec.Hosted
import Verif.Lemmas.Hosted
import Verif.Props.System

/-! # The shutdown of the runtime

C116. -/

namespace Binate

open Spec RSocketMachine

variable {dbg : Bool} {tr : Transport} {role : Role} {timeout created spawned : Nat}

/-- **C116**, the shutdown adds nothing: what is there after it, up to the count of references, could be
there without it, with a watchdog that has not woken and a status stream that has ended. -/
theorem C116_as_asleep {h : Hosted} (hr : Hosted.Reachable dbg tr role timeout created spawned h) :
    (∃ s, System.Reachable dbg tr role timeout created spawned s ∧ SameButCount h.sys s) ∧
    (h.dogDropped = true → h.sys.dog = .sleeping ∧ h.down = true) :=
  ⟨hosted_asleep hr, fun hd => ⟨(hostInv hr).dropped hd, (hostInv hr).down hd⟩⟩

/-- **C116**, the requests are not disturbed. -/
theorem C116_requests {h : Hosted} (hr : Hosted.Reachable dbg tr role timeout created spawned h) :
    ConcReachable dbg tr (RSocketMachine.new role timeout created) h.sys.conc ∧
    framesOf h.sys.happened = h.sys.conc.wire := by
  obtain ⟨s, hs, ha⟩ := hosted_asleep hr
  rw [ha.conc, ha.happened]
  exact C73_requests hs

/-- **C116**, the shutdown does not close the connection: it is closed once per `close()` of the user, and
once more exactly if the watchdog has timed out and ended by itself. -/
theorem C116_closes {h : Hosted} (hr : Hosted.Reachable dbg tr role timeout created spawned h) :
    closesOf h.sys.happened = h.sys.userCloses + taskCount (h.sys.dog == .stopped) := by
  obtain ⟨s, hs, ha⟩ := hosted_asleep hr
  rw [ha.happened, ha.userCloses, ha.dog]
  exact C73_closes hs

/-- **C116**, exact: the connection is dropped exactly when the user has dropped every handle and each
background task has ended or was dropped with the runtime. -/
theorem C116_released_iff {h : Hosted} (hr : Hosted.Reachable dbg tr role timeout created spawned h) :
    h.sys.released = true ↔
      h.sys.handles = 0 ∧ h.sys.listening = false ∧ (h.sys.dog = .stopped ∨ h.dogDropped = true) := by
  have inv := hostInv hr
  rw [inv.released, beq_iff_eq, inv.strong]
  cases hl : h.sys.listening <;> cases hd : h.sys.dog <;> cases hg : h.dogDropped <;> simp [taskCount]

/-- **C116**: no request is going on when the connection is dropped, and nothing is done to it
afterwards. -/
theorem C116_no_use_after_drop {h h' : Hosted}
    (hr : Hosted.Reachable dbg tr role timeout created spawned h) (hd : h.sys.released = true)
    (hs : Hosted.Step dbg tr h h') :
    (∀ c ∈ h.sys.conc.calls, Ended c) ∧ h'.sys.happened = h.sys.happened ∧ h'.sys.released = true := by
  obtain ⟨h1, h2, h3⟩ := (C116_released_iff hr).1 hd
  obtain ⟨s, hsr, ha⟩ := hosted_asleep hr
  refine ⟨?_, ?_⟩
  · rw [ha.conc]
    exact C75_calls_ended hsr (.inl (ha.handles ▸ h1))
  · have dog : h.sys.dog = .sleeping → h.dogDropped = true := fun hh => h3.resolve_left fun h3 => by
      rw [h3] at hh; cases hh
    cases hs with
    | shutdown => exact ⟨rfl, hd⟩
    | dropDog _ hf hsl =>
      rw [dog hsl] at hf
      cases hf
    | dropListener _ hl => rw [h2] at hl; cases hl
    | run s hs hg =>
      cases hs with
      | time now => exact ⟨rfl, hd⟩
      | request c new hh => omega
      | close hh => omega
      | wakeEarly hsl => exact ⟨rfl, hd⟩
      | wakeLate hsl =>
        have : Dog.timedOut = h.sys.dog := (hg (dog hsl)).1
        rw [hsl] at this
        cases this
      | dogCloses ht =>
        refine h3.elim (fun h3 => ?_) fun h3 => ?_
        · rw [h3] at ht; cases ht
        · rw [(hostInv hr).dropped h3] at ht; cases ht
      | status st hl => rw [h2] at hl; cases hl
      | statusEnd hl => rw [h2] at hl; cases hl
      | clone hh => omega
      | drop hh => omega

/-- **C116**, the shutdown ends the tasks: from any state in which it has begun, both are gone after some
steps that leave the handles and the requests alone. If no handle is left, the connection is dropped. -/
theorem C116_tasks_end {h : Hosted} (hr : Hosted.Reachable dbg tr role timeout created spawned h)
    (hd : h.down = true) :
    ∃ h', HostedSteps dbg tr h h' ∧ h'.sys.listening = false ∧
      (h'.sys.dog = .stopped ∨ h'.dogDropped = true) ∧ h'.sys.handles = h.sys.handles ∧
      h'.sys.conc = h.sys.conc ∧ (h.sys.handles = 0 → h'.sys.released = true) := by
  have first : ∃ h1, Hosted.Reachable dbg tr role timeout created spawned h1 ∧ HostedSteps dbg tr h h1 ∧
      h1.down = true ∧ h1.sys.listening = false ∧ h1.sys.handles = h.sys.handles ∧
      h1.sys.conc = h.sys.conc := by
    cases hl : h.sys.listening with
    | false => exact ⟨h, hr, .refl h, hd, hl, rfl, rfl⟩
    | true =>
      exact ⟨_, .step hr (.dropListener h hd hl), .step (.dropListener h hd hl) (.refl _), hd, rfl, rfl, rfl⟩
  obtain ⟨h1, hr1, hs1, hd1, hl1, hh1, hc1⟩ := first
  have trans : ∀ {a b c : Hosted}, HostedSteps dbg tr a b → Hosted.Step dbg tr b c →
      HostedSteps dbg tr a c := fun hab hbc => by
    induction hab with
    | refl => exact .step hbc (.refl _)
    | step hs _ ih => exact .step hs (ih hbc)
  have key : ∀ {h' : Hosted}, Hosted.Reachable dbg tr role timeout created spawned h' →
      HostedSteps dbg tr h h' → h'.sys.listening = false →
      (h'.sys.dog = .stopped ∨ h'.dogDropped = true) → h'.sys.handles = h.sys.handles →
      h'.sys.conc = h.sys.conc → _ := fun {h'} a b c d e f =>
    (⟨h', b, c, d, e, f, fun h0 => (C116_released_iff a).2 ⟨e.trans h0, c, d⟩⟩ :
      ∃ h', HostedSteps dbg tr h h' ∧ h'.sys.listening = false ∧
        (h'.sys.dog = .stopped ∨ h'.dogDropped = true) ∧ h'.sys.handles = h.sys.handles ∧
        h'.sys.conc = h.sys.conc ∧ (h.sys.handles = 0 → h'.sys.released = true))
  cases hg : h1.dogDropped with
  | true => exact key hr1 hs1 hl1 (.inr hg) hh1 hc1
  | false =>
    cases hdog : h1.sys.dog with
    | sleeping =>
      have st : Hosted.Step dbg tr h1 _ := .dropDog h1 hd1 hg hdog
      exact key (.step hr1 st) (trans hs1 st) hl1 (.inr rfl) hh1 hc1
    | timedOut =>
      have st : Hosted.Step dbg tr h1 _ := .run h1 _ (.dogCloses _ hdog) fun hf => by
        rw [hg] at hf; cases hf
      exact key (.step hr1 st) (trans hs1 st) hl1 (.inl rfl) hh1 hc1
    | stopped => exact key hr1 hs1 hl1 (.inl hdog) hh1 hc1

/-- **C116**, the user goes on: while there is a handle, it can be closed and cloned, and a request can take
every step that it could take on a runtime that was not shut down. -/
theorem C116_user_goes_on {h : Hosted} (h0 : 0 < h.sys.handles) :
    (∃ h', Hosted.Step dbg tr h h' ∧ h'.sys.happened = h.sys.happened ++ [.act .close]) ∧
    (∃ h', Hosted.Step dbg tr h h' ∧ h'.sys.handles = h.sys.handles + 1 ∧ h'.sys.conc = h.sys.conc) ∧
    (∀ c, ConcStep dbg tr h.sys.conc c → ∃ h', Hosted.Step dbg tr h h' ∧ h'.sys.conc = c) := by
  refine ⟨⟨_, .run h _ (.close _ h0) fun _ => ⟨rfl, rfl⟩, rfl⟩,
    ⟨_, .run h _ (.clone _ h0) fun _ => ⟨rfl, rfl⟩, rfl, rfl⟩, fun c hc => ?_⟩
  have : ∃ new, c.wire = h.sys.conc.wire ++ new := by
    cases hc <;> first
      | exact ⟨_, rfl⟩
      | exact ⟨[], (List.append_nil _).symm⟩
  obtain ⟨new, hn⟩ := this
  exact ⟨_, .run h _ (.request _ c new h0 hc hn) fun _ => ⟨rfl, rfl⟩, rfl⟩

/-- **C116**, exact: the keepalive timeout is still enforced, that is the watchdog can still come to close
the connection or has done so, exactly if the runtime has not dropped the watchdog. -/
theorem C116_watched_iff {h : Hosted} (hr : Hosted.Reachable dbg tr role timeout created spawned h) :
    (∃ h', HostedSteps dbg tr h h' ∧ closesOf h'.sys.happened = h'.sys.userCloses + 1) ↔
      h.dogDropped = false := by
  constructor
  · intro ⟨h', hs, hc⟩
    cases hg : h.dogDropped with
    | false => rfl
    | true =>
      obtain ⟨hr', hk⟩ := HostedSteps.keep hs hr
      rw [C116_closes hr', (hostInv hr').dropped (hk hg)] at hc
      have : h'.sys.userCloses + 0 = h'.sys.userCloses + 1 := hc
      omega
  · intro hg
    have fin : ∀ {h' : Hosted}, HostedSteps dbg tr h h' → h'.sys.dog = .stopped →
        ∃ h', HostedSteps dbg tr h h' ∧ closesOf h'.sys.happened = h'.sys.userCloses + 1 :=
      fun {h'} hs hd => ⟨h', hs, by rw [C116_closes (HostedSteps.keep hs hr).1, hd]; rfl⟩
    have no : ∀ {p : Prop}, h.dogDropped = true → p := fun hf => by rw [hg] at hf; cases hf
    cases hd : h.sys.dog with
    | stopped => exact fin (.refl h) hd
    | timedOut => exact fin (.step (.run h _ (.dogCloses _ hd) no) (.refl _)) rfl
    | sleeping =>
      refine fin (.step (.run h _ (.time _ (max h.sys.clock (max
          (h.sys.slept + h.sys.conc.machine.keepaliveTimeout)
          (h.sys.conc.machine.keepaliveLastReceived + h.sys.conc.machine.keepaliveTimeout + 1)))
          (Nat.le_max_left _ _)) no)
        (.step (.run _ _ (.wakeLate _ hd ?_ ?_) no)
          (.step (.run _ _ (.dogCloses _ rfl) no) (.refl _)))) rfl
      · show h.sys.slept + h.sys.conc.machine.keepaliveTimeout ≤ max _ (max _ _)
        omega
      · show max _ (max _ _) - h.sys.conc.machine.keepaliveLastReceived >
          h.sys.conc.machine.keepaliveTimeout
        omega

/-- **C116**, once the watchdog was dropped, the connection is closed only by the user and no timeout is
logged, however long it is silent. -/
theorem C116_unwatched {h h' : Hosted} (hr : Hosted.Reachable dbg tr role timeout created spawned h)
    (hg : h.dogDropped = true) (hs : HostedSteps dbg tr h h') :
    closesOf h'.sys.happened = h'.sys.userCloses ∧
    linesOf h'.sys.happened = h'.sys.seen.flatMap statusReport := by
  obtain ⟨hr', hk⟩ := HostedSteps.keep hs hr
  have hd := (hostInv hr').dropped (hk hg)
  refine ⟨?_, ?_⟩
  · rw [C116_closes hr', hd]
    rfl
  · obtain ⟨s, hsr, ha⟩ := hosted_asleep hr'
    obtain ⟨a, b, hl, hab⟩ := C73_log hsr
    rw [ha.happened, ha.seen, hl, ← hab, if_pos (ha.dog ▸ hd), List.append_nil]

/-- A machine whose runtime was shut down and whose user then pushes metadata, an hour after the timeout. -/
example : ∃ h, Hosted.Reachable true openTransport .client 60 0 0 h ∧ h.dogDropped = true ∧
    h.sys.clock = 3660 ∧ h.sys.happened = [.frame (.metadataPush ⟨[]⟩)] ∧ h.sys.released = false :=
  ⟨_, .step (.step (.step (.step (.step .init (.shutdown _)) (.dropDog _ rfl rfl rfl))
      (.dropListener _ rfl rfl)) (.run _ _ (.time _ 3660 (by decide)) fun _ => ⟨rfl, rfl⟩))
      (.run _ _ (.request _ _ [.metadataPush ⟨[]⟩] (by decide) (.push _ []) rfl) fun _ => ⟨rfl, rfl⟩),
    rfl, rfl, rfl, rfl⟩

/-- The connection is dropped with the last handle once the runtime is gone. -/
example : ∃ h, Hosted.Reachable true openTransport .client 60 0 0 h ∧ h.sys.dog = .sleeping ∧
    h.sys.released = true :=
  ⟨_, .step (.step (.step (.step .init (.shutdown _)) (.dropDog _ rfl rfl rfl))
      (.dropListener _ rfl rfl)) (.run _ _ (.drop _ (by decide) fun _ _ hc => by cases hc)
      fun _ => ⟨rfl, rfl⟩), rfl, rfl⟩

/-- A shutdown may find a watchdog that has logged the timeout; it still closes the connection. -/
example : ∃ h, Hosted.Reachable true openTransport .client 60 0 0 h ∧ h.down = true ∧
    h.sys.dog = .stopped ∧ closesOf h.sys.happened = 1 :=
  ⟨_, .step (.step (.step (.step .init (.run _ _ (.time _ 61 (by decide)) nofun))
      (.run _ _ (.wakeLate _ rfl (by decide) (by decide)) nofun)) (.shutdown _))
      (.run _ _ (.dogCloses _ rfl) nofun), rfl, rfl, rfl⟩

end Binate
