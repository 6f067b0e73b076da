import Verif.Model.Storm
import Verif.Spec.Storm
import Verif.Lemmas.Storm
import Verif.Props.Hosted
import Verif.Props.WildSystem

/-! # C120: connections that panic, log lines that panic and the shutdown of the runtime, at once -/

namespace Binate

open Spec RSocketMachine

variable {dbg : Bool} {tr : WildTransport} {role : Role} {timeout created spawned : Nat}

/-- **C120**: whatever happens, could have happened with a connection and a log that never panic, on a
runtime that is shut down: the connection refused the frame, returned from `close` or ended the status
stream, and a task that panicked was dropped. -/
theorem C120_as_calm {h : Storm} (e : Error)
    (hr : Storm.Reachable dbg tr role timeout created spawned h) :
    ∃ g, Hosted.Reachable dbg (refusing e tr) role timeout created spawned g ∧ AlikeStorm tr e h g := by
  obtain ⟨g, h1, h2, -⟩ := storm_hosted e hr
  exact ⟨g, h1, h2⟩

/-- **C120**, the other way round, for a connection that always comes back. -/
theorem C120_exact {g : Hosted} {e : Error} (hno : ∀ sent f, tr sent f ≠ .diverge)
    (hr : Hosted.Reachable dbg (refusing e tr) role timeout created spawned g) :
    ∃ h, Storm.Reachable dbg tr role timeout created spawned h ∧ AlikeStorm tr e h g ∧
      h.down = g.down := by
  induction hr with
  | init => exact ⟨_, .init, ⟨alikeSystem_new, rfl⟩, rfl⟩
  | step hr hs ih =>
    obtain ⟨h, h1, h2, h3⟩ := ih
    obtain ⟨h', k1, k2, k3⟩ := storm_back hno h2 h3 hr hs
    exact ⟨h', .step h1 k1, k2, k3⟩

/-- **C120**, requests: the calls are those of C113, and the frames handed over are theirs. -/
theorem C120_requests {h : Storm} (hr : Storm.Reachable dbg tr role timeout created spawned h) :
    WildReachable dbg tr (RSocketMachine.new role timeout created) h.sys.conc ∧
    framesOf h.sys.happened = h.sys.conc.wire := by
  refine ⟨?_, ?_⟩
  · induction hr with
    | init => exact .init
    | step _ hs ih =>
      cases hs with
      | run s hs _ =>
        cases hs with
        | request c new hh hs hc => exact .step ih hs
        | _ => exact ih
      | _ => exact ih
  · obtain ⟨g, hg, ha, -⟩ := storm_hosted ⟨.io, none⟩ hr
    rw [ha.sys.happened, ha.sys.conc.wire]
    exact (C116_requests hg).2

/-- **C120**, closing: `close` of the connection is called once per `close()` of the user, and once by a
watchdog that has timed out and logged it; that is after the timeout. -/
theorem C120_closes {h : Storm} (hr : Storm.Reachable dbg tr role timeout created spawned h) :
    closesOf h.sys.happened = h.sys.userCloses + taskCount (h.sys.dog == .stopped) ∧
    (h.sys.dog ≠ .sleeping → created + timeout < h.sys.clock) := by
  obtain ⟨g, hg, ha, -⟩ := storm_hosted ⟨.io, none⟩ hr
  rw [ha.sys.happened, ha.sys.userCloses, ha.sys.dog, ha.sys.clock]
  refine ⟨C116_closes hg, ?_⟩
  obtain ⟨s, hs, hb⟩ := hosted_asleep hg
  rw [hb.dog, hb.clock]
  exact (C73_watchdog hs).1

/-- **C120**, the log: one line per status that was reported, and one for the timeout. -/
theorem C120_log {h : Storm} (hr : Storm.Reachable dbg tr role timeout created spawned h) :
    ∃ a b, linesOf h.sys.happened =
        a ++ (if h.sys.dog = .sleeping then [] else ["connection keepalive timed out"]) ++ b ∧
      a ++ b = h.sys.seen.flatMap statusReport := by
  obtain ⟨g, hg, ha, -⟩ := storm_hosted ⟨.io, none⟩ hr
  obtain ⟨s, hs, hb⟩ := hosted_asleep hg
  rw [ha.sys.happened, ha.sys.dog, ha.sys.seen, hb.happened, hb.dog, hb.seen]
  exact (sysInv hs).log

/-- **C120**, nothing leaks: the connection is dropped exactly when the user has dropped every handle and
both tasks are gone, for whatever reason. No request is then going on, and the connection is not used
afterwards. -/
theorem C120_released {h : Storm} (hr : Storm.Reachable dbg tr role timeout created spawned h) :
    (h.sys.released = true ↔
      h.sys.handles = 0 ∧ h.sys.listening = false ∧ (h.sys.dog = .stopped ∨ h.dogGone = true)) ∧
    (h.sys.released = true → (∀ c ∈ h.sys.conc.calls, Spec.Ended c) ∧
      ∀ h', Storm.Step dbg tr h h' →
        h'.sys.happened = h.sys.happened ∧ h'.sys.released = true) := by
  obtain ⟨g, hg, ha, hd⟩ := storm_hosted ⟨.io, none⟩ hr
  refine ⟨?_, fun hrel => ⟨?_, fun h' hs => ?_⟩⟩
  · rw [ha.sys.released, ha.sys.handles, ha.sys.listening, ha.sys.dog, ha.dog]
    exact C116_released_iff hg
  · obtain ⟨k, -⟩ := C116_no_use_after_drop hg (ha.sys.released ▸ hrel) (.shutdown g)
    exact fun c hc => idle_ended ((alike_busy ha.sys.conc).2 (fun c hc => ended_idle (k c hc)) c hc)
  · obtain ⟨g', h1, h2, -⟩ := storm_forward ha hd hg hs
    rw [h2.sys.happened, h2.sys.released, ha.sys.happened]
    exact (C116_no_use_after_drop hg (ha.sys.released ▸ hrel) h1).2

/-- **C120**, the user goes on: while they hold a handle they can close, clone, drop and take any step of a
request, whatever has happened to the tasks and the runtime. -/
theorem C120_user_goes_on {h : Storm} (h0 : 0 < h.sys.handles) :
    (∃ h', Storm.Step dbg tr h h' ∧ h'.sys.happened = h.sys.happened ++ [.act .close] ∧
      h'.sys.conc = h.sys.conc) ∧
    (∃ h', Storm.Step dbg tr h h' ∧ h'.sys.handles = h.sys.handles + 1 ∧ h'.sys.conc = h.sys.conc) ∧
    ((∀ c ∈ h.sys.conc.calls, Spec.Ended c) →
      ∃ h', Storm.Step dbg tr h h' ∧ h'.sys.handles = h.sys.handles - 1) ∧
    (∀ c, WildStep dbg tr h.sys.conc c → ∃ h', Storm.Step dbg tr h h' ∧ h'.sys.conc = c) := by
  refine ⟨⟨_, .run h _ (.close h.sys h0) fun _ => ⟨rfl, rfl⟩, rfl, rfl⟩,
    ⟨_, .run h _ (.clone h.sys h0) fun _ => ⟨rfl, rfl⟩, rfl, rfl⟩,
    fun hb => ⟨_, .run h _ (.drop h.sys h0 fun _ c hc => ended_idle (hb c hc)) fun _ => ⟨rfl, rfl⟩, rfl⟩, fun c hs => ?_⟩
  obtain ⟨new, hn⟩ := wildStep_wire hs
  exact ⟨_, .run h _ (.request h.sys c new h0 hs hn) fun _ => ⟨rfl, rfl⟩, rfl⟩

/-- **C120**, the timeout: a watchdog is gone only by the shutdown or by a panic at the line of the timeout,
and from then on only the user closes the connection, and the timeout is not logged. -/
theorem C120_unwatched {h : Storm} (hr : Storm.Reachable dbg tr role timeout created spawned h)
    (hg : h.dogGone = true) :
    (h.down = true ∨ created + timeout < h.sys.clock) ∧
    ∀ h', StormSteps dbg tr h h' → closesOf h'.sys.happened = h'.sys.userCloses ∧
      linesOf h'.sys.happened = h'.sys.seen.flatMap statusReport := by
  refine ⟨storm_gone hr hg, fun h' hs => ?_⟩
  obtain ⟨g, hgr, ha, hd⟩ := storm_hosted ⟨.io, none⟩ hr
  obtain ⟨g', h1, h2⟩ := storm_steps ha hd hgr hs
  rw [h2.sys.happened, h2.sys.userCloses, h2.sys.seen]
  exact C116_unwatched hgr (ha.dog ▸ hg) h1

/-- **C120**, exact: the watchdog can still come to close the connection, or has done so, exactly if it is not
gone. -/
theorem C120_watched_iff {h : Storm} (hr : Storm.Reachable dbg tr role timeout created spawned h) :
    (∃ h', StormSteps dbg tr h h' ∧ closesOf h'.sys.happened = h'.sys.userCloses + 1) ↔
      h.dogGone = false := by
  constructor
  · intro ⟨h', hs, hc⟩
    cases hg : h.dogGone with
    | false => rfl
    | true =>
      have := ((C120_unwatched hr hg).2 h' hs).1
      omega
  · intro hg
    have fin : ∀ {h' : Storm}, StormSteps dbg tr h h' → h'.sys.dog = .stopped →
        ∃ h', StormSteps dbg tr h h' ∧ closesOf h'.sys.happened = h'.sys.userCloses + 1 :=
      fun {h'} hs hd => ⟨h', hs, by rw [(C120_closes (stormSteps_reach hs hr)).1, hd]; rfl⟩
    have no : ∀ {p : Prop}, h.dogGone = true → p := fun hf => by rw [hg] at hf; cases hf
    cases hd : h.sys.dog with
    | stopped => exact fin (.refl h) hd
    | timedOut => exact fin (.step (.run h _ (.dogCloses _ hd) no) (.refl _)) rfl
    | sleeping =>
      refine fin (.step (.run h _ (.time _ (max h.sys.clock (max
          (h.sys.slept + h.sys.conc.machine.keepaliveTimeout)
          (h.sys.conc.machine.keepaliveLastReceived + h.sys.conc.machine.keepaliveTimeout + 1)))
          (Nat.le_max_left _ _)) no)
        (.step (.run _ _ (.wakeLate _ hd ?_ ?_) no)
          (.step (.run _ _ (.dogCloses _ rfl) no) (.refl _)))) rfl
      · show h.sys.slept + h.sys.conc.machine.keepaliveTimeout ≤ max _ (max _ _)
        omega
      · show max _ (max _ _) - h.sys.conc.machine.keepaliveLastReceived >
          h.sys.conc.machine.keepaliveTimeout
        omega

/-- **C120**, whatever went wrong before, the tasks can end: if the shutdown has begun, both are gone after
some steps that leave the handles and the requests alone, and if no handle is left the connection is
dropped. -/
theorem C120_tasks_end {h : Storm} (hr : Storm.Reachable dbg tr role timeout created spawned h)
    (hd : h.down = true) :
    ∃ h', StormSteps dbg tr h h' ∧ h'.sys.listening = false ∧
      (h'.sys.dog = .stopped ∨ h'.dogGone = true) ∧ h'.sys.handles = h.sys.handles ∧
      h'.sys.conc = h.sys.conc ∧ (h.sys.handles = 0 → h'.sys.released = true) := by
  have first : ∃ h1, StormSteps dbg tr h h1 ∧ h1.down = true ∧ h1.sys.listening = false ∧
      h1.sys.handles = h.sys.handles ∧ h1.sys.conc = h.sys.conc := by
    cases hl : h.sys.listening with
    | false => exact ⟨h, .refl h, hd, hl, rfl, rfl⟩
    | true => exact ⟨_, .step (.dropListener h hd hl) (.refl _), hd, rfl, rfl, rfl⟩
  obtain ⟨h1, s1, d1, l1, k1, c1⟩ := first
  have r1 := stormSteps_reach s1 hr
  have second : ∃ h2, StormSteps dbg tr h1 h2 ∧ h2.sys.listening = false ∧
      (h2.sys.dog = .stopped ∨ h2.dogGone = true) ∧ h2.sys.handles = h1.sys.handles ∧
      h2.sys.conc = h1.sys.conc := by
    cases hg : h1.dogGone with
    | true => exact ⟨h1, .refl h1, l1, .inr hg, rfl, rfl⟩
    | false =>
      have no : ∀ {p : Prop}, h1.dogGone = true → p := fun hf => by rw [hg] at hf; cases hf
      cases hs : h1.sys.dog with
      | stopped => exact ⟨h1, .refl h1, l1, .inl hs, rfl, rfl⟩
      | timedOut => exact ⟨_, .step (.run h1 _ (.dogCloses _ hs) no) (.refl _), l1, .inl rfl, rfl, rfl⟩
      | sleeping => exact ⟨_, .step (.dropDog h1 d1 hg hs) (.refl _), l1, .inr rfl, rfl, rfl⟩
  obtain ⟨h2, s2, l2, g2, k2, c2⟩ := second
  refine ⟨h2, stormSteps_trans s1 s2, l2, g2, k2.trans k1, c2.trans c1, fun h0 => ?_⟩
  exact (C120_released (stormSteps_reach s2 r1)).1.2 ⟨(k2.trans k1).trans h0, l2, g2⟩

/-- One life with every kind of trouble: `close` panics, the line of an error panics, the runtime is shut
down and drops the watchdog, and the last handle is dropped. -/
example : ∃ h, Storm.Reachable true (fun _ _ => .panic "no") .client 60 0 0 h ∧ h.sys.panics = 1 ∧
    h.dogGone = true ∧ h.sys.happened = [.act .close] ∧ h.sys.released = true :=
  ⟨_, .step (.step (.step (.step (.step .init
      (.run _ _ (.closePanics _ (by decide)) nofun))
      (.listenerPanics _ (.error "reset") rfl (by decide)))
      (.shutdown _)) (.dropDog _ rfl rfl rfl))
      (.run _ _ (.drop _ (by decide) fun _ _ hc => by cases hc) fun _ => ⟨rfl, rfl⟩), rfl, rfl, rfl, rfl⟩

/-- The line of the timeout panics while the listener goes on. -/
example : ∃ h, Storm.Reachable true (fun _ _ => .panic "no") .client 60 0 0 h ∧ h.dogGone = true ∧
    h.down = false ∧ linesOf h.sys.happened = ["connection was closed"] ∧
    closesOf h.sys.happened = 0 :=
  ⟨_, .step (.step (.step .init (.run _ _ (.time _ 61 (by decide)) nofun))
      (.dogPanics _ rfl rfl (by decide) (by decide)))
      (.run _ _ (.status _ .closed rfl) fun _ => ⟨rfl, rfl⟩), rfl, rfl, rfl, rfl⟩

/-- The watchdog times out, and the connection panics when it is closed, during the shutdown. -/
example : ∃ h, Storm.Reachable true (fun _ _ => .panic "no") .client 60 0 0 h ∧ h.dogGone = false ∧
    h.down = true ∧ h.sys.dog = .stopped ∧ closesOf h.sys.happened = 1 ∧ h.sys.panics = 1 :=
  ⟨_, .step (.step (.step (.step .init (.run _ _ (.time _ 61 (by decide)) nofun))
      (.run _ _ (.wakeLate _ rfl (by decide) (by decide)) nofun)) (.shutdown _))
      (.run _ _ (.dogPanics _ rfl) nofun), rfl, rfl, rfl, rfl, rfl⟩

end Binate
