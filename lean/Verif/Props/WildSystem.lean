import Verif.Lemmas.WildSystem
import Verif.Props.System
import Verif.Props.Conc

/-! # C114: a connection that panics, and the whole machine with its background tasks -/

namespace Binate

open Spec RSocketMachine

variable {dbg : Bool} {tr : WildTransport} {role : Role} {timeout created spawned : Nat}

/-- **C114**: whatever happens to a machine whose connection panics could have happened as well if the
connection had refused the frame, returned from `close`, or ended the status stream: the requests, what is
done to the connection and to the log, the tasks and the handles are the same. -/
theorem C114_as_calm {w : WildSystem} (e : Error)
    (h : WildSystem.Reachable dbg tr role timeout created spawned w) :
    ∃ s, System.Reachable dbg (refusing e tr) role timeout created spawned s ∧ AlikeSystem tr e w s := by
  induction h with
  | init => exact ⟨_, .init, alikeSystem_new⟩
  | step _ hs ih =>
    obtain ⟨s, hr, ha⟩ := ih
    obtain ⟨s', h1, h2⟩ := wildSystem_forward ha (sysInv hr).conc hs
    exact ⟨s', .step hr h1, h2⟩

/-- **C114**, the other way round, for a connection that always comes back. -/
theorem C114_exact {s : System} {e : Error} (hno : ∀ sent f, tr sent f ≠ .diverge)
    (h : System.Reachable dbg (refusing e tr) role timeout created spawned s) :
    ∃ w, WildSystem.Reachable dbg tr role timeout created spawned w ∧ AlikeSystem tr e w s := by
  induction h with
  | init => exact ⟨_, .init, alikeSystem_new⟩
  | step hr hs ih =>
    obtain ⟨w, hw, ha⟩ := ih
    obtain ⟨w', h1, h2⟩ := wildSystem_back hno ha (sysInv hr).conc hs
    exact ⟨w', .step hw h1, h2⟩

/-- **C114**: and so it goes on. In two states that differ by panics only, the next steps are the same, one
by one, again up to panics. -/
theorem C114_goes_on {w : WildSystem} {s : System} {e : Error} (hno : ∀ sent f, tr sent f ≠ .diverge)
    (ha : AlikeSystem tr e w s)
    (h : System.Reachable dbg (refusing e tr) role timeout created spawned s) :
    (∀ w', WildSystem.Step dbg tr w w' →
      ∃ s', System.Step dbg (refusing e tr) s s' ∧ AlikeSystem tr e w' s') ∧
    (∀ s', System.Step dbg (refusing e tr) s s' →
      ∃ w', WildSystem.Step dbg tr w w' ∧ AlikeSystem tr e w' s') :=
  ⟨fun _ hs => wildSystem_forward ha (sysInv h).conc hs,
    fun _ hs => wildSystem_back hno ha (sysInv h).conc hs⟩

/-- **C114**, requests: the frames handed over are those of the calls, for which C113 says more. -/
theorem C114_requests {w : WildSystem} (h : WildSystem.Reachable dbg tr role timeout created spawned w) :
    WildReachable dbg tr (RSocketMachine.new role timeout created) w.conc ∧
    framesOf w.happened = w.conc.wire := by
  refine ⟨?_, ?_⟩
  · induction h with
    | init => exact .init
    | step _ hs ih =>
      cases hs with
      | request c new hh hs hc => exact .step ih hs
      | _ => exact ih
  · obtain ⟨s, hr, ha⟩ := C114_as_calm ⟨.io, none⟩ h
    rw [ha.happened, ha.conc.wire]
    exact (C73_requests hr).2

/-- **C114**, closing: `close` of the connection is called once per `close()` of the user and once by the
watchdog when it has timed out, never again after a panic; the watchdog does so only after the timeout. -/
theorem C114_closes {w : WildSystem} (h : WildSystem.Reachable dbg tr role timeout created spawned w) :
    closesOf w.happened = w.userCloses + taskCount (w.dog == .stopped) ∧
    (w.dog ≠ .sleeping → created + timeout < w.clock) := by
  obtain ⟨s, hr, ha⟩ := C114_as_calm ⟨.io, none⟩ h
  rw [ha.happened, ha.userCloses, ha.dog, ha.clock]
  exact ⟨C73_closes hr, (C73_watchdog hr).1⟩

/-- **C114**, the log: one line per status that asks for one, and one for the timeout. -/
theorem C114_log {w : WildSystem} (h : WildSystem.Reachable dbg tr role timeout created spawned w) :
    ∃ a b, linesOf w.happened =
        a ++ (if w.dog = .sleeping then [] else ["connection keepalive timed out"]) ++ b ∧
      a ++ b = w.seen.flatMap statusReport := by
  obtain ⟨s, hr, ha⟩ := C114_as_calm ⟨.io, none⟩ h
  rw [ha.happened, ha.dog, ha.seen]
  exact C73_log hr

/-- **C114**, the end: a panic leaks no reference. The connection is dropped exactly when the user has
dropped every handle and both background tasks have ended, by a panic or not, and is not used after it. -/
theorem C114_released {w : WildSystem} (h : WildSystem.Reachable dbg tr role timeout created spawned w) :
    (w.released = true ↔ w.handles = 0 ∧ w.listening = false ∧ w.dog = .stopped) ∧
    ∀ w', w.released = true → WildSystem.Step dbg tr w w' →
      w'.happened = w.happened ∧ w'.released = true := by
  obtain ⟨s, hr, ha⟩ := C114_as_calm ⟨.io, none⟩ h
  refine ⟨by rw [ha.released, ha.handles, ha.listening, ha.dog]; exact C75_released_iff hr, ?_⟩
  intro w' hw hs
  obtain ⟨s', hs', ha'⟩ := wildSystem_forward ha (sysInv hr).conc hs
  obtain ⟨h1, h2, -⟩ := C75_no_use_after_drop hr (ha.released ▸ hw) hs'
  exact ⟨by rw [ha'.happened, ha.happened, h1], by rw [ha'.released, h2]⟩

/-- **C114**: what a panic does. Any `close()` by the user, the listener while it runs and the watchdog that
has timed out can be hit by one: the first has no further effect, and the tasks end. -/
theorem C114_panics (dbg : Bool) (tr : WildTransport) (w : WildSystem) :
    (0 < w.handles → ∃ w', WildSystem.Step dbg tr w w' ∧ w'.panics = w.panics + 1 ∧
      w'.happened = w.happened ++ [.act .close] ∧ w'.handles = w.handles ∧ w'.dog = w.dog ∧
      w'.listening = w.listening ∧ w'.conc = w.conc) ∧
    (w.listening = true → ∃ w', WildSystem.Step dbg tr w w' ∧ w'.panics = w.panics + 1 ∧
      w'.happened = w.happened ∧ w'.listening = false ∧ w'.dog = w.dog ∧ w'.conc = w.conc) ∧
    (w.dog = .timedOut → ∃ w', WildSystem.Step dbg tr w w' ∧ w'.panics = w.panics + 1 ∧
      w'.happened = w.happened ++ [.act .close] ∧ w'.dog = .stopped ∧ w'.listening = w.listening ∧
      w'.conc = w.conc) :=
  ⟨fun h => ⟨_, .closePanics w h, rfl, rfl, rfl, rfl, rfl, rfl⟩,
    fun h => ⟨_, .statusPanics w h, rfl, rfl, rfl, rfl, rfl⟩,
    fun h => ⟨_, .dogPanics w h, rfl, rfl, rfl, rfl, rfl⟩⟩

/-- Everything panics: `close()` of the user, the status stream, `close` by the watchdog, and the connection
while it is handed the frame of a request; when the handle is dropped, the connection is dropped. -/
example : ∃ w, WildSystem.Reachable true (fun _ _ => .panic "no") .server 60 0 0 w ∧ w.panics = 3 ∧
    w.conc.calls = [.panicked ⟨none, some [7#8]⟩] ∧ w.released = true ∧ closesOf w.happened = 2 ∧
    linesOf w.happened = ["connection keepalive timed out"] := by
  let a : Payload := ⟨none, some [7#8]⟩
  let t : WildTransport := fun _ _ => .panic "no"
  let q : List WildAsked := [.fireAndForget a]
  let f : Frame := fnfFrame 2#32 false a
  let k : Happening := .act .close
  let l : Happening := .act (.logError "connection keepalive timed out")
  let R := WildSystem.Reachable true t .server 60 0 0
  have via : ∀ {s s' s'' : WildSystem}, R s → WildSystem.Step true t s s' → s' = s'' → R s'' :=
    fun r h e => e ▸ r.step h
  have r0 : R ⟨⟨exampleServer 2#32, [], 0, [], []⟩, .sleeping, 0, true, 1, 3, false, 0, [], 0, 0, []⟩ :=
    .init
  have r1 : R ⟨⟨exampleServer 2#32, [], 0, [], []⟩, .sleeping, 0, true, 1, 3, false, 0, [k], 1, 1, []⟩ :=
    r0.step (.closePanics _ (by decide))
  have r2 : R ⟨⟨exampleServer 2#32, [], 0, [], []⟩, .sleeping, 0, false, 1, 2, false, 0, [k], 1, 2, []⟩ :=
    r1.step (.statusPanics _ rfl)
  have r3 : R ⟨⟨exampleServer 2#32, [.probing a], 0, [], q⟩, .sleeping, 0, false, 1, 2, false, 0, [k],
      1, 2, []⟩ :=
    r2.step (.request _ _ [] (by decide) (.call _ a) rfl)
  have r4 : R ⟨⟨exampleServer 4#32, [.checking a 2#32], 1, [], q⟩, .sleeping, 0, false, 1, 2, false, 0,
      [k], 1, 2, []⟩ :=
    via r3 (.request _ _ [] (by decide) (.fetch _ 0 a rfl) rfl) (by simp only [WildConc.set]; rfl)
  have r5 : R ⟨⟨exampleServer 4#32, [.sendingOne a 2#32], 1, [], q⟩, .sleeping, 0, false, 1, 2, false, 0,
      [k], 1, 2, []⟩ :=
    r4.step (.request _ _ [] (by decide) (.checkFree _ 0 a 2#32 rfl rfl) rfl)
  have r6 : R ⟨⟨exampleServer 4#32, [.panicked a], 1, [f], q⟩, .sleeping, 0, false, 1, 2, false, 0,
      [k, .frame f], 1, 2, []⟩ :=
    r5.step (.request _ _ [f] (by decide)
      (.sendOnePanic _ 0 a 2#32 ⟨2#32, ⟨0#16⟩, a⟩ "no" rfl rfl rfl) rfl)
  have r7 : R ⟨⟨exampleServer 4#32, [.panicked a], 1, [f], q⟩, .sleeping, 0, false, 1, 2, false, 61,
      [k, .frame f], 1, 2, []⟩ :=
    r6.step (.time _ 61 (by decide))
  have r8 : R ⟨⟨exampleServer 4#32, [.panicked a], 1, [f], q⟩, .timedOut, 0, false, 1, 2, false, 61,
      [k, .frame f, l], 1, 2, []⟩ :=
    r7.step (.wakeLate _ rfl (by decide) (by decide))
  have r9 : R ⟨⟨exampleServer 4#32, [.panicked a], 1, [f], q⟩, .stopped, 0, false, 1, 1, false, 61,
      [k, .frame f, l, k], 1, 3, []⟩ :=
    r8.step (.dogPanics _ rfl)
  have r10 := r9.step (.drop _ (by decide) (by
    intro _ c hc
    cases List.mem_singleton.1 hc
    rfl))
  exact ⟨_, r10, rfl, rfl, rfl, rfl, rfl⟩

end Binate
