import Verif.Spec.StormLive
import Verif.Lemmas.StormLive
import Verif.Props.Storm
import Verif.Props.Live

/-! # C121: what happens in the end, whatever goes wrong -/

namespace Binate

open Spec RSocketMachine

variable {dbg : Bool} {tr : WildTransport} {role : Role} {timeout created spawned : Nat}
  {σ : Nat → Storm}

/-- **C121**, the watchdog: in the end it has closed the connection, once, or it is gone and never closes
it. -/
theorem C121_watchdog (h : StormForever dbg tr role timeout created spawned σ) (ht : StormTimeGoesOn σ)
    (hf : StormDogScheduled dbg tr σ) :
    (∃ n, ∀ k, n ≤ k → (σ k).sys.dog = .stopped ∧
      closesOf (σ k).sys.happened = (σ k).sys.userCloses + 1) ∨
    (∃ n, ∀ k, n ≤ k → (σ k).dogGone = true ∧ closesOf (σ k).sys.happened = (σ k).sys.userCloses) := by
  obtain ⟨n, hn | hn⟩ := storm_dog_ends h ht (storm_dog_goesOn hf)
  · refine .inl ⟨n, fun k hk => ?_⟩
    have hd := (stormForever_keeps h hk).2.2.2.2.1 hn
    refine ⟨hd, ?_⟩
    rw [(C120_closes (stormForever_reachable h k)).1, hd]
    rfl
  · exact .inr ⟨n, fun k hk => ⟨(stormForever_keeps h hk).1 hn,
      ((C120_unwatched (stormForever_reachable h n) hn).2 _ (stormForever_steps h hk)).1⟩⟩

/-- **C121**: so if the runtime is not shut down and the line of the timeout does not panic, the connection
is closed in the end, whatever else panics. -/
theorem C121_closes (h : StormForever dbg tr role timeout created spawned σ) (ht : StormTimeGoesOn σ)
    (hf : StormDogServed dbg tr σ) (hg : ∀ n, (σ n).dogGone = false) :
    ∃ n, ∀ k, n ≤ k → closesOf (σ k).sys.happened = (σ k).sys.userCloses + 1 := by
  obtain ⟨n, hn | hn⟩ := storm_dog_ends h ht (storm_dog_served hf)
  · refine ⟨n, fun k hk => ?_⟩
    rw [(C120_closes (stormForever_reachable h k)).1, (stormForever_keeps h hk).2.2.2.2.1 hn]
    rfl
  · rw [hg n] at hn
    cases hn

/-- **C121**, no leak: if the user drops all handles and the listener ends, by the end of the stream, a
panic or the shutdown, the connection is dropped in the end, whatever becomes of the watchdog. -/
theorem C121_released (h : StormForever dbg tr role timeout created spawned σ) (ht : StormTimeGoesOn σ)
    (hf : StormDogScheduled dbg tr σ) (hd : ∃ n, (σ n).sys.handles = 0)
    (hl : ∃ n, (σ n).sys.listening = false) :
    ∃ n, ∀ k, n ≤ k → (σ k).sys.released = true := by
  obtain ⟨a, ha⟩ := hd
  obtain ⟨b, hb⟩ := hl
  obtain ⟨d, hd⟩ := storm_dog_ends h ht (storm_dog_goesOn hf)
  refine ⟨max a (max b d), fun k hk => (C120_released (stormForever_reachable h k)).1.2 ⟨?_, ?_, ?_⟩⟩
  · exact (stormForever_keeps h (n := a) (by omega)).2.2.1 ha
  · exact (stormForever_keeps h (n := b) (by omega)).2.1 hb
  · have kp := stormForever_keeps h (n := d) (k := k) (by omega)
    exact hd.imp kp.2.2.2.2.1 kp.1

/-- **C121**, the shutdown: a runtime that is shut down, and leaves no task where it is for ever, is rid of
both tasks in the end, even if time stands still; and if the user drops all handles, then or before, the
connection is dropped. -/
theorem C121_shutdown (h : StormForever dbg tr role timeout created spawned σ)
    (hc : DogCleared dbg tr σ) (hl : ListenerCleared dbg tr σ) (hd : ∃ n, (σ n).down = true) :
    (∃ n, ∀ k, n ≤ k → (σ k).sys.listening = false ∧
      ((σ k).sys.dog = .stopped ∨ (σ k).dogGone = true)) ∧
    ((∃ n, (σ n).sys.handles = 0) → ∃ n, ∀ k, n ≤ k → (σ k).sys.released = true) := by
  obtain ⟨n, hd⟩ := hd
  obtain ⟨d, hdog⟩ := storm_dog_cleared h hc hd
  obtain ⟨b, hb⟩ := storm_listener_cleared h hl hd
  have both : ∀ k, max b d ≤ k → (σ k).sys.listening = false ∧
      ((σ k).sys.dog = .stopped ∨ (σ k).dogGone = true) := fun k hk => by
    have kp := stormForever_keeps h (n := d) (k := k) (by omega)
    exact ⟨(stormForever_keeps h (n := b) (by omega)).2.1 hb, hdog.imp kp.2.2.2.2.1 kp.1⟩
  refine ⟨⟨_, both⟩, fun ⟨a, ha⟩ => ⟨max a (max b d), fun k hk => ?_⟩⟩
  exact (C120_released (stormForever_reachable h k)).1.2
    ⟨(stormForever_keeps h (n := a) (by omega)).2.2.1 ha, both k (by omega)⟩

/-- **C121**, requests: every call returns or panics in the end, on any machine whose connection panics
at will but always comes back, if no id is registered as in use. -/
theorem C121_returns (hno : ∀ sent f, tr sent f ≠ .diverge) {m : RSocketMachine} {τ : Nat → WildConc}
    (h0 : τ 0 = WildConc.init m)
    (h : Follows (WildStep dbg tr) τ) (hr : ∀ n x, (τ n).machine.receivers x = false) {i : Nat}
    (hf : WildScheduled dbg tr τ i) {n : Nat} {c : Call} (hi : (τ n).calls[i]? = some c) :
    ∃ k c', n ≤ k ∧ (τ k).calls[i]? = some c' ∧ Spec.Ended c' := by
  obtain ⟨ρ, r0, rf, ra⟩ := wild_follows (e := ⟨.io, none⟩) h0 h
  obtain ⟨d, hd, -⟩ := alike_some (ra n) hi
  obtain ⟨k, d', h1, h2, h3⟩ := goesOn_ended r0 rf (fun n x => by rw [← (ra n).machine]; exact hr n x)
    (wild_scheduled ra (wild_goesOn hno h0 h hf)) hd
  obtain ⟨c', hc', hs⟩ := alike_some_back (ra k) h2
  exact ⟨k, c', h1, hc', sameCall_ended hs h3⟩

/-- **C121**, requests, with ids in use, under the limit of C108. -/
theorem C121_returns_keys (hno : ∀ sent f, tr sent f ≠ .diverge) {m : RSocketMachine}
    {τ : Nat → WildConc} (h0 : τ 0 = WildConc.init m)
    (h : Follows (WildStep dbg tr) τ) {keys : List U32}
    (hr : ∀ n x, (τ n).machine.receivers x = true → x ∈ keys)
    (hl : ∀ n, (τ n).calls.length + keys.length ≤ 2 ^ 30) {i : Nat} (hf : WildScheduled dbg tr τ i) {n : Nat}
    {c : Call} (hi : (τ n).calls[i]? = some c) :
    ∃ k c', n ≤ k ∧ (τ k).calls[i]? = some c' ∧ Spec.Ended c' := by
  obtain ⟨ρ, r0, rf, ra⟩ := wild_follows (e := ⟨.io, none⟩) h0 h
  obtain ⟨d, hd, -⟩ := alike_some (ra n) hi
  obtain ⟨k, d', h1, h2, h3⟩ := goesOn_ended_keys r0 rf
    (fun n x => by rw [← (ra n).machine]; exact hr n x) (fun n => by rw [← (ra n).count]; exact hl n)
    (wild_scheduled ra (wild_goesOn hno h0 h hf)) hd
  obtain ⟨c', hc', hs⟩ := alike_some_back (ra k) h2
  exact ⟨k, c', h1, hc', sameCall_ended hs h3⟩

/-- **C121**, requests on a new machine: each of them ends, with a result or with the panic of the
connection, and its payload was handed over in one frame by then, whatever has become of the tasks, the
runtime and the other requests. No ids are in use, or there are few of them and few requests. -/
theorem C121_request (hno : ∀ sent f, tr sent f ≠ .diverge)
    (h : StormForever dbg tr role timeout created spawned σ)
    (hr : (∀ n x, (σ n).sys.conc.machine.receivers x = false) ∨ ∃ keys : List U32,
      (∀ n x, (σ n).sys.conc.machine.receivers x = true → x ∈ keys) ∧
      ∀ n, (σ n).sys.conc.calls.length + keys.length ≤ 2 ^ 30) {i : Nat}
    (hf : StormCallScheduled dbg tr σ i) {n : Nat} {c : Call}
    (hi : (σ n).sys.conc.calls[i]? = some c) :
    ∃ k sid, n ≤ k ∧
      ((∃ r, (σ k).sys.conc.calls[i]? = some (.done (callPayload c) sid r)) ∨
        (σ k).sys.conc.calls[i]? = some (.panicked (callPayload c)) ∧
          PanickedOn tr (σ k).sys.conc.wire sid) ∧
      fnfFrame sid false (callPayload c) ∈ framesOf (σ k).sys.happened := by
  obtain ⟨ρ, r0, rf, ra⟩ := wild_follows (e := ⟨.io, none⟩)
    (m := RSocketMachine.new role timeout created) (τ := fun n => (σ n).sys.conc)
    (by rw [h.start]; rfl) (stormForever_conc h)
  obtain ⟨d, hd, hs0⟩ := alike_some (ra n) hi
  have hd0 : callPayload d = callPayload c := by
    rcases hs0 with rfl | ⟨p, sid, rfl, rfl, -⟩ <;> rfl
  have hgo := wild_scheduled ra (storm_goesOn hno h hf)
  obtain ⟨k, d', h1, h2, h3⟩ : ∃ k d', n ≤ k ∧ (ρ k).calls[i]? = some d' ∧ Spec.Ended d' := by
    rcases hr with hr | ⟨keys, hr, hl⟩
    · exact goesOn_ended r0 rf (fun n x => by rw [← (ra n).machine]; exact hr n x) hgo hd
    · exact goesOn_ended_keys r0 rf (fun n x => by rw [← (ra n).machine]; exact hr n x)
        (fun n => by rw [← (ra n).count]; exact hl n) hgo hd
  obtain ⟨d₂, e₂, hp⟩ := call_stays rf h1 hd
  rw [h2] at e₂
  cases e₂
  obtain ⟨log, own⟩ := ownInv (follows_reachable r0 rf k)
  have hok := own.call i _ h2
  obtain ⟨c', hc', hs⟩ := alike_some_back (ra k) h2
  have hfr : framesOf (σ k).sys.happened = (ρ k).wire :=
    (C120_requests (stormForever_reachable h k)).2.trans (ra k).wire
  cases h3 with
  | panicked p => exact absurd hok.1 nofun
  | returned p sid r =>
    have hp : p = callPayload c := hp.trans hd0
    subst hp
    refine ⟨k, sid, h1, ?_, hfr ▸ own_subset own i ?_⟩
    · rcases hs with rfl | ⟨p, sid', rfl, e, hpan⟩
      · exact .inl ⟨r, hc'⟩
      · cases e
        refine .inr ⟨hc', ?_⟩
        have : (σ k).sys.conc.wire = (ρ k).wire := (ra k).wire
        rw [this]
        exact hpan
    · cases r with
      | ok u => rw [hok.2.1]; exact List.mem_singleton.2 rfl
      | error e =>
        obtain ⟨-, j, e', -⟩ := hok
        rw [e']
        exact List.mem_cons_self

/-! ## Such executions -/

/-- The connection panics in `close`, the listener at its line and the watchdog at that of the timeout; the
user drops the handle, and then time passes. -/
def stormRun : Nat → Storm
  | 0 => Storm.new .client 60 0 0
  | 1 => ⟨⟨WildConc.init (RSocketMachine.new .client 60 0), .sleeping, 0, true, 1, 3, false, 0, [.act .close],
      1, 1, []⟩, false, false⟩
  | 2 => ⟨⟨WildConc.init (RSocketMachine.new .client 60 0), .sleeping, 0, false, 1, 2, false, 0,
      [.act .close], 1, 1, []⟩, false, false⟩
  | 3 => ⟨⟨WildConc.init (RSocketMachine.new .client 60 0), .sleeping, 0, false, 1, 2, false, 61,
      [.act .close], 1, 1, []⟩, false, false⟩
  | 4 => ⟨⟨WildConc.init (RSocketMachine.new .client 60 0), .sleeping, 0, false, 1, 1, false, 61,
      [.act .close], 1, 1, []⟩, false, true⟩
  | n + 5 => ⟨⟨WildConc.init (RSocketMachine.new .client 60 0), .sleeping, 0, false, 0, 0, true, 61 + n,
      [.act .close], 1, 1, []⟩, false, true⟩

example : StormForever true (fun _ _ => .panic "no") .client 60 0 0 stormRun ∧ StormTimeGoesOn stormRun ∧
    StormDogScheduled true (fun _ _ => .panic "no") stormRun ∧ (∃ n, (stormRun n).sys.handles = 0) ∧
    (∃ n, (stormRun n).sys.listening = false) ∧ (∃ n, (stormRun n).dogGone = true) := by
  refine ⟨⟨rfl, fun n => .inl ?_⟩, fun t => ⟨t + 5, ?_⟩, fun n hn => ?_, ⟨5, rfl⟩, ⟨2, rfl⟩, ⟨4, rfl⟩⟩
  · match n with
    | 0 => exact .run _ _ (.closePanics _ (by decide)) nofun
    | 1 => exact .listenerPanics _ (.error "reset") rfl (by decide)
    | 2 => exact .run _ _ (.time _ 61 (by decide)) nofun
    | 3 => exact .dogPanics _ rfl rfl (by decide) (by decide)
    | 4 => exact .run _ _ (.drop _ (by decide) (fun _ c hc => nomatch hc)) fun _ => ⟨rfl, rfl⟩
    | n + 5 =>
      have late : (stormRun (n + 5)).sys.clock ≤ 61 + (n + 1) := Nat.le_succ (61 + n)
      exact .run (stormRun (n + 5)) _ (.time _ (61 + (n + 1)) late) fun _ => ⟨rfl, rfl⟩
  · show t ≤ 61 + t
    omega
  · obtain ⟨h', h1, h2⟩ := hn (n + 5) (by omega)
    refine absurd h2 (storm_dog_still h1 (.inr ⟨rfl, ?_⟩))
    show 0 ≠ 61 + n
    omega

/-- The connection panics when the watchdog closes it, and then time passes. -/
def stormLate : Nat → Storm
  | 0 => Storm.new .client 60 0 0
  | 1 => ⟨⟨WildConc.init (RSocketMachine.new .client 60 0), .sleeping, 0, true, 1, 3, false, 61, [],
      0, 0, []⟩, false, false⟩
  | 2 => ⟨⟨WildConc.init (RSocketMachine.new .client 60 0), .timedOut, 0, true, 1, 3, false, 61,
      [.act (.logError "connection keepalive timed out")], 0, 0, []⟩, false, false⟩
  | n + 3 => ⟨⟨WildConc.init (RSocketMachine.new .client 60 0), .stopped, 0, true, 1, 2, false, 61 + n,
      [.act (.logError "connection keepalive timed out"), .act .close], 0, 1, []⟩, false, false⟩

example : StormForever true (fun _ _ => .panic "no") .client 60 0 0 stormLate ∧
    StormTimeGoesOn stormLate ∧ StormDogServed true (fun _ _ => .panic "no") stormLate ∧ (∀ n, (stormLate n).dogGone = false) ∧
    ∃ n, (stormLate n).sys.panics = 1 := by
  refine ⟨⟨rfl, fun n => .inl ?_⟩, fun t => ⟨t + 3, ?_⟩, fun n hn => ?_, fun n => ?_, ⟨3, rfl⟩⟩
  · match n with
    | 0 => exact .run _ _ (.time _ 61 (by decide)) nofun
    | 1 => exact .run _ _ (.wakeLate _ rfl (by decide) (by decide)) nofun
    | 2 => exact .run _ _ (.dogPanics _ rfl) nofun
    | n + 3 =>
      have late : (stormLate (n + 3)).sys.clock ≤ 61 + (n + 1) := Nat.le_succ (61 + n)
      exact .run (stormLate (n + 3)) _ (.time _ (61 + (n + 1)) late) nofun
  · show t ≤ 61 + t
    omega
  · obtain ⟨h', h1, -, h2⟩ := hn (n + 3) (by omega)
    exact absurd h2 (storm_dog_still h1 (.inl ⟨rfl, rfl⟩))
  · match n with
    | 0 | 1 | 2 => rfl
    | n + 3 => rfl

/-- The runtime is shut down, the user drops the handle, and nothing happens any more. -/
def stormDown : Nat → Storm
  | 0 => Storm.new .client 60 0 0
  | 1 => ⟨WildSystem.new .client 60 0 0, true, false⟩
  | 2 => ⟨⟨WildConc.init (RSocketMachine.new .client 60 0), .sleeping, 0, true, 1, 2, false, 0, [],
      0, 0, []⟩, true, true⟩
  | 3 => ⟨⟨WildConc.init (RSocketMachine.new .client 60 0), .sleeping, 0, false, 1, 1, false, 0, [],
      0, 0, []⟩, true, true⟩
  | _ + 4 => ⟨⟨WildConc.init (RSocketMachine.new .client 60 0), .sleeping, 0, false, 0, 0, true, 0, [],
      0, 0, []⟩, true, true⟩

example : StormForever true (fun _ _ => .panic "no") .client 60 0 0 stormDown ∧
    DogCleared true (fun _ _ => .panic "no") stormDown ∧
    ListenerCleared true (fun _ _ => .panic "no") stormDown ∧
    (∃ n, (stormDown n).down = true) ∧ (∃ n, (stormDown n).sys.handles = 0) := by
  refine ⟨⟨rfl, fun n => ?_⟩, fun n hn => ?_, fun n hn => ?_, ⟨1, rfl⟩, ⟨4, rfl⟩⟩
  · match n with
    | 0 => exact .inl (.shutdown _)
    | 1 => exact .inl (.dropDog _ rfl rfl rfl)
    | 2 => exact .inl (.dropListener _ rfl rfl)
    | 3 => exact .inl (.run _ _ (.drop _ (by decide) (fun _ c hc => nomatch hc)) fun _ => ⟨rfl, rfl⟩)
    | n + 4 => exact .inr rfl
  · obtain ⟨h', h1, -, h2⟩ := hn (n + 4) (by omega)
    rcases h2 with h2 | h2
    · cases h1 with
      | run s hs hg => exact absurd (hg rfl).1 h2
      | _ => exact absurd rfl h2
    · exact absurd ((storm_keeps h1).1 rfl) h2
  · obtain ⟨h', h1, -, h2⟩ := hn (n + 4) (by omega)
    exact absurd ((storm_keeps h1).2.1 rfl) h2

/-- A call whose frame makes the connection panic. -/
theorem storm_call_run : ∃ τ : Nat → WildConc, τ 0 = WildConc.init (RSocketMachine.new .client 60 0) ∧
    Follows (WildStep true fun _ _ => .panic "no") τ ∧ (∀ n x, (τ n).machine.receivers x = false) ∧
    (∀ k, (τ (k + 4)).calls = [.panicked ⟨none, some [7#8]⟩]) ∧
    (τ 1).calls = [.probing ⟨none, some [7#8]⟩] := by
  let p : Payload := ⟨none, some [7#8]⟩
  let m : U32 → RSocketMachine := fun x => { RSocketMachine.new .client 60 0 with streamId := ⟨x⟩ }
  let τ : Nat → WildConc := fun n => match n with
    | 0 => WildConc.init (RSocketMachine.new .client 60 0)
    | 1 => ⟨m 1#32, [.probing p], 0, [], [.fireAndForget p]⟩
    | 2 => ⟨m 3#32, [.checking p 1#32], 1, [], [.fireAndForget p]⟩
    | 3 => ⟨m 3#32, [.sendingOne p 1#32], 1, [], [.fireAndForget p]⟩
    | _ + 4 => ⟨m 3#32, [.panicked p], 1, [fnfFrame 1#32 false p], [.fireAndForget p]⟩
  refine ⟨τ, rfl, fun n => ?_, fun n x => ?_, fun _ => rfl, rfl⟩
  · match n with
    | 0 => exact .inl (.call _ p)
    | 1 =>
      have alike : ∀ {s s' s'' : WildConc}, WildStep true (fun _ _ => .panic "no") s s' → s' = s'' →
          WildStep true (fun _ _ => .panic "no") s s'' := fun h e => e ▸ h
      refine .inl (alike (WildStep.fetch (τ 1) 0 p rfl) ?_)
      show _ = (⟨m 3#32, [.checking p 1#32], 1, [], [.fireAndForget p]⟩ : WildConc)
      simp only [WildConc.set, τ, m]
      rfl
    | 2 => exact .inl (.checkFree _ 0 p 1#32 rfl rfl)
    | 3 => exact .inl (.sendOnePanic _ 0 p 1#32 ⟨1#32, ⟨0#16⟩, p⟩ "no" rfl rfl rfl)
    | n + 4 => exact .inr rfl
  · match n with
    | 0 | 1 | 2 | 3 => rfl
    | n + 4 => rfl

example : ∃ τ : Nat → WildConc, τ 0 = WildConc.init (RSocketMachine.new .client 60 0) ∧
    Follows (WildStep true fun _ _ => .panic "no") τ ∧ (∀ n x, (τ n).machine.receivers x = false) ∧
    WildScheduled true (fun _ _ => .panic "no") τ 0 ∧ (τ 1).calls = [.probing ⟨none, some [7#8]⟩] ∧
    (τ 4).calls = [.panicked ⟨none, some [7#8]⟩] := by
  obtain ⟨τ, h0, h1, h2, h3, h4⟩ := storm_call_run
  refine ⟨τ, h0, h1, h2, fun n hn => ?_, h4, h3 0⟩
  obtain ⟨w', k1, k2⟩ := hn (n + 4) (by omega)
  exact absurd k2 (wild_ended_still k1 (c := .panicked ⟨none, some [7#8]⟩) (by rw [h3]; rfl) rfl)

/-- The same call in a whole machine. -/
example : ∃ σ : Nat → Storm, StormForever true (fun _ _ => .panic "no") .client 60 0 0 σ ∧
    (∀ n x, (σ n).sys.conc.machine.receivers x = false) ∧
    StormCallScheduled true (fun _ _ => .panic "no") σ 0 ∧
    (σ 1).sys.conc.calls[0]? = some (.probing ⟨none, some [7#8]⟩) ∧
    (σ 4).sys.conc.calls[0]? = some (.panicked ⟨none, some [7#8]⟩) := by
  obtain ⟨τ, h0, h1, h2, h3, h4⟩ := storm_call_run
  let σ : Nat → Storm := fun n =>
    ⟨{ WildSystem.new .client 60 0 0 with conc := τ n, happened := (τ n).wire.map .frame }, false, false⟩
  refine ⟨σ, ⟨?_, fun n => ?_⟩, h2, fun n hn => ?_, ?_, ?_⟩
  · show (⟨{ WildSystem.new .client 60 0 0 with conc := τ 0, happened := (τ 0).wire.map .frame }, false,
      false⟩ : Storm) = _
    rw [h0]
    rfl
  · rcases h1 n with hs | e
    · have : ∃ new, (τ (n + 1)).wire = (τ n).wire ++ new := by
        generalize τ (n + 1) = w at hs ⊢
        cases hs <;> first
          | exact ⟨_, rfl⟩
          | exact ⟨[], (List.append_nil _).symm⟩
      obtain ⟨new, hw⟩ := this
      have step := Storm.Step.run (dbg := true) (tr := fun _ _ => .panic "no") (σ n) _
        (.request (σ n).sys (τ (n + 1)) new (show 0 < 1 by decide) hs hw) fun _ => ⟨rfl, rfl⟩
      refine .inl ?_
      have same : σ (n + 1) = { σ n with
          sys := { (σ n).sys.emit (new.map .frame) with conc := τ (n + 1) } } := by
        show (⟨{ WildSystem.new .client 60 0 0 with
            conc := τ (n + 1), happened := (τ (n + 1)).wire.map .frame }, false, false⟩ : Storm) =
          ⟨{ WildSystem.new .client 60 0 0 with
            conc := τ (n + 1), happened := (τ n).wire.map .frame ++ new.map .frame }, false, false⟩
        rw [hw, List.map_append]
      rw [same]
      exact step
    · refine .inr ?_
      show (⟨{ WildSystem.new .client 60 0 0 with
          conc := τ (n + 1), happened := (τ (n + 1)).wire.map .frame }, false, false⟩ : Storm) = σ n
      rw [e]
  · obtain ⟨h', k1, c, k2, k3⟩ := hn (n + 4) (by omega)
    have k2 : (τ (n + 4)).calls[0]? = some c := k2
    rw [h3] at k2
    cases k2
    refine absurd ?_ k3
    cases k1 with
    | run s hs _ =>
      cases hs with
      | request w new hh hs hw =>
        by_contra hne
        exact wild_ended_still hs (c := .panicked ⟨none, some [7#8]⟩) (by
          show (τ (n + 4)).calls[0]? = _
          rw [h3]
          rfl) rfl ⟨_, by
          show (τ (n + 4)).calls[0]? = _
          rw [h3]
          rfl, hne⟩
      | _ => exact congrArg (·[0]?) (h3 n)
    | _ => exact congrArg (·[0]?) (h3 n)
  · exact congrArg (·[0]?) h4
  · exact congrArg (·[0]?) (h3 0)

end Binate
