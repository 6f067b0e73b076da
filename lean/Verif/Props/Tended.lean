import Verif.Lemmas.Tended

/-! # C128: how long request handlers live -/

namespace Binate

open Spec RSocketMachine

section
variable {H : Type} {dbg : Bool} {tr : WildTransport} {dummy : H} {role : Role}
  {timeout created spawned : Nat} {a : Tended H}

/-- **C128.** Whatever is done with handlers, and however they panic when they are dropped, the rest of the
machine does what it does without them, and the other way round. -/
theorem C128_machine {h : Storm} : Storm.Reachable dbg tr role timeout created spawned h ↔
    ∃ a : Tended H, Tended.Reachable dbg tr dummy role timeout created spawned a ∧ a.storm = h := by
  refine ⟨fun hr => ?_, fun ⟨a, ha, e⟩ => e ▸ (tendedInv ha).storm⟩
  suffices ∃ a : Tended H, Tended.Reachable dbg tr dummy role timeout created spawned a ∧ a.storm = h ∧
      a.idle from this.imp fun _ h => ⟨h.1, h.2.1⟩
  induction hr with
  | init => exact ⟨_, .init, rfl, rfl, rfl⟩
  | @step h h' _ hs ih =>
    obtain ⟨a, ha, rfl, hi⟩ := ih
    exact ⟨_, .step ha (.machine a h' hs fun _ => hi), rfl, hi⟩

/-- **C128.** At any time the rest of the machine can go on, whatever the calls of `set_request_handler` are at,
except that the last handle is not dropped while one is pending; these can go on, whatever the rest is at, and so
can the drops. -/
theorem C128_apart (a : Tended H) :
    (∀ h, Storm.Step dbg tr a.storm h → 0 < h.sys.handles ∨ pending a.lock = [] →
      ∃ b, Tended.Step dbg tr a b ∧ b.storm = h ∧ b.lock = a.lock ∧ b.events = a.events) ∧
    (0 < a.storm.sys.handles → ∀ e l, RequestHanlder.WildStep a.lock e l →
      ∃ b, Tended.Step dbg tr a b ∧ b.storm = a.storm ∧ b.lock = l ∧ b.events = a.events ++ [e]) ∧
    (0 < a.falling → ∃ b, Tended.Step dbg tr a b ∧ b.storm = a.storm ∧ b.falling + 1 = a.falling) := by
  refine ⟨fun h hs hp => ⟨_, .machine a h hs fun h0 => ?_, rfl, rfl, rfl⟩,
    fun h0 e l hs => ⟨_, .handler a e l h0 hs, rfl, rfl, rfl⟩, fun h0 => ⟨_, .letGo a h0, rfl, ?_⟩⟩
  · exact pending_idle (hp.resolve_left (by omega))
  · show a.falling - 1 + 1 = a.falling
    omega

/-- **C128.** A panic of the connection or of the handler in place when it is dropped changes nothing: what
happens with it happens without it too. -/
theorem C128_as_calm {b : Tended H} (hs : Tended.Step dbg tr a b) :
    Tended.Step dbg tr a { b with unwound := a.unwound, connUnwound := a.connUnwound } := by
  cases hs with
  | machine h hm hi => exact .machine a h hm hi
  | machinePanics h hm hi _ _ => exact .machine a h hm hi
  | letGo hf => exact .letGo a hf
  | letGoPanics hf _ => exact .letGo a hf
  | handler e l hh hs => exact .handler a e l hh hs

/-- **C128.** And it may happen whenever one of them is dropped. -/
theorem C128_any_panic {b : Tended H} (hs : Tended.Step dbg tr a b) :
    (a.storm.sys.released = false → b.storm.sys.released = true →
      Tended.Step dbg tr a { b with connUnwound := true }) ∧
    (a.gone = false → b.gone = true → Tended.Step dbg tr a { b with unwound := true }) := by
  have refs1 : a.gone = false → a.letGo.gone = true → a.refs = 1 := fun h1 h2 => by
    have h2 : (a.gone || a.refs == 1) = true := h2
    rw [h1, Bool.false_or, beq_iff_eq] at h2
    exact h2
  cases hs with
  | machine h hm hi =>
    refine ⟨fun h1 h2 => .machinePanics a h hm hi h1 h2, fun h1 h2 => ?_⟩
    rw [show a.gone = true from h2] at h1
    cases h1
  | machinePanics h hm hi _ _ =>
    refine ⟨fun h1 h2 => .machinePanics a h hm hi h1 h2, fun h1 h2 => ?_⟩
    rw [show a.gone = true from h2] at h1
    cases h1
  | letGo hf =>
    refine ⟨fun h1 h2 => ?_, fun h1 h2 => .letGoPanics a hf (refs1 h1 h2)⟩
    rw [show a.storm.sys.released = true from h2] at h1
    cases h1
  | letGoPanics hf _ =>
    refine ⟨fun h1 h2 => ?_, fun h1 h2 => .letGoPanics a hf (refs1 h1 h2)⟩
    rw [show a.storm.sys.released = true from h2] at h1
    cases h1
  | handler e l hh hs =>
    refine ⟨fun h1 h2 => ?_, fun h1 h2 => ?_⟩
    · rw [show a.storm.sys.released = true from h2] at h1
      cases h1
    · rw [show a.gone = true from h2] at h1
      cases h1

/-- **C128.** What happens to the lock is what C80 and C115 are about, up to the drop of the handler in place at
the end; no call is pending then. -/
theorem C128_lock (hr : Tended.Reachable dbg tr dummy role timeout created spawned a) :
    ∃ l, RequestHanlder.WildRun (.new dummy) a.events l ∧ (a.gone = false → a.lock = l) ∧
      (a.gone = true → pending l = [] ∧ a.lock = { l with dropped := l.dropped ++ [l.current] }) := by
  have inv := tendedInv hr
  obtain ⟨l, h1, h2, h3⟩ := inv.lock
  refine ⟨l, h1, h2, fun hg => ⟨?_, h3 hg⟩⟩
  have h4 := inv.gone.1 hg
  have h5 := inv.refs
  have h6 := (storm_strong inv.storm).2
  have := idle_pending (inv.idle (by omega))
  rw [h3 hg] at this
  exact this

/-- **C128.** The handler in place is dropped with the machine exactly when every handle was dropped and both
tasks are gone, for whatever reason, and the drops have come to their end. -/
theorem C128_gone (hr : Tended.Reachable dbg tr dummy role timeout created spawned a) :
    a.gone = true ↔ OnlyFalling a.storm ∧ a.falling = 0 := by
  have inv := tendedInv hr
  rw [inv.gone, inv.refs, Nat.add_eq_zero_iff, (storm_strong inv.storm).1, (C120_released inv.storm).1]
  rfl

/-- **C128.** Until then the handler in place is that of the call of `set_request_handler` that ended last, and
the one of `new` before. -/
theorem C128_current (hr : Tended.Reachable dbg tr dummy role timeout created spawned a)
    (hg : a.gone = false) : a.lock.current = (putInPlace a.events).getLast?.getD dummy := by
  obtain ⟨l, h1, h2, -⟩ := C128_lock hr
  rw [h2 hg]
  exact C115_current h1

/-- **C128.** No handler leaks and none is dropped twice, panics or not. -/
theorem C128_once (hr : Tended.Reachable dbg tr dummy role timeout created spawned a) :
    (a.gone = false → (a.lock.dropped ++ a.lock.current :: (pending a.lock).map
      RequestHanlder.Call.handler).Perm (dummy :: given a.events)) ∧
    (a.gone = true → a.lock.dropped.Perm (dummy :: given a.events)) := by
  obtain ⟨l, h1, h2, h3⟩ := C128_lock hr
  have h4 := C115_kept h1
  refine ⟨fun hg => h2 hg ▸ h4, fun hg => ?_⟩
  obtain ⟨h5, h6⟩ := h3 hg
  rw [h5] at h4
  rw [h6]
  exact h4

/-- **C128.** Nothing is done with the lock once it is dropped. -/
theorem C128_no_use_after_drop (hr : Tended.Reachable dbg tr dummy role timeout created spawned a)
    (hg : a.gone = true) {b : Tended H} (hs : Tended.Step dbg tr a b) :
    b.lock = a.lock ∧ b.events = a.events ∧ b.gone = true := by
  have inv := tendedInv hr
  have h1 := inv.gone.1 hg
  have h2 := inv.refs
  have h3 := (storm_strong inv.storm).2
  cases hs with
  | machine h hm hi => exact ⟨rfl, rfl, hg⟩
  | machinePanics h hm hi _ _ => exact ⟨rfl, rfl, hg⟩
  | letGo hf => omega
  | letGoPanics hf _ => omega
  | handler e l hh hs => omega

/-- **C128.** A machine on which a call is pending has a handle and its lock, the connection is not dropped, and
the call can be dropped or, if it has the lock, end. -/
theorem C128_pending (hr : Tended.Reachable dbg tr dummy role timeout created spawned a)
    {c : RequestHanlder.Call H} (hc : c ∈ pending a.lock) :
    0 < a.storm.sys.handles ∧ a.gone = false ∧ a.storm.sys.released = false ∧
    (∃ b, Tended.Step dbg tr a b ∧ b.events = a.events ++ [.calm (.cancel c.number)]) ∧
    (a.lock.holder = some c → ∃ b, Tended.Step dbg tr a b ∧
      b.events = a.events ++ [.calm (.done c.number c.handler)] ∧ b.lock.current = c.handler) := by
  have inv := tendedInv hr
  have hn : ¬ a.idle := fun hi => by
    rw [idle_pending hi] at hc
    cases hc
  have hh : 0 < a.storm.sys.handles := by
    by_cases h0 : a.storm.sys.handles = 0
    · exact absurd (inv.idle h0) hn
    · omega
  refine ⟨hh, (tended_pending inv hn).1, ?_, ?_, fun h1 => ?_⟩
  · cases hrel : a.storm.sys.released with
    | false => rfl
    | true =>
      have h1 := (storm_strong inv.storm).1.2 hrel
      have h2 := (storm_strong inv.storm).2
      omega
  · obtain ⟨front, back, hp⟩ := List.append_of_mem hc
    obtain ⟨t, h1, -⟩ := (C80_call_and_cancel a.lock).2 front c back hp
    exact ⟨_, .handler a _ t hh (.calm h1), rfl⟩
  · exact ⟨_, .handler a _ _ hh (.calm (.done a.lock c h1)), rfl, rfl⟩

end

/-! ## In the end -/

section
variable {H : Type} {dbg : Bool} {tr : WildTransport} {dummy : H} {role : Role}
  {timeout created spawned : Nat} {τ : Nat → Tended H}

/-- **C128.** Every call of `set_request_handler` ends, as in C115, whatever becomes of the connection, the tasks
and the runtime. -/
theorem C128_returns (h : TendedForever dbg tr dummy role timeout created spawned τ)
    (hl : LockGiven fun n => (τ n).lock) (hh : HoldersRun fun n => (τ n).lock) {n : Nat}
    {c : RequestHanlder.Call H} (hc : c ∈ pending (τ n).lock) :
    ∃ k e, n ≤ k ∧ (τ (k + 1)).events = (τ k).events ++ [e] ∧
      ((e = .calm (.done c.number c.handler) ∨ e = .donePanics c.number c.handler) ∧
          (τ (k + 1)).lock.current = c.handler ∨
        e = .calm (.cancel c.number) ∨ e = .cancelPanics c.number) := by
  obtain ⟨happens, he, hev⟩ := tended_endless h
  obtain ⟨hl', hh'⟩ := tended_fair h hl hh
  obtain ⟨k, hk, h1⟩ := C115_returns he hl' hh' (n := n) (c := c)
    (show c ∈ pending (beforeEnd (τ n)) by rw [beforeEnd_pending]; exact hc)
  rcases h1 with ⟨h1 | h1, h2⟩ | h1 | h1
  all_goals
    obtain ⟨h3, h4⟩ := hev k _ h1
    refine ⟨k, _, hk, h3, ?_⟩
  · exact .inl ⟨.inl rfl, by rw [← h4]; exact h2⟩
  · exact .inl ⟨.inr rfl, by rw [← h4]; exact h2⟩
  · exact .inr (.inl rfl)
  · exact .inr (.inr rfl)

/-- **C128.** In the end every handler that was ever passed is dropped, exactly once, if the user drops all
handles and the listener ends. -/
theorem C128_end (h : TendedForever dbg tr dummy role timeout created spawned τ)
    (ht : StormTimeGoesOn fun n => (τ n).storm) (hf : StormDogScheduled dbg tr fun n => (τ n).storm)
    (hfall : DropsEnd dbg tr τ) (hd : ∃ n, (τ n).storm.sys.handles = 0)
    (hl : ∃ n, (τ n).storm.sys.listening = false) :
    ∃ n, ∀ k, n ≤ k → (τ k).gone = true ∧ (τ k).lock.dropped.Perm (dummy :: given (τ k).events) := by
  obtain ⟨n, hn⟩ := C121_released (tendedForever_storm h) ht hf hd hl
  obtain ⟨m, hm, h0⟩ := falling_ends h hfall hn
  refine ⟨m, fun k hk => ?_⟩
  have hr := tendedForever_reachable h k
  have hg := (C128_gone hr).2 ⟨(C120_released (tendedInv hr).storm).1.1 (hn k (by omega)), h0 k hk⟩
  exact ⟨hg, (C128_once hr).2 hg⟩

/-- **C128.** The same, if the runtime is shut down instead. -/
theorem C128_shutdown (h : TendedForever dbg tr dummy role timeout created spawned τ)
    (hc : DogCleared dbg tr fun n => (τ n).storm) (hl : ListenerCleared dbg tr fun n => (τ n).storm)
    (hfall : DropsEnd dbg tr τ) (hdown : ∃ n, (τ n).storm.down = true)
    (hd : ∃ n, (τ n).storm.sys.handles = 0) :
    ∃ n, ∀ k, n ≤ k → (τ k).gone = true ∧ (τ k).lock.dropped.Perm (dummy :: given (τ k).events) := by
  obtain ⟨n, hn⟩ := (C121_shutdown (tendedForever_storm h) hc hl hdown).2 hd
  obtain ⟨m, hm, h0⟩ := falling_ends h hfall hn
  refine ⟨m, fun k hk => ?_⟩
  have hr := tendedForever_reachable h k
  have hg := (C128_gone hr).2 ⟨(C120_released (tendedInv hr).storm).1.1 (hn k (by omega)), h0 k hk⟩
  exact ⟨hg, (C128_once hr).2 hg⟩

end

/-! ## Examples -/

/-- The user drops the handle while the background tasks hold the machine: the handler in place is not dropped. -/
example : ∃ a : Tended Nat, Tended.Reachable true (fun _ _ => .ok (.ok ())) 0 .client 60 0 0 a ∧
    a.storm.sys.handles = 0 ∧ a.falling = 0 ∧ a.gone = false ∧ a.lock.dropped = [] := by
  have r1 := (Tended.Reachable.init (dbg := true) (tr := fun _ _ => .ok (.ok ())) (dummy := 0)
    (role := .client) (timeout := 60) (created := 0) (spawned := 0)).step
    (.machine _ _ (.run _ _ (.drop _ (by decide) (fun _ c hc => nomatch hc)) fun _ => ⟨rfl, rfl⟩)
      fun _ => ⟨rfl, rfl⟩)
  exact ⟨_, r1.step (.letGo _ (by decide)), rfl, rfl, rfl, rfl⟩

/-- What was done with the lock in the examples below. -/
def seven : List (RequestHanlder.WildEvent Nat) := [.calm (.call 7), .calm .grant, .donePanics 0 7]

/-- Handler 7 is put in place of handler 0, which panics. Then the runtime is shut down and the user drops the
handle; the connection panics when it is dropped. The three clones of the machine drop their lock, and handler 7
panics too. -/
def tendedDown : Nat → Tended Nat
  | 0 => Tended.new 0 .client 60 0 0
  | 1 => ⟨stormDown 0, ⟨0, none, [⟨0, 7⟩], 1, []⟩, 3, 0, false, seven.take 1, false, false⟩
  | 2 => ⟨stormDown 0, ⟨0, some ⟨0, 7⟩, [], 1, []⟩, 3, 0, false, seven.take 2, false, false⟩
  | 3 => ⟨stormDown 0, ⟨7, none, [], 1, [0]⟩, 3, 0, false, seven, false, false⟩
  | 4 => ⟨stormDown 1, ⟨7, none, [], 1, [0]⟩, 3, 0, false, seven, false, false⟩
  | 5 => ⟨stormDown 2, ⟨7, none, [], 1, [0]⟩, 3, 1, false, seven, false, false⟩
  | 6 => ⟨stormDown 3, ⟨7, none, [], 1, [0]⟩, 3, 2, false, seven, false, false⟩
  | 7 => ⟨stormDown 4, ⟨7, none, [], 1, [0]⟩, 3, 3, false, seven, false, true⟩
  | 8 => ⟨stormDown 4, ⟨7, none, [], 1, [0]⟩, 2, 2, false, seven, false, true⟩
  | 9 => ⟨stormDown 4, ⟨7, none, [], 1, [0]⟩, 1, 1, false, seven, false, true⟩
  | _ + 10 => ⟨stormDown 4, ⟨7, none, [], 1, [0, 7]⟩, 0, 0, true, seven, true, true⟩

/-- An execution that meets the conditions of `C128_shutdown` and `C128_returns`. -/
example : TendedForever true (fun _ _ => .panic "no") 0 .client 60 0 0 tendedDown ∧
    DogCleared true (fun _ _ => .panic "no") (fun n => (tendedDown n).storm) ∧
    ListenerCleared true (fun _ _ => .panic "no") (fun n => (tendedDown n).storm) ∧
    DropsEnd true (fun _ _ => .panic "no") tendedDown ∧ (∃ n, (tendedDown n).storm.down = true) ∧
    (∃ n, (tendedDown n).storm.sys.handles = 0) ∧ LockGiven (fun n => (tendedDown n).lock) ∧
    HoldersRun (fun n => (tendedDown n).lock) ∧ ⟨0, 7⟩ ∈ pending (tendedDown 1).lock := by
  refine ⟨⟨rfl, fun n => ?_⟩, fun n hn => ?_, fun n hn => ?_, fun n hn => ?_, ⟨4, rfl⟩, ⟨7, rfl⟩,
    fun n hn => ?_, fun c x n hn => ?_, List.mem_singleton.2 rfl⟩
  · match n with
    | 0 => exact .inl (.handler _ _ _ (by decide) (.calm (.call _ 7)))
    | 1 => exact .inl (.handler (tendedDown 1) _ _ (by decide) (.calm (.grant _ ⟨0, 7⟩ [] rfl rfl)))
    | 2 => exact .inl (.handler (tendedDown 2) _ _ (by decide) (.donePanics _ ⟨0, 7⟩ rfl))
    | 3 => exact .inl (.machine (tendedDown 3) (stormDown 1) (.shutdown _) nofun)
    | 4 => exact .inl (.machine (tendedDown 4) (stormDown 2) (.dropDog _ rfl rfl rfl) nofun)
    | 5 => exact .inl (.machine (tendedDown 5) (stormDown 3) (.dropListener _ rfl rfl) nofun)
    | 6 => exact .inl (.machinePanics (tendedDown 6) (stormDown 4) (.run _ _ (.drop _ (by decide)
        (fun _ c hc => nomatch hc)) fun _ => ⟨rfl, rfl⟩) (fun _ => ⟨rfl, rfl⟩) rfl rfl)
    | 7 => exact .inl (.letGo (tendedDown 7) (by decide))
    | 8 => exact .inl (.letGo (tendedDown 8) (by decide))
    | 9 => exact .inl (.letGoPanics (tendedDown 9) (by decide) rfl)
    | n + 10 => exact .inr rfl
  · obtain ⟨h', h1, -, h2⟩ := hn (n + 10) (by omega)
    rcases h2 with h2 | h2
    · cases h1 with
      | run s hs hg => exact absurd (hg rfl).1 h2
      | _ => exact absurd rfl h2
    · exact absurd ((storm_keeps h1).1 rfl) h2
  · obtain ⟨h', h1, -, h2⟩ := hn (n + 10) (by omega)
    exact absurd ((storm_keeps h1).2.1 rfl) h2
  · obtain ⟨b, -, h2⟩ := hn (n + 10) (by omega)
    exact absurd h2 (Nat.not_lt_zero _)
  · obtain ⟨t, -, ht⟩ := hn (n + 10) (by omega)
    have free : ∀ c rest, (tendedDown (n + 10)).lock.queue ≠ c :: rest := nofun
    cases ht with
    | grant c rest _ hq => exact absurd hq (free c rest)
  · obtain ⟨t, -, ht⟩ := hn (n + 10) (by omega)
    have free : ∀ c, (tendedDown (n + 10)).lock.holder ≠ some c := nofun
    cases ht with
    | done c hc => exact absurd hc (free c)

/-- What `C128_once` and `C128_gone` are about at the end of it. -/
example : (tendedDown 10).gone = true ∧ (tendedDown 10).lock.dropped = [0, 7] ∧
    given (tendedDown 10).events = [7] := ⟨rfl, rfl, rfl⟩

/-- As `stormRun`: the log line of the listener and that of the watchdog panic, and the user drops the handle;
then the clones drop their lock, and time passes. -/
def tendedEnd : Nat → Tended Nat
  | 0 => Tended.new 0 .client 60 0 0
  | 1 => ⟨stormRun 1, .new 0, 3, 0, false, [], false, false⟩
  | 2 => ⟨stormRun 2, .new 0, 3, 1, false, [], false, false⟩
  | 3 => ⟨stormRun 3, .new 0, 3, 1, false, [], false, false⟩
  | 4 => ⟨stormRun 4, .new 0, 3, 2, false, [], false, false⟩
  | 5 => ⟨stormRun 5, .new 0, 3, 3, false, [], false, false⟩
  | 6 => ⟨stormRun 5, .new 0, 2, 2, false, [], false, false⟩
  | 7 => ⟨stormRun 5, .new 0, 1, 1, false, [], false, false⟩
  | n + 8 => ⟨stormRun (n + 5), ⟨0, none, [], 0, [0]⟩, 0, 0, true, [], false, false⟩

/-- An execution that meets the conditions of `C128_end`. -/
example : TendedForever true (fun _ _ => .panic "no") 0 .client 60 0 0 tendedEnd ∧
    StormTimeGoesOn (fun n => (tendedEnd n).storm) ∧
    StormDogScheduled true (fun _ _ => .panic "no") (fun n => (tendedEnd n).storm) ∧
    DropsEnd true (fun _ _ => .panic "no") tendedEnd ∧ (∃ n, (tendedEnd n).storm.sys.handles = 0) ∧
    (∃ n, (tendedEnd n).storm.sys.listening = false) := by
  refine ⟨⟨rfl, fun n => .inl ?_⟩, fun t => ⟨t + 8, ?_⟩, fun n hn => ?_, fun n hn => ?_, ⟨5, rfl⟩, ⟨2, rfl⟩⟩
  · match n with
    | 0 => exact .machine _ (stormRun 1) (.run _ _ (.closePanics _ (by decide)) nofun) nofun
    | 1 => exact .machine (tendedEnd 1) (stormRun 2) (.listenerPanics _ (.error "reset") rfl (by decide)) nofun
    | 2 => exact .machine (tendedEnd 2) (stormRun 3) (.run _ _ (.time _ 61 (by decide)) nofun) nofun
    | 3 => exact .machine (tendedEnd 3) (stormRun 4) (.dogPanics _ rfl rfl (by decide) (by decide)) nofun
    | 4 => exact .machine (tendedEnd 4) (stormRun 5) (.run _ _ (.drop _ (by decide)
        (fun _ c hc => nomatch hc)) fun _ => ⟨rfl, rfl⟩) fun _ => ⟨rfl, rfl⟩
    | 5 => exact .letGo (tendedEnd 5) (by decide)
    | 6 => exact .letGo (tendedEnd 6) (by decide)
    | 7 => exact .letGo (tendedEnd 7) (by decide)
    | n + 8 =>
      have late : (stormRun (n + 5)).sys.clock ≤ 61 + (n + 1) := Nat.le_succ (61 + n)
      exact .machine (tendedEnd (n + 8)) (stormRun (n + 6))
        (.run (stormRun (n + 5)) _ (.time _ (61 + (n + 1)) late) fun _ => ⟨rfl, rfl⟩) fun _ => ⟨rfl, rfl⟩
  · show t ≤ 61 + t
    omega
  · obtain ⟨h', h1, h2⟩ := hn (n + 8) (by omega)
    refine absurd h2 (storm_dog_still h1 (.inr ⟨rfl, ?_⟩))
    show 0 ≠ 61 + n
    omega
  · obtain ⟨b, -, h2⟩ := hn (n + 8) (by omega)
    exact absurd h2 (Nat.not_lt_zero _)

end Binate
