import Verif.Lemmas.Workers

/-! # C129: the background tasks give way to others -/

namespace Binate

open Spec RSocketMachine

section
variable {workers t : Nat} {ask : Nat → Nat → StatusPoll} {r r' : Workers} {σ : Nat → Workers} {i n : Nat}
  {c : Chores}

/-- **C129.** Over a connection that does as `connection_status` is documented to, a poll of the status listener
never ends: the worker thread that has begun with it does nothing else for ever. -/
theorem C129_occupied (hp : Published (ask i)) (h : Reached (Workers.Step workers ask) (Workers.start t) r)
    (ho : Occupied i r) (h' : Reached (Workers.Step workers ask) r r') : Occupied i r' := by
  induction h' with
  | here => exact ho
  | next hr hs ih => exact step_occupied hs (reached_said hp (reached_trans h hr)) ih

/-- **C129.** Once each worker thread has begun with such a listener, nothing is done on the runtime any more: no
other task is polled, no listener that waits, and no watchdog, so that no connection is closed for want of a
keepalive. -/
theorem C129_nothing_else (hp : ∀ i, Published (ask i))
    (h : Reached (Workers.Step workers ask) (Workers.start t) r) (hb : r.busy = workers)
    (h' : Reached (Workers.Step workers ask) r r') :
    r'.others = r.others ∧ ∀ (i : Nat) (c : Chores), r.chores[i]? = some c →
      ∃ c' : Chores, r'.chores[i]? = some c' ∧ c'.dog = c.dog ∧ c'.barked = c.barked ∧ (c.polling = false → c' = c) := by
  suffices r'.others = r.others ∧ workers ≤ r'.busy ∧ ∀ (i : Nat) (c : Chores), r.chores[i]? = some c →
      ∃ c' : Chores, r'.chores[i]? = some c' ∧ c'.dog = c.dog ∧ c'.barked = c.barked ∧ (c.polling = false → c' = c) from
    ⟨this.1, this.2.2⟩
  induction h' with
  | here => exact ⟨rfl, by omega, fun i c hc => ⟨c, hc, rfl, rfl, fun _ => rfl⟩⟩
  | @next s s' hr hs ih =>
    obtain ⟨h1, h2, h3⟩ := ih
    have hm := step_busy_mono hs fun i => reached_said (hp i) (reached_trans h hr)
    refine ⟨?_, by omega, fun i c hc => ?_⟩
    · rw [← h1]
      cases hs <;> first | rfl | (rename_i h; exact absurd h (by omega))
    · obtain ⟨d, h4, h5, h6, h7⟩ := h3 i c hc
      obtain ⟨-, e, h8, h9, h10, h11⟩ := step_full hs h2 h4
      refine ⟨e, h8, h9.trans h5, h10.trans h6, fun hx => ?_⟩
      have hd := h7 hx
      subst hd
      exact h11 hx

/-- **C129.** With as many new machines as there are free worker threads this can come about at any time, before
any of their watchdogs has begun to sleep. -/
theorem C129_comes_about (h : Reached (Workers.Step workers ask) (Workers.start t) r) (timeout : Nat) :
    ∃ r', Reached (Workers.Step workers ask) r r' ∧ r'.busy = workers ∧ r'.others = r.others ∧
      r'.clock = r.clock ∧ r'.chores = r.chores ++
        List.replicate (workers - r.busy) { Workers.spawned timeout r.clock with polling := true } := by
  have hle := reached_busy_le h
  suffices ∀ k, r.busy + k ≤ workers → ∃ r', Reached (Workers.Step workers ask) r r' ∧ r'.busy = r.busy + k ∧
      r'.others = r.others ∧ r'.clock = r.clock ∧ r'.chores = r.chores ++
        List.replicate k { Workers.spawned timeout r.clock with polling := true } by
    obtain ⟨r', h1, h2, h3⟩ := this (workers - r.busy) (by omega)
    exact ⟨r', h1, by omega, h3⟩
  intro k
  induction k with
  | zero => exact fun _ => ⟨r, .here, rfl, rfl, rfl, by simp⟩
  | succ k ih =>
    intro hk
    obtain ⟨s, h1, h2, h3, h4, h5⟩ := ih (by omega)
    let s1 : Workers := { s with chores := s.chores ++ [Workers.spawned timeout s.clock] }
    have e1 : s1.busy = s.busy := by simp [s1, Workers.busy, List.countP_append, Workers.spawned]
    have hat : s1.chores[s.chores.length]? = some (Workers.spawned timeout s.clock) := by
      simp [s1]
    have s2 : Workers.Step workers ask s1
        (s1.put s.chores.length { Workers.spawned timeout s.clock with polling := true }) :=
      .listens hat rfl rfl (by omega)
    refine ⟨_, .next (.next h1 (.machine timeout)) s2, ?_, h3, h4, ?_⟩
    · have := put_busy (d := { Workers.spawned timeout s.clock with polling := true }) hat
      simp [Workers.spawned] at this
      simp only [Workers.spawned]
      omega
    · simp only [Workers.put, s1, List.replicate_succ', ← List.append_assoc, ← h5, h4]
      simp

/-- **C129.** Over documented connections, a worker thread that is lost to a listener is lost for ever. -/
theorem C129_lost (hp : ∀ i, Published (ask i)) (h : Reached (Workers.Step workers ask) (Workers.start t) r)
    (h' : Reached (Workers.Step workers ask) r r') : r.busy ≤ r'.busy ∧ r'.busy ≤ workers := by
  refine ⟨?_, reached_busy_le (reached_trans h h')⟩
  induction h' with
  | here => exact Nat.le_refl _
  | next hr hs ih =>
    exact Nat.le_trans ih (step_busy_mono hs fun i => reached_said (hp i) (reached_trans h hr))

/-- **C129.** It cannot be otherwise in the end: over documented connections, if no listener is kept waiting for ever
while there is a free worker thread, then as many threads are lost as there are machines, or all. So on a runtime
with at least as many machines as worker threads, nothing else is done from some time on (`C129_nothing_else`). -/
theorem C129_inevitable (h : Runs workers ask σ) (hp : ∀ i, Published (ask i))
    (hl : ∀ i, Fair (Workers.Step workers ask) (ListenerBegins i) σ) (n : Nat) :
    ∃ k, n ≤ k ∧ min workers (σ n).chores.length ≤ (σ k).busy := runs_inevitable h hp hl n

/-- A runtime with one worker thread and one machine, whose status streams say `st` at once: the listener is polled,
and from then on takes one status after the other, while time goes by. -/
def hogged (st : ConnectionStatus) : Nat → Workers
  | 0 => Workers.start 0
  | 1 => { clock := 0, chores := [Workers.spawned 1 0], others := 0 }
  | n + 2 =>
    { clock := n / 2, others := 0,
      chores := [{ Workers.spawned 1 0 with
        polling := true, polls := (n + 1) / 2, heard := (List.replicate ((n + 1) / 2) (onStatus st)).flatten }] }

theorem hogged_step (st : ConnectionStatus) (w n : Nat) :
    Workers.Step w (fun _ _ => .ready (some st)) (hogged st (n + 2)) (hogged st (n + 3)) := by
  rcases Nat.mod_two_eq_zero_or_one n with h0 | h0
  · have e1 : (n + 1) / 2 = n / 2 := by omega
    have e2 : (n + 1 + 1) / 2 = n / 2 + 1 := by omega
    have := Workers.Step.hears (workers := w) (ask := fun _ _ => .ready (some st)) (r := hogged st (n + 2))
      (i := 0) (st := st) rfl rfl rfl
    simpa [hogged, Workers.put, e1, e2, Workers.spawned, List.replicate_succ'] using this
  · have e1 : (n + 1) / 2 = n / 2 + 1 := by omega
    have e2 : (n + 1 + 1) / 2 = n / 2 + 1 := by omega
    have := Workers.Step.time (workers := w) (ask := fun _ _ => .ready (some st)) (r := hogged st (n + 2))
    simpa [hogged, e1, e2] using this

theorem hogged_runs (st : ConnectionStatus) : Runs 1 (fun _ _ => .ready (some st)) (hogged st) := by
  have hstep : ∀ n, Workers.Step 1 (fun _ _ => .ready (some st)) (hogged st n) (hogged st (n + 1)) := by
    intro n
    match n with
    | 0 => exact .machine 1
    | 1 => exact .listens (i := 0) (c := Workers.spawned 1 0) rfl rfl rfl (show 0 < 1 by omega)
    | n + 2 => exact hogged_step st 1 n
  have hbusy : ∀ n, (hogged st (n + 2)).busy = 1 := fun n => rfl
  refine ⟨⟨0, rfl⟩, fun n => .inl (hstep n), ?_, ?_, fun u => ⟨2 * u + 2, ?_⟩⟩
  · intro i n hen
    match i with
    | 0 =>
      refine ⟨2 * n + 2, by omega, _, _, rfl, rfl, ?_⟩
      show (2 * n + 1 + 1) / 2 = (2 * n + 1) / 2 + 1
      omega
    | i + 1 =>
      obtain ⟨s, -, d, d', h1, -⟩ := hen (n + 2) (by omega)
      simp [hogged] at h1
  · intro i n hen
    obtain ⟨k, hk, s, hs, d, d', h1, h2, h3⟩ := hen (n + 2) (by omega)
    obtain ⟨k, rfl⟩ : ∃ m, k = m + 2 := ⟨k - 2, by omega⟩
    obtain ⟨-, e, h4, h5, -⟩ := step_full hs (by rw [hbusy]) h1
    cases Option.some.inj (h4.symm.trans h2)
    exact absurd h5 h3
  · show u ≤ 2 * u / 2
    omega

/-- **C129, as stated, is false.** On a runtime with one worker thread the watchdog of a machine over a documented
connection need never come to close it, however long the time and however fair the scheduler. -/
theorem C129_gives_way_false : ¬ ∀ (workers : Nat) (ask : Nat → Nat → StatusPoll) (σ : Nat → Workers), 0 < workers →
    (∀ i, Published (ask i)) → Runs workers ask σ → ∀ n i, i < (σ n).chores.length →
      ∃ k, n ≤ k ∧ (¬ Occupied i (σ k) ∨ Barked i (σ k)) := by
  intro hall
  have hp : Published fun _ => .ready (some .connected) := ⟨⟨_, rfl⟩, fun n st _ => ⟨_, rfl⟩⟩
  obtain ⟨k, hk, h | ⟨d, h1, h2⟩⟩ := hall 1 (fun _ _ => .ready (some .connected)) (hogged .connected) (by omega)
    (fun _ => hp) (hogged_runs _) 2 0 (by decide)
  · obtain ⟨k, rfl⟩ : ∃ m, k = m + 2 := ⟨k - 2, by omega⟩
    exact h ⟨_, rfl, rfl⟩
  · obtain ⟨k, rfl⟩ : ∃ m, k = m + 2 := ⟨k - 2, by omega⟩
    have hd := List.mem_of_getElem? h1
    simp only [hogged, List.mem_singleton] at hd
    subst hd
    simp [Workers.spawned] at h2

/-- **C129, what is true.** A poll of the listener ends if and only if some status stream has, at some time from
then on, nothing for it. -/
theorem C129_gives_way_partial (h : Runs workers ask σ) (hc : (σ n).chores[i]? = some c) (hp : c.polling = true) :
    (∃ k, n ≤ k ∧ ¬ Occupied i (σ k)) ↔ ∃ q, c.polls ≤ q ∧ ∀ st, ask i q ≠ .ready (some st) :=
  runs_gives_way h.follows h.polls hc hp

/-- **C129, what is true.** If all status streams have nothing for their listeners again and again, then a worker
thread is free again and again, and the watchdog of every machine closes its connection in the end. -/
theorem C129_watchdog_partial (h : Runs workers ask σ) (hw : 0 < workers) (hr : ∀ i, Relents (ask i)) :
    (∀ n, ∃ k, n ≤ k ∧ (σ k).busy < workers) ∧
      ∀ n i, i < (σ n).chores.length → ∃ k, n ≤ k ∧ Barked i (σ k) :=
  ⟨runs_free h hw hr, fun _ _ hi => runs_barks h hw hr (List.getElem?_eq_getElem hi)⟩

/-- **C129.** However the threads are shared, the listener does with the items that its streams offer what it does
by itself (`listener`), and is over exactly if it has left its loop. -/
theorem C129_heard (h : Reached (Workers.Step workers ask) (Workers.start t) r) (hc : r.chores[i]? = some c) :
    (c.heard, c.over) = listener (offered (ask i) c.polls) := (reached_inv h c hc).heard

/-- **C129.** However the threads are shared, the watchdog of a machine has done nothing, or it has logged the timeout
and closed the connection, once, and more than the timeout after the machine was made (in the step from `s`
to `s'`). -/
theorem C129_barked {s s' : Workers} {c₀ : Chores} (h : Reached (Workers.Step workers ask) (Workers.start t) s)
    (hs : Workers.Step workers ask s s') (hn : s.chores.length ≤ i) (h₀ : s'.chores[i]? = some c₀)
    (h' : Reached (Workers.Step workers ask) s' r) (hc : r.chores[i]? = some c) :
    c.barked = [] ∨
      c.barked = [.logError "connection keepalive timed out", .close] ∧ s.clock + c₀.timeout < r.clock := by
  have hi := reached_inv (reached_trans (.next h hs) h') c hc
  by_cases hd : c.dog = .done
  · refine .inr ⟨by rw [hi.barked, if_pos hd]; rfl, ?_⟩
    obtain ⟨c', h1, h2, h3⟩ := reached_stays h' h₀
    cases Option.some.inj (h1.symm.trans hc)
    obtain ⟨u, rfl⟩ := step_new hs (List.getElem?_eq_none hn) h₀
    have := hi.late hd
    rw [h2, h3] at this
    exact this
  · exact .inl (by rw [hi.barked, if_neg hd])

/-- **C129.** A listener that is polled once a connection is closed, and whose streams say so at once from then on, as
documented, fills the log without end, in a single poll. -/
theorem C129_floods (h : Runs workers ask σ) (hc : (σ n).chores[i]? = some c) (hp : c.polling = true)
    (hq : ∀ q, c.polls ≤ q → ask i q = .ready (some .closed)) : (∀ k, n ≤ k → Occupied i (σ k)) ∧
      ∀ b, ∃ k d, n ≤ k ∧ (σ k).chores[i]? = some d ∧
        d.heard.count (.logError "connection was closed") ≥ b := by
  have hf := runs_floods h.follows hc hp hq
  refine ⟨fun k hk => (hf k hk).imp fun d hd => ⟨hd.1, hd.2.1⟩, fun b => ?_⟩
  obtain ⟨k, d, h1, h2, h3⟩ := runs_past h.follows h.polls hc (fun k hk => (hf k hk).imp fun d hd => ⟨hd.1, hd.2.1⟩) (b + c.polls)
  obtain ⟨d', h4, -, h5, h6⟩ := hf k h1
  cases Option.some.inj (h2.symm.trans h4)
  refine ⟨k, d, h1, h2, ?_⟩
  rw [h6, List.count_append, List.count_replicate_self]
  omega

/-- A runtime with one worker thread and one machine, whose status stream is always pending: the listener is polled
once, the watchdog begins to sleep, wakes up, and closes the connection; after that, time goes by. -/
def oneWorker : Nat → Workers
  | 0 => Workers.start 0
  | 1 => { clock := 0, chores := [Workers.spawned 1 0], others := 0 }
  | 2 => { clock := 0, chores := [{ Workers.spawned 1 0 with polling := true }], others := 0 }
  | 3 => { clock := 0, chores := [{ Workers.spawned 1 0 with polls := 1 }], others := 0 }
  | 4 => { clock := 0, chores := [{ Workers.spawned 1 0 with polls := 1, dog := .sleeping 0 }], others := 0 }
  | 5 => { clock := 1, chores := [{ Workers.spawned 1 0 with polls := 1, dog := .sleeping 0 }], others := 0 }
  | 6 => { clock := 2, chores := [{ Workers.spawned 1 0 with polls := 1, dog := .sleeping 0 }], others := 0 }
  | n + 7 =>
    { clock := n + 2, others := 0,
      chores := [{ Workers.spawned 1 0 with
        polls := 1, dog := .done, barked := handleConnectionError timeoutDisplay }] }

/-- The premises of `C129_gives_way_partial` and `C129_watchdog_partial` can be met. -/
example : Runs 1 (fun _ _ => .pending) oneWorker ∧ (∀ _ : Nat, Relents fun _ => .pending) ∧ Occupied 0 (oneWorker 2) ∧
    ¬ Occupied 0 (oneWorker 3) ∧ Barked 0 (oneWorker 7) := by
  refine ⟨⟨⟨0, rfl⟩, fun n => .inl ?_, fun i n hen => ?_, fun i n hen => ?_, fun u => ⟨u + 7, Nat.le_add_right u 2⟩⟩,
    fun _ n => ⟨n, Nat.le_refl _, fun _ => nofun⟩, ⟨_, rfl, rfl⟩, ?_, ⟨_, rfl, by decide⟩⟩
  · match n with
    | 0 => exact .machine 1
    | 1 => exact .listens (i := 0) (c := Workers.spawned 1 0) rfl rfl rfl (by decide)
    | 2 => exact .waits (i := 0) (c := { Workers.spawned 1 0 with polling := true }) rfl rfl rfl
    | 3 => exact .sleeps (i := 0) (c := { Workers.spawned 1 0 with polls := 1 }) rfl rfl (by decide)
    | 4 => exact .time
    | 5 => exact .time
    | 6 =>
      exact .barks (i := 0) (since := 0) (c := { Workers.spawned 1 0 with polls := 1, dog := .sleeping 0 }) rfl rfl
        (by decide) (by decide) (by decide)
    | n + 7 => exact .time
  · obtain ⟨s, hs, d, d', h1, h2, h3⟩ := hen (n + 7) (by omega)
    obtain ⟨e, h4, h5⟩ := step_chores hs h1
    cases Option.some.inj (h4.symm.trans h2)
    have hd := List.mem_of_getElem? h1
    simp only [oneWorker, List.mem_singleton] at hd
    subst hd
    cases h5 <;> simp_all [Workers.spawned]
  · obtain ⟨k, hk, s, hs, d, d', h1, h2, h3⟩ := hen (n + 7) (by omega)
    obtain ⟨k, rfl⟩ : ∃ m, k = m + 7 := ⟨k - 7, by omega⟩
    obtain ⟨e, h4, h5⟩ := step_chores hs h1
    cases Option.some.inj (h4.symm.trans h2)
    have hd := List.mem_of_getElem? h1
    simp only [oneWorker, List.mem_singleton] at hd
    subst hd
    cases h5 <;> simp_all [Workers.spawned]
  · rintro ⟨d, h1, h2⟩
    cases Option.some.inj h1
    cases h2

/-- The premises of `C129_occupied` and `C129_nothing_else` can be met. -/
example : (∀ i : Nat, Published ((fun _ _ => .ready (some .connected) : Nat → Nat → StatusPoll) i)) ∧
    ∃ r, Reached (Workers.Step 2 fun _ _ => .ready (some .connected)) (Workers.start 0) r ∧ r.busy = 2 ∧
      Occupied 0 r ∧ Occupied 1 r := by
  refine ⟨fun _ => ⟨⟨_, rfl⟩, fun n st _ => ⟨_, rfl⟩⟩, ?_⟩
  obtain ⟨r, h1, h2, -, -, h3⟩ := C129_comes_about (workers := 2) (ask := fun _ _ => .ready (some .connected))
    (t := 0) .here 5
  exact ⟨r, h1, h2, ⟨_, by rw [h3]; rfl, rfl⟩, ⟨_, by rw [h3]; rfl, rfl⟩⟩

/-- The premises of `C129_inevitable` can be met; `hogged` treats the listeners fairly. -/
example : Runs 1 (fun _ _ => .ready (some .connected)) (hogged .connected) ∧
    (∀ i, Fair (Workers.Step 1 fun _ _ => .ready (some .connected)) (ListenerBegins i) (hogged .connected)) ∧
    (hogged .connected 2).busy = min 1 (hogged .connected 1).chores.length := by
  refine ⟨hogged_runs _, fun i n hen => ?_, rfl⟩
  obtain ⟨s, hs, h1, h2⟩ := hen (n + 2) (by omega)
  match i with
  | 0 => exact absurd ⟨_, rfl, rfl⟩ h1
  | i + 1 =>
    obtain ⟨c, h3, h4⟩ := h2
    obtain ⟨u, rfl⟩ := step_new hs rfl h3
    cases h4

/-- The premises of `C129_floods` can be met. -/
example : Runs 1 (fun _ _ => .ready (some .closed)) (hogged .closed) ∧ Occupied 0 (hogged .closed 2) :=
  ⟨hogged_runs _, _, rfl, rfl⟩

/-- What `C129_heard` says at the end of `oneWorker`. -/
example : ∃ c, (oneWorker 7).chores[0]? = some c ∧ c.heard = [] ∧ c.over = false ∧ c.polls = 1 :=
  ⟨_, rfl, rfl, rfl, rfl⟩

/-- The premises of `C129_barked` can be met, and the watchdog can have closed the connection. -/
example : Reached (Workers.Step 1 fun _ _ => .pending) (Workers.start 0) (oneWorker 0) ∧
    Workers.Step 1 (fun _ _ => .pending) (oneWorker 0) (oneWorker 1) ∧ (oneWorker 0).chores.length ≤ 0 ∧
    ∃ c, (oneWorker 7).chores[0]? = some c ∧
      c.barked = [.logError "connection keepalive timed out", .close] ∧ (oneWorker 0).clock + 1 < (oneWorker 7).clock :=
  ⟨.here, .machine 1, Nat.le_refl _, _, rfl, by decide, by decide⟩

end

end Binate
