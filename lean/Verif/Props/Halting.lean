import Verif.Lemmas.Halting
import Verif.Props.Workers

/-! # C130: a runtime that is shut down gets rid of the background tasks -/

namespace Binate

open Spec RSocketMachine

section
variable {workers t : Nat} {ask : Nat → Nat → StatusPoll} {a a' : Halting} {σ : Nat → Halting} {i n : Nat}
  {c : Chores}

/-- **C130.** Over a connection that does as `connection_status` is documented to, a listener that is being polled is
never dropped, so that its clone of the machine lives for ever, and the runtime is never rid of all tasks; whether
it is shut down or not. -/
theorem C130_never (hp : Published (ask i)) (h : Reached (Halting.Step workers ask) (Halting.start t) a)
    (ho : Occupied i a.run) (h' : Reached (Halting.Step workers ask) a a') :
    Occupied i a'.run ∧ i ∉ a'.deaf ∧ ¬ AllRid a' := by
  have ho' : Occupied i a'.run := by
    induction h' with
    | here => exact ho
    | next hr hs ih =>
      rcases halting_run hs with h1 | h1
      · exact step_occupied h1 (reached_said hp (halting_reached (reached_trans h hr))) ih
      · rw [h1]; exact ih
  obtain ⟨c, h1, h2⟩ := ho'
  refine ⟨⟨c, h1, h2⟩, fun hi => ?_, fun hall => ?_⟩
  · obtain ⟨d, h3, h4⟩ := (halting_deaf (reached_trans h h')).2 i hi
    cases Option.some.inj (h1.symm.trans h3)
    rw [h2] at h4; cases h4
  · obtain ⟨hl, -⟩ := List.getElem?_eq_some_iff.mp h1
    obtain ⟨d, h3, h4, -⟩ := (hall i hl).1
    cases Option.some.inj (h1.symm.trans h3)
    rw [h2] at h4; cases h4

/-- **C130.** Once the shutdown has begun, no other task is polled, no listener that waits does anything, and no
watchdog closes a connection. -/
theorem C130_quiet (ha : a.halting = true) (h : Reached (Halting.Step workers ask) a a') :
    a'.halting = true ∧ a'.run.others = a.run.others ∧ ∀ (i : Nat) (c : Chores), a.run.chores[i]? = some c →
      ∃ c' : Chores, a'.run.chores[i]? = some c' ∧ (c.polling = false → c' = c) ∧ c'.barked = c.barked := by
  induction h with
  | here => exact ⟨ha, rfl, fun i c hc => ⟨c, hc, fun _ => rfl, rfl⟩⟩
  | @next s s' hr hs ih =>
    obtain ⟨h1, h2, h3⟩ := ih
    refine ⟨(halting_mono (i := 0) hs).1 h1, ?_, fun i c hc => ?_⟩
    · rw [← h2]
      cases hs with
      | runs before => exact absurd (h1.symm.trans before) nofun
      | halt before => exact absurd (h1.symm.trans before) nofun
      | goesOn _ step => cases step <;> first | rfl | (rename_i free; exact absurd free (Nat.not_lt_zero _))
      | dropsListener => rfl
      | dropsDog => rfl
    · obtain ⟨d, h4, h5, h6⟩ := h3 i c hc
      obtain ⟨e, h7, h8, -, h9⟩ := halting_chores hs h1 h4
      refine ⟨e, h7, fun hp => ?_, h9.trans h6⟩
      have hd := h5 hp
      subst hd
      exact h8 hp

/-- A runtime with one worker thread, occupied by a listener (`hogged`), that is shut down: the watchdog is dropped,
the listener goes on. -/
def hoggedHalting : Nat → Halting
  | 0 => Halting.start 0
  | 1 => { Halting.start 0 with run := hogged .connected 1 }
  | 2 => { Halting.start 0 with run := hogged .connected 2 }
  | 3 => { Halting.start 0 with run := hogged .connected 2, halting := true }
  | n + 4 => { run := hogged .connected (n + 2), halting := true, deaf := [], loose := [0] }

theorem hoggedHalting_halts : Halts 1 (fun _ _ => .ready (some .connected)) hoggedHalting := by
  have hlen : ∀ n i, (hogged .connected (n + 2)).chores[i + 1]? = none := fun n i => rfl
  refine ⟨⟨0, rfl⟩, fun n => .inl ?_, fun i n hen => ?_, fun i n hen => ?_, fun i n hen => ?_⟩
  · match n with
    | 0 => exact .runs rfl (.machine 1)
    | 1 =>
      exact .runs rfl (.listens (i := 0) (c := Workers.spawned 1 0) rfl rfl rfl (show 0 < 1 by omega))
    | 2 => exact .halt rfl
    | 3 => exact .dropsDog (i := 0) rfl rfl nofun nofun
    | n + 4 => exact .goesOn rfl (hogged_step .connected 0 n)
  · match i with
    | 0 =>
      refine ⟨2 * n + 4, by omega, _, _, rfl, rfl, ?_⟩
      show (2 * n + 1 + 1) / 2 = (2 * n + 1) / 2 + 1
      omega
    | i + 1 =>
      obtain ⟨s, -, d, d', h1, -⟩ := hen (n + 4) (by omega)
      rw [show (hoggedHalting (n + 4)).run = hogged .connected (n + 2) from rfl, hlen] at h1
      cases h1
  · obtain ⟨s, hs, h1, h2⟩ := hen (n + 4) (by omega)
    cases hs with
    | @dropsListener j _ _ at_ idle =>
      match j with
      | 0 => cases Option.some.inj at_; cases idle
      | j + 1 =>
        rw [show (hoggedHalting (n + 4)).run = hogged .connected (n + 2) from rfl, hlen] at at_
        cases at_
    | _ => exact absurd h2 h1
  · obtain ⟨s, hs, h1, h2⟩ := hen (n + 4) (by omega)
    cases hs with
    | @dropsDog j _ _ at_ _ there =>
      match j with
      | 0 => exact absurd List.mem_cons_self there
      | j + 1 =>
        rw [show (hoggedHalting (n + 4)).run = hogged .connected (n + 2) from rfl, hlen] at at_
        cases at_
    | _ => exact absurd h2 h1

/-- **C130, as stated, is false.** Over documented connections a shutdown need never come to its end, although no
machine is made any more and all that can be done is done. -/
theorem C130_shutdown_false : ¬ ∀ (workers : Nat) (ask : Nat → Nat → StatusPoll) (σ : Nat → Halting), 0 < workers →
    (∀ i, Published (ask i)) → Halts workers ask σ → ∀ n, (σ n).halting = true →
      (∀ k, n ≤ k → (σ k).run.chores.length = (σ n).run.chores.length) → ∃ k, n ≤ k ∧ AllRid (σ k) := by
  intro hall
  have hp : Published fun _ => .ready (some .connected) := ⟨⟨_, rfl⟩, fun n st _ => ⟨_, rfl⟩⟩
  obtain ⟨k, hk, h⟩ := hall 1 _ _ (by omega) (fun _ => hp) hoggedHalting_halts 4 rfl fun k hk => by
    obtain ⟨k, rfl⟩ : ∃ m, k = m + 4 := ⟨k - 4, by omega⟩
    rfl
  obtain ⟨k, rfl⟩ : ∃ m, k = m + 4 := ⟨k - 4, by omega⟩
  obtain ⟨⟨d, h1, h2, -⟩, -⟩ := h 0 (show 0 < 1 by omega)
  cases Option.some.inj h1
  cases h2

/-- **C130, what is true.** A runtime that is shut down gets rid of each watchdog, and of a listener if and only if
the listener is not being polled when the shutdown begins, or some stream has nothing for it at some time. -/
theorem C130_tasks_partial (h : Halts workers ask σ) (hn : (σ n).halting = true)
    (hc : (σ n).run.chores[i]? = some c) :
    (∃ k, n ≤ k ∧ DogRid i (σ k)) ∧
      ((∃ k, n ≤ k ∧ ListenerRid i (σ k)) ↔
        (c.polling = true → ∃ q, c.polls ≤ q ∧ ∀ st, ask i q ≠ .ready (some st))) :=
  ⟨halts_loose h hn hc, halts_listener h hn hc⟩

/-- **C130, what is true.** If no machine is made any more, a runtime that is shut down gets rid of all tasks, for
good, if and only if this is so of every listener. -/
theorem C130_shutdown_partial (h : Halts workers ask σ) (hn : (σ n).halting = true)
    (hl : ∀ k, n ≤ k → (σ k).run.chores.length = (σ n).run.chores.length) :
    (∃ k, n ≤ k ∧ ∀ m, k ≤ m → AllRid (σ m)) ↔
      ∀ (i : Nat) (c : Chores), (σ n).run.chores[i]? = some c → c.polling = true →
        ∃ q, c.polls ≤ q ∧ ∀ st, ask i q ≠ .ready (some st) := by
  refine ⟨fun ⟨k, hk, hall⟩ i c hc => ?_, fun hq => ?_⟩
  · refine (halts_listener h hn hc).mp ⟨k, hk, ?_⟩
    obtain ⟨hi, -⟩ := List.getElem?_eq_some_iff.mp hc
    exact (hall k (Nat.le_refl _) i (by rw [hl k hk]; exact hi)).1
  · obtain ⟨k, hk, hall⟩ := all_from (P := fun i m => ListenerRid i (σ m) ∧ DogRid i (σ m)) (n := n)
      (b := (σ n).run.chores.length) fun i hi => by
        have hc := List.getElem?_eq_getElem hi
        obtain ⟨k, hk, h1⟩ := (halts_listener h hn hc).mpr (hq i _ hc)
        obtain ⟨k', hk', h2⟩ := halts_loose h hn hc
        refine ⟨max k k', by omega, fun m hm => ⟨?_, ?_⟩⟩
        · exact (halts_rid h (halts_halting h hn k hk)).1 h1 m (by omega)
        · exact (halts_rid h (halts_halting h hn k' hk')).2 h2 m (by omega)
    refine ⟨k, hk, fun m hm i hi => hall i ?_ m hm⟩
    rw [hl m (by omega)] at hi
    exact hi

/-- A runtime with one machine, whose status stream is pending, that is shut down. -/
def idleHalting : Nat → Halting
  | 0 => Halting.start 0
  | 1 => { Halting.start 0 with run := oneWorker 1 }
  | 2 => { Halting.start 0 with run := oneWorker 2 }
  | 3 => { Halting.start 0 with run := oneWorker 2, halting := true }
  | 4 => { Halting.start 0 with run := oneWorker 3, halting := true }
  | 5 => { run := oneWorker 3, halting := true, deaf := [0], loose := [] }
  | _ + 6 => { run := oneWorker 3, halting := true, deaf := [0], loose := [0] }

/-- The premises of `C130_tasks_partial`, `C130_shutdown_partial` and `C130_quiet` can be met, with a listener that is
being polled when the shutdown begins and gives way. -/
example : Halts 1 (fun _ _ => .pending) idleHalting ∧ (idleHalting 3).halting = true ∧ Occupied 0 (idleHalting 3).run ∧
    (∀ k, 3 ≤ k → (idleHalting k).run.chores.length = (idleHalting 3).run.chores.length) ∧ AllRid (idleHalting 6) := by
  have hend : ∀ n s, Halting.Step 1 (fun _ _ => .pending) (idleHalting (n + 6)) s →
      (∀ i, ¬ ListenerPolls i (idleHalting (n + 6)).run s.run) ∧ s.deaf = [0] ∧ s.loose = [0] := by
    intro n s hs
    have hone : ∀ i d, (oneWorker 3).chores[i]? = some d → d = { Workers.spawned 1 0 with polls := 1 } :=
      fun i d h => by simpa [oneWorker] using List.mem_of_getElem? h
    cases hs with
    | runs before => cases before
    | halt before => cases before
    | goesOn _ step =>
      refine ⟨fun i ⟨d, d', h1, h2, h3⟩ => ?_, rfl, rfl⟩
      obtain ⟨e, h4, h5⟩ := step_chores step h1
      cases Option.some.inj (h2.symm.trans h4)
      have := hone i d h1
      subst this
      cases h5 <;> simp_all [Workers.spawned]
    | @dropsListener j _ _ at_ _ _ there =>
      match j with
      | 0 => exact absurd List.mem_cons_self there
      | j + 1 => cases at_
    | @dropsDog j _ _ at_ _ there =>
      match j with
      | 0 => exact absurd List.mem_cons_self there
      | j + 1 => cases at_
  refine ⟨⟨⟨0, rfl⟩, fun n => ?_, fun i n hen => ?_, fun i n hen => ?_, fun i n hen => ?_⟩, rfl, ⟨_, rfl, rfl⟩, ?_, ?_⟩
  · match n with
    | 0 => exact .inl (.runs rfl (.machine 1))
    | 1 =>
      exact .inl (.runs rfl (.listens (i := 0) (c := Workers.spawned 1 0) rfl rfl rfl (show 0 < 1 by omega)))
    | 2 => exact .inl (.halt rfl)
    | 3 =>
      exact .inl (.goesOn rfl (.waits (i := 0) (c := { Workers.spawned 1 0 with polling := true }) rfl rfl rfl))
    | 4 => exact .inl (.dropsListener (i := 0) rfl rfl rfl rfl nofun)
    | 5 => exact .inl (.dropsDog (i := 0) rfl rfl nofun nofun)
    | n + 6 => exact .inr rfl
  · obtain ⟨s, hs, h1⟩ := hen (n + 6) (by omega)
    exact absurd h1 ((hend n s hs).1 i)
  · obtain ⟨s, hs, h1, h2⟩ := hen (n + 6) (by omega)
    rw [(hend n s hs).2.1] at h2
    exact absurd h2 h1
  · obtain ⟨s, hs, h1, h2⟩ := hen (n + 6) (by omega)
    rw [(hend n s hs).2.2] at h2
    exact absurd h2 h1
  · intro k hk
    match k with
    | 0 | 1 | 2 => omega
    | 3 | 4 | 5 | _ + 6 => rfl
  · intro i hi
    match i with
    | 0 => exact ⟨⟨_, rfl, rfl, .inr List.mem_cons_self⟩, ⟨_, rfl, .inr List.mem_cons_self⟩⟩
    | i + 1 => exact absurd (show i + 1 < 1 from hi) (by omega)

/-- The premises of `C130_never` can be met, before the shutdown and during it. -/
example : Reached (Halting.Step 1 fun _ _ => .ready (some .connected)) (Halting.start 0) (hoggedHalting 3) ∧
    Occupied 0 (hoggedHalting 2).run ∧ Occupied 0 (hoggedHalting 3).run ∧ (hoggedHalting 3).halting = true := by
  refine ⟨.next (.next (.next .here (.runs rfl (.machine 1))) (.runs rfl (.listens (i := 0)
    (c := Workers.spawned 1 0) rfl rfl rfl (show 0 < 1 by omega)))) (.halt rfl), ⟨_, rfl, rfl⟩, ⟨_, rfl, rfl⟩, rfl⟩

end

end Binate
