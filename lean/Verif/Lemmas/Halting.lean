import Verif.Lemmas.Workers
import Verif.Spec.Halting

/-! # Lemmas on the shutdown of a runtime with worker threads -/

namespace Binate

open RSocketMachine Spec

variable {workers : Nat} {ask : Nat → Nat → StatusPoll} {a a' : Halting} {i : Nat} {c : Chores}

/-- With no thread to begin anything, less can happen. -/
theorem workers_step_zero {r r' : Workers} (h : Workers.Step 0 ask r r') : Workers.Step workers ask r r' := by
  cases h with
  | time => exact .time
  | other free => exact absurd free (Nat.not_lt_zero _)
  | machine t => exact .machine t
  | listens _ _ _ free => exact absurd free (Nat.not_lt_zero _)
  | hears h1 h2 h3 => exact .hears h1 h2 h3
  | waits h1 h2 h3 => exact .waits h1 h2 h3
  | ends h1 h2 h3 => exact .ends h1 h2 h3
  | sleeps _ _ free => exact absurd free (Nat.not_lt_zero _)
  | early _ _ _ _ free => exact absurd free (Nat.not_lt_zero _)
  | barks _ _ _ _ free => exact absurd free (Nat.not_lt_zero _)

/-- A runtime that may be shut down does nothing that it would not do otherwise. -/
theorem halting_run (h : Halting.Step workers ask a a') :
    Workers.Step workers ask a.run a'.run ∨ a'.run = a.run := by
  cases h with
  | runs _ h => exact .inl h
  | halt => exact .inr rfl
  | goesOn _ h => exact .inl (workers_step_zero h)
  | dropsListener => exact .inr rfl
  | dropsDog => exact .inr rfl

theorem halting_reached {t : Nat} (h : Reached (Halting.Step workers ask) (Halting.start t) a) :
    Reached (Workers.Step workers ask) (Workers.start t) a.run := by
  induction h with
  | here => exact .here
  | next _ hs ih =>
    rcases halting_run hs with h1 | h1
    · exact .next ih h1
    · rw [h1]; exact ih

/-- A listener that is being polled was not dropped. -/
theorem halting_deaf {t : Nat} (h : Reached (Halting.Step workers ask) (Halting.start t) a) :
    (a.halting = false → a.deaf = []) ∧ ∀ i ∈ a.deaf, ∃ c, a.run.chores[i]? = some c ∧ c.polling = false := by
  induction h with
  | here => exact ⟨fun _ => rfl, nofun⟩
  | @next s s' _ hs ih =>
    cases hs with
    | runs before step =>
      refine ⟨ih.1, fun i hi => ?_⟩
      rw [show ({ s with run := _ } : Halting).deaf = s.deaf from rfl, ih.1 before] at hi
      cases hi
    | halt before => exact ⟨nofun, ih.2⟩
    | goesOn after step =>
      refine ⟨ih.1, fun i hi => ?_⟩
      obtain ⟨c, h1, h2⟩ := ih.2 i hi
      obtain ⟨c', h3, h4⟩ := step_chores step h1
      refine ⟨c', h3, ?_⟩
      cases h4 <;> first
        | exact h2
        | rfl
        | (rename_i free; exact absurd free (Nat.not_lt_zero _))
    | dropsListener after at_ idle on there =>
      refine ⟨fun h => ?_, fun i hi => ?_⟩
      · rw [show ({ s with deaf := _ } : Halting).halting = s.halting from rfl, after] at h; cases h
      · rcases List.mem_cons.mp hi with rfl | hi
        · exact ⟨_, at_, idle⟩
        · exact ih.2 i hi
    | dropsDog => exact ⟨ih.1, ih.2⟩

theorem halting_mono (h : Halting.Step workers ask a a') :
    (a.halting = true → a'.halting = true) ∧ (i ∈ a.deaf → i ∈ a'.deaf) ∧ (i ∈ a.loose → i ∈ a'.loose) := by
  cases h with
  | dropsListener => exact ⟨id, List.mem_cons_of_mem _, id⟩
  | dropsDog => exact ⟨id, id, List.mem_cons_of_mem _⟩
  | runs => exact ⟨id, id, id⟩
  | halt => exact ⟨fun _ => rfl, id, id⟩
  | goesOn => exact ⟨id, id, id⟩

/-- While the runtime is shut down, no poll is begun and no watchdog comes to anything. -/
theorem halting_chores (h : Halting.Step workers ask a a') (ha : a.halting = true) (hc : a.run.chores[i]? = some c) :
    ∃ c', a'.run.chores[i]? = some c' ∧ (c.polling = false → c' = c) ∧ c'.dog = c.dog ∧ c'.barked = c.barked := by
  cases h with
  | runs before => rw [ha] at before; cases before
  | halt before => rw [ha] at before; cases before
  | dropsListener => exact ⟨c, hc, fun _ => rfl, rfl, rfl⟩
  | dropsDog => exact ⟨c, hc, fun _ => rfl, rfl, rfl⟩
  | goesOn _ step =>
    obtain ⟨c', h3, h4⟩ := step_chores step hc
    refine ⟨c', h3, ?_⟩
    cases h4 <;> first
      | exact ⟨fun _ => rfl, rfl, rfl⟩
      | (rename_i free; exact absurd free (Nat.not_lt_zero _))
      | (rename_i hp _; exact ⟨fun h => by (rw [hp] at h; cases h), rfl, rfl⟩)

section
variable {σ : Nat → Halting} {n : Nat}

theorem halts_halting (h : Halts workers ask σ) (hn : (σ n).halting = true) :
    ∀ k, n ≤ k → (σ k).halting = true := by
  intro k hk
  induction hk with
  | refl => exact hn
  | @step m _ ih =>
    rcases h.follows m with hs | he
    · exact (halting_mono (i := 0) hs).1 ih
    · rw [he]; exact ih

/-- What the runtime does after the shutdown has begun. -/
theorem halts_after (h : Halts workers ask σ) (hn : (σ n).halting = true) :
    Follows (Workers.Step 0 ask) (fun k => (σ (n + k)).run) ∧
      ∀ i, Fair (Workers.Step 0 ask) (ListenerPolls i) (fun k => (σ (n + k)).run) := by
  have hh := halts_halting h hn
  refine ⟨fun k => ?_, fun i m hen => ?_⟩
  · rcases h.follows (n + k) with hs | he
    · have ha := hh (n + k) (by omega)
      show Workers.Step 0 ask (σ (n + k)).run (σ (n + k + 1)).run ∨ (σ (n + k + 1)).run = (σ (n + k)).run
      generalize σ (n + k + 1) = b at hs
      cases hs with
      | runs before => rw [ha] at before; cases before
      | halt before => rw [ha] at before; cases before
      | goesOn _ step => exact .inl step
      | dropsListener => exact .inr rfl
      | dropsDog => exact .inr rfl
    · exact .inr (congrArg Halting.run he)
  · obtain ⟨k, hk, hl⟩ := h.polls i (n + m) fun k hk => by
      obtain ⟨r, h1, h2⟩ := hen (k - n) (by omega)
      simp only [show n + (k - n) = k by omega] at h1 h2
      exact ⟨{ σ k with run := r }, .goesOn (hh k (by omega)) h1, h2⟩
    refine ⟨k - n, by omega, ?_⟩
    show ListenerPolls i (σ (n + (k - n))).run (σ (n + (k - n + 1))).run
    rw [show n + (k - n) = k by omega, show n + (k - n + 1) = k + 1 by omega]
    exact hl

/-- A listener that is not polled when the runtime is shut down stays as it is. -/
theorem halts_idle (h : Halts workers ask σ) (hn : (σ n).halting = true) (hc : (σ n).run.chores[i]? = some c)
    (hp : c.polling = false) : ∀ k, n ≤ k → (σ k).run.chores[i]? = some c := by
  intro k hk
  induction hk with
  | refl => exact hc
  | @step m hm ih =>
    rcases h.follows m with hs | he
    · obtain ⟨c', h1, h2, -⟩ := halting_chores hs (halts_halting h hn m hm) ih
      rw [h1, h2 hp]
    · rw [he]; exact ih

theorem halts_dog (h : Halts workers ask σ) (hn : (σ n).halting = true) (hc : (σ n).run.chores[i]? = some c) :
    ∀ k, n ≤ k → ∃ c', (σ k).run.chores[i]? = some c' ∧ c'.dog = c.dog := by
  intro k hk
  induction hk with
  | refl => exact ⟨c, hc, rfl⟩
  | @step m hm ih =>
    obtain ⟨d, h1, h2⟩ := ih
    rcases h.follows m with hs | he
    · obtain ⟨c', h3, -, h4, -⟩ := halting_chores hs (halts_halting h hn m hm) h1
      exact ⟨c', h3, h4.trans h2⟩
    · rw [he]; exact ⟨d, h1, h2⟩

theorem halts_mem (h : Halts workers ask σ) {m k : Nat} (hk : m ≤ k) :
    (i ∈ (σ m).deaf → i ∈ (σ k).deaf) ∧ (i ∈ (σ m).loose → i ∈ (σ k).loose) := by
  induction hk with
  | refl => exact ⟨id, id⟩
  | @step k _ ih =>
    rcases h.follows k with hs | he
    · exact ⟨fun hm => (halting_mono hs).2.1 (ih.1 hm), fun hm => (halting_mono hs).2.2 (ih.2 hm)⟩
    · rw [he]; exact ih

/-- What is gone stays gone. -/
theorem halts_rid (h : Halts workers ask σ) (hn : (σ n).halting = true) :
    (ListenerRid i (σ n) → ∀ k, n ≤ k → ListenerRid i (σ k)) ∧ (DogRid i (σ n) → ∀ k, n ≤ k → DogRid i (σ k)) := by
  refine ⟨fun ⟨c, h1, h2, h3⟩ k hk => ?_, fun ⟨c, h1, h2⟩ k hk => ?_⟩
  · exact ⟨c, halts_idle h hn h1 h2 k hk, h2, h3.imp id (halts_mem h hk).1⟩
  · obtain ⟨c', h3, h4⟩ := halts_dog h hn h1 k hk
    exact ⟨c', h3, h2.imp (fun h => h4.trans h) (halts_mem h hk).2⟩

/-- The listener is got rid of if and only if it is not polled, or its poll ends. -/
theorem halts_listener (h : Halts workers ask σ) (hn : (σ n).halting = true) (hc : (σ n).run.chores[i]? = some c) :
    (∃ k, n ≤ k ∧ ListenerRid i (σ k)) ↔
      (c.polling = true → ∃ q, c.polls ≤ q ∧ ∀ st, ask i q ≠ .ready (some st)) := by
  obtain ⟨hf, hp⟩ := halts_after h hn
  have way := fun hpol => runs_gives_way (n := 0) (i := i) (c := c) hf hp hc hpol
  refine ⟨fun ⟨k, hk, d, h1, h2, _⟩ hpol => ?_, fun hq => ?_⟩
  · refine (way hpol).mp ⟨k - n, Nat.zero_le _, ?_⟩
    rintro ⟨e, h3, h4⟩
    have h3 : (σ (n + (k - n))).run.chores[i]? = some e := h3
    rw [show n + (k - n) = k by omega, h1] at h3
    cases Option.some.inj h3
    rw [h2] at h4
    cases h4
  · -- at some time it is not polled
    have : ∃ m d, n ≤ m ∧ (σ m).run.chores[i]? = some d ∧ d.polling = false := by
      cases hpol : c.polling with
      | false => exact ⟨n, c, Nat.le_refl _, hc, hpol⟩
      | true =>
        obtain ⟨k, -, hk⟩ := (way hpol).mpr (hq hpol)
        obtain ⟨d, h1, -⟩ := halts_dog h hn hc (n + k) (by omega)
        refine ⟨n + k, d, by omega, h1, ?_⟩
        cases hd : d.polling with
        | false => rfl
        | true => exact absurd ⟨d, h1, hd⟩ hk
    obtain ⟨m, d, hm, hd, hdp⟩ := this
    have hnm := halts_halting h hn m hm
    have same := halts_idle h hnm hd hdp
    apply Classical.byContradiction
    intro hno
    have on : d.over = false := by
      cases ho : d.over with
      | false => rfl
      | true => exact absurd ⟨m, hm, d, hd, hdp, .inl ho⟩ hno
    have there : ∀ k, m ≤ k → i ∉ (σ k).deaf := fun k hk hi =>
      hno ⟨k, by omega, d, same k hk, hdp, .inr hi⟩
    obtain ⟨k, hk, -, h1⟩ := h.listeners i m fun k hk =>
      ⟨_, .dropsListener (halts_halting h hnm k hk) (same k hk) hdp on (there k hk), there k hk, List.mem_cons_self⟩
    exact there (k + 1) (by omega) h1

/-- The watchdog is got rid of. -/
theorem halts_loose (h : Halts workers ask σ) (hn : (σ n).halting = true) (hc : (σ n).run.chores[i]? = some c) :
    ∃ k, n ≤ k ∧ DogRid i (σ k) := by
  apply Classical.byContradiction
  intro hno
  have there : ∀ k, n ≤ k → i ∉ (σ k).loose := fun k hk hi => by
    obtain ⟨d, h1, -⟩ := halts_dog h hn hc k hk
    exact hno ⟨k, hk, d, h1, .inr hi⟩
  obtain ⟨k, hk, -, h1⟩ := h.dogs i n fun k hk => by
    obtain ⟨d, h1, h2⟩ := halts_dog h hn hc k hk
    refine ⟨_, .dropsDog (halts_halting h hn k hk) h1 (fun hd => ?_) (there k hk), there k hk, List.mem_cons_self⟩
    exact hno ⟨k, hk, d, h1, .inl hd⟩
  exact there (k + 1) (by omega) h1

end

end Binate
