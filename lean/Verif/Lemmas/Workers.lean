import Verif.Spec.Workers

/-! # Lemmas on the threads of a runtime -/

namespace Binate

open RSocketMachine

open Spec Workers

variable {workers : Nat} {ask : Nat → Nat → StatusPoll} {r r' : Workers} {i j : Nat} {c d : Chores}

theorem put_get (h : r.chores[j]? = some c) :
    (r.put j d).chores[i]? = if j = i then some d else r.chores[i]? := by
  obtain ⟨hl, -⟩ := List.getElem?_eq_some_iff.mp h
  simp [put, List.getElem?_set, hl]

theorem put_busy (h : r.chores[j]? = some c) :
    (r.put j d).busy + (if c.polling then 1 else 0) = r.busy + (if d.polling then 1 else 0) := by
  obtain ⟨hl, he⟩ := List.getElem?_eq_some_iff.mp h
  have hc : r.chores.countP (·.polling) = r.chores.countP (·.polling) := rfl
  have := List.countP_set (p := (·.polling)) (l := r.chores) (i := j) (a := d) hl
  unfold busy put
  simp only [this, he]
  have hpos : c.polling = true → 0 < r.chores.countP (·.polling) := fun hp =>
    List.countP_pos_iff.mpr ⟨c, he ▸ List.getElem_mem hl, hp⟩
  cases hcp : c.polling <;> cases d.polling <;> simp_all

/-- What a step may do to the tasks of a machine. -/
inductive ChoresStep (workers : Nat) (answers : Nat → StatusPoll) (clock busy : Nat) (c : Chores) : Chores → Prop where
  | none : ChoresStep workers answers clock busy c c
  | listens (idle : c.polling = false) (on : c.over = false) (free : busy < workers) :
      ChoresStep workers answers clock busy c { c with polling := true }
  | hears {st : ConnectionStatus} (polling : c.polling = true) (said : answers c.polls = .ready (some st)) :
      ChoresStep workers answers clock busy c { c with polls := c.polls + 1, heard := c.heard ++ onStatus st }
  | waits (polling : c.polling = true) (said : answers c.polls = .pending) :
      ChoresStep workers answers clock busy c { c with polls := c.polls + 1, polling := false }
  | ends (polling : c.polling = true) (said : answers c.polls = .ready none) :
      ChoresStep workers answers clock busy c { c with polls := c.polls + 1, polling := false, over := true }
  | sleeps (dog : c.dog = .fresh) (free : busy < workers) :
      ChoresStep workers answers clock busy c { c with dog := .sleeping clock }
  | early {since : Nat} (dog : c.dog = .sleeping since)
      (due : since + c.timeout ≤ clock) (soon : ¬ clock - c.last > c.timeout) (free : busy < workers) :
      ChoresStep workers answers clock busy c { c with dog := .sleeping clock }
  | barks {since : Nat} (dog : c.dog = .sleeping since)
      (due : since + c.timeout ≤ clock) (late : clock - c.last > c.timeout) (free : busy < workers) :
      ChoresStep workers answers clock busy c
        { c with dog := .done, barked := c.barked ++ handleConnectionError timeoutDisplay }

theorem choresStep_of_put {e : Chores} (ha : r.chores[j]? = some c) (h : r.chores[i]? = some d)
    (hs : i = j → c = d → ChoresStep workers (ask i) r.clock r.busy d e) :
    ∃ c', (r.put j e).chores[i]? = some c' ∧ ChoresStep workers (ask i) r.clock r.busy d c' := by
  rw [put_get ha]
  by_cases hj : j = i
  · subst hj
    rw [if_pos rfl]
    exact ⟨_, rfl, hs rfl (Option.some.inj (ha.symm.trans h))⟩
  · rw [if_neg hj]; exact ⟨_, h, .none⟩

theorem step_chores (hs : Step workers ask r r') (h : r.chores[i]? = some d) :
    ∃ c', r'.chores[i]? = some c' ∧ ChoresStep workers (ask i) r.clock r.busy d c' := by
  cases hs with
  | time => exact ⟨_, h, .none⟩
  | other free => exact ⟨_, h, .none⟩
  | machine t =>
    obtain ⟨hl, -⟩ := List.getElem?_eq_some_iff.mp h
    exact ⟨_, by rw [List.getElem?_append_left hl]; exact h, .none⟩
  | listens ha h1 h2 h3 =>
    exact choresStep_of_put ha h fun e1 e2 => by subst e1 e2; exact .listens h1 h2 h3
  | hears ha h1 h2 => exact choresStep_of_put ha h fun e1 e2 => by subst e1 e2; exact .hears h1 h2
  | waits ha h1 h2 => exact choresStep_of_put ha h fun e1 e2 => by subst e1 e2; exact .waits h1 h2
  | ends ha h1 h2 => exact choresStep_of_put ha h fun e1 e2 => by subst e1 e2; exact .ends h1 h2
  | sleeps ha h1 h2 => exact choresStep_of_put ha h fun e1 e2 => by subst e1 e2; exact .sleeps h1 h2
  | early ha h1 h2 h3 h4 => exact choresStep_of_put ha h fun e1 e2 => by subst e1 e2; exact .early h1 h2 h3 h4
  | barks ha h1 h2 h3 h4 => exact choresStep_of_put ha h fun e1 e2 => by subst e1 e2; exact .barks h1 h2 h3 h4

/-- There are never more listeners polled than there are worker threads. -/
theorem step_busy_le (hs : Step workers ask r r') (h : r.busy ≤ workers) : r'.busy ≤ workers := by
  have key : ∀ {j : Nat} {a e : Chores}, r.chores[j]? = some a →
      (e.polling = a.polling ∨ e.polling = false ∨ r.busy < workers) → (r.put j e).busy ≤ workers := by
    intro j a e ha he
    have := put_busy (d := e) ha
    cases h1 : a.polling <;> cases h2 : e.polling <;> simp only [h1, h2] at this he <;> simp at this he <;> omega
  cases hs with
  | time => exact h
  | other => exact h
  | machine t => simpa [busy, List.countP_append, spawned] using h
  | listens ha h1 h2 h3 => exact key ha (.inr (.inr h3))
  | hears ha => exact key ha (.inl rfl)
  | waits ha => exact key ha (.inr (.inl rfl))
  | ends ha => exact key ha (.inr (.inl rfl))
  | sleeps ha => exact key ha (.inl rfl)
  | early ha => exact key ha (.inl rfl)
  | barks ha => exact key ha (.inl rfl)

/-- The listener that gives way leaves a worker thread free. -/
theorem step_frees (hs : Step workers ask r r') (hb : r.busy ≤ workers) (h : r.chores[i]? = some c)
    (hp : c.polling = true) (h' : r'.chores[i]? = some d) (hq : d.polling = false) : r'.busy < workers := by
  have contra : ∀ {e : Chores}, e.polling = true → some e = some d → False := fun he h0 => by
    rw [Option.some.inj h0, hq] at he; cases he
  have key : ∀ {j : Nat} {a e : Chores}, r.chores[j]? = some a → (a.polling = true → e.polling = true ∨ r' = r.put j e) →
      r' = r.put j e → r'.busy < workers := by
    intro j a e ha _ he
    subst he
    rw [put_get ha] at h'
    by_cases hj : j = i
    · subst hj
      rw [if_pos rfl] at h'
      have h1 := Option.some.inj h'
      have h2 := Option.some.inj (ha.symm.trans h)
      subst h1 h2
      have := put_busy (d := e) ha
      simp only [hp, hq] at this; simp at this; omega
    · rw [if_neg hj, h] at h'; exact (contra hp h').elim
  cases hs with
  | time => exact (contra hp (h.symm.trans h')).elim
  | other => exact (contra hp (h.symm.trans h')).elim
  | machine t =>
    obtain ⟨hl, -⟩ := List.getElem?_eq_some_iff.mp h
    rw [show ({ r with chores := r.chores ++ [spawned t r.clock] } : Workers).chores = r.chores ++ _ from rfl,
      List.getElem?_append_left hl] at h'
    exact (contra hp (h.symm.trans h')).elim
  | listens ha => exact key ha (fun _ => .inr rfl) rfl
  | hears ha => exact key ha (fun _ => .inr rfl) rfl
  | waits ha => exact key ha (fun _ => .inr rfl) rfl
  | ends ha => exact key ha (fun _ => .inr rfl) rfl
  | sleeps ha => exact key ha (fun _ => .inr rfl) rfl
  | early ha => exact key ha (fun _ => .inr rfl) rfl
  | barks ha => exact key ha (fun _ => .inr rfl) rfl

theorem start_busy {t : Nat} : (Workers.start t).busy = 0 := rfl

theorem reached_busy_le {t : Nat} (h : Reached (Step workers ask) (Workers.start t) r) : r.busy ≤ workers := by
  induction h with
  | here => simp [start_busy]
  | next _ hs ih => exact step_busy_le hs ih

theorem step_new (hs : Step workers ask r r') (hn : r.chores[i]? = none) (hc : r'.chores[i]? = some c) :
    ∃ timeout, c = spawned timeout r.clock := by
  have aux : ∀ {j : Nat} {a e : Chores}, r.chores[j]? = some a → (r.put j e).chores[i]? = some c → False :=
    fun {j a e} ha he => by
      rw [put_get ha] at he
      by_cases hj : j = i
      · subst hj; rw [ha] at hn; cases hn
      · rw [if_neg hj, hn] at he; cases he
  cases hs with
  | time => exact absurd (hc.symm.trans hn) (by simp)
  | other => exact absurd (hc.symm.trans hn) (by simp)
  | machine t =>
    have hl := List.getElem?_eq_none_iff.mp hn
    rw [show ({ r with chores := r.chores ++ [spawned t r.clock] } : Workers).chores = r.chores ++ _ from rfl,
      List.getElem?_append_right hl] at hc
    have := List.mem_of_getElem? hc
    simp at this
    exact ⟨t, this⟩
  | listens ha => exact (aux ha hc).elim
  | hears ha => exact (aux ha hc).elim
  | waits ha => exact (aux ha hc).elim
  | ends ha => exact (aux ha hc).elim
  | sleeps ha => exact (aux ha hc).elim
  | early ha => exact (aux ha hc).elim
  | barks ha => exact (aux ha hc).elim

/-- Over a documented connection, the next stream has an item. -/
theorem reached_said {t : Nat} (hp : Published (ask i)) (h : Reached (Step workers ask) (Workers.start t) r) :
    ∀ c, r.chores[i]? = some c → ∃ st, ask i c.polls = .ready (some st) := by
  induction h with
  | here => intro c hc; simp [Workers.start] at hc
  | @next s s' hr hs ih =>
    intro c hc
    cases hsi : s.chores[i]? with
    | some d =>
      obtain ⟨c', h1, h2⟩ := step_chores hs hsi
      cases Option.some.inj (hc.symm.trans h1)
      obtain ⟨st, hst⟩ := ih d hsi
      cases h2 <;> first
        | exact ⟨st, hst⟩
        | exact hp.2 _ _ hst
    | none =>
      obtain ⟨u, rfl⟩ := step_new hs hsi hc
      exact hp.1

theorem step_occupied (hs : Step workers ask r r') (hsaid : ∀ c, r.chores[i]? = some c → ∃ st, ask i c.polls = .ready (some st))
    (h : Occupied i r) : Occupied i r' := by
  obtain ⟨c, hc, hp⟩ := h
  obtain ⟨c', h1, h2⟩ := step_chores hs hc
  obtain ⟨st, hst⟩ := hsaid c hc
  refine ⟨c', h1, ?_⟩
  cases h2 <;> first
    | exact hp
    | rfl
    | (rename_i said; rw [said] at hst; cases hst)

theorem reached_trans {α : Type} {step : α → α → Prop} {a b c : α} (h : Reached step a b) (h' : Reached step b c) :
    Reached step a c := by
  induction h' with
  | here => exact h
  | next _ hs ih => exact .next ih hs

theorem workers_clock (hs : Step workers ask r r') : r.clock ≤ r'.clock := by
  cases hs <;> first | exact Nat.le_succ _ | exact Nat.le_refl _

theorem listener_append (l : List (Option ConnectionStatus)) (x : Option ConnectionStatus)
    (h : (listener l).2 = false) :
    listener (l ++ [x]) = ((listener l).1 ++ (match x with | none => [] | some st => onStatus st), x.isNone) := by
  induction l with
  | nil => cases x <;> simp [listener]
  | cons y l ih =>
    cases y with
    | none => cases h
    | some st =>
      simp only [List.cons_append, listener] at h ⊢
      rw [ih h]
      simp

/-- What is so of the tasks of each machine. -/
structure ChoresInv (answers : Nat → StatusPoll) (clock : Nat) (c : Chores) : Prop where
  heard : (c.heard, c.over) = listener (offered answers c.polls)
  on : c.polling = true → c.over = false
  barked : c.barked = if c.dog = .done then handleConnectionError timeoutDisplay else []
  late : c.dog = .done → c.last + c.timeout < clock
  last : c.last ≤ clock

theorem reached_inv {t : Nat} (h : Reached (Step workers ask) (Workers.start t) r) :
    ∀ c, r.chores[i]? = some c → ChoresInv (ask i) r.clock c := by
  induction h with
  | here => intro c hc; simp [Workers.start] at hc
  | @next s s' hr hs ih =>
    intro c hc
    have hcl := workers_clock hs
    cases hsi : s.chores[i]? with
    | none =>
      obtain ⟨u, rfl⟩ := step_new hs hsi hc
      exact ⟨rfl, nofun, rfl, nofun, hcl⟩
    | some d =>
      obtain ⟨c', h1, h2⟩ := step_chores hs hsi
      cases Option.some.inj (hc.symm.trans h1)
      obtain ⟨i1, i2, i3, i4, i5⟩ := ih d hsi
      have hl : d.polling = true → (listener (offered (ask i) d.polls)).2 = false := fun hp => by
        rw [← i1]; exact i2 hp
      cases h2 with
      | none => exact ⟨i1, i2, i3, fun h => by have := i4 h; omega, by omega⟩
      | listens _ on => exact ⟨i1, fun _ => on, i3, fun h => by have := i4 h; show d.last + d.timeout < _; omega, by show d.last ≤ _; omega⟩
      | hears hp said =>
        refine ⟨?_, i2, i3, fun h => by have := i4 h; show d.last + d.timeout < _; omega, by show d.last ≤ _; omega⟩
        simp only [offered, said]
        rw [listener_append _ _ (hl hp), ← i1]
        simp [i2 hp]
      | waits hp said =>
        refine ⟨?_, nofun, i3, fun h => by have := i4 h; show d.last + d.timeout < _; omega,
          by show d.last ≤ _; omega⟩
        simpa only [offered, said, List.append_nil] using i1
      | ends hp said =>
        refine ⟨?_, nofun, i3, fun h => by have := i4 h; show d.last + d.timeout < _; omega,
          by show d.last ≤ _; omega⟩
        simp only [offered, said]
        rw [listener_append _ _ (hl hp), ← i1]
        simp
      | sleeps hd =>
        exact ⟨i1, i2, by simpa [hd] using i3, nofun, by show d.last ≤ _; omega⟩
      | early hd =>
        exact ⟨i1, i2, by simpa [hd] using i3, nofun, by show d.last ≤ _; omega⟩
      | barks hd due late =>
        refine ⟨i1, i2, ?_, fun _ => ?_, ?_⟩
        · simp [i3, hd]
        · show d.last + d.timeout < _; omega
        · show d.last ≤ _; omega

/-- The instant at which a machine was made and its timeout stay as they are. -/
theorem reached_stays (h : Reached (Step workers ask) r r') (hc : r.chores[i]? = some c) :
    ∃ c', r'.chores[i]? = some c' ∧ c'.last = c.last ∧ c'.timeout = c.timeout := by
  induction h with
  | here => exact ⟨c, hc, rfl, rfl⟩
  | next _ hs ih =>
    obtain ⟨d, h1, h2, h3⟩ := ih
    obtain ⟨e, h4, h5⟩ := step_chores hs h1
    exact ⟨e, h4, by cases h5 <;> exact ⟨h2, h3⟩⟩

/-- A free worker thread is needed for all but the clock, new machines, and the listeners being polled. -/
theorem step_full (hs : Step workers ask r r') (hb : workers ≤ r.busy) (hc : r.chores[i]? = some c) :
    r'.others = r.others ∧ ∃ c', r'.chores[i]? = some c' ∧ c'.dog = c.dog ∧ c'.barked = c.barked ∧
      (c.polling = false → c' = c) := by
  refine ⟨?_, ?_⟩
  · cases hs <;> first | rfl | (rename_i h; exact absurd h (by omega))
  · obtain ⟨c', h1, h2⟩ := step_chores hs hc
    refine ⟨c', h1, ?_⟩
    cases h2 <;> first
      | exact ⟨rfl, rfl, fun _ => rfl⟩
      | (rename_i h; exact absurd h (by omega))
      | (rename_i hp _; exact ⟨rfl, rfl, fun h => by rw [hp] at h; cases h⟩)

/-- What is polled stays polled. -/
theorem step_busy_mono (hs : Step workers ask r r')
    (hsaid : ∀ i c, r.chores[i]? = some c → ∃ st, ask i c.polls = .ready (some st)) : r.busy ≤ r'.busy := by
  have key : ∀ {j : Nat} {a e : Chores}, r.chores[j]? = some a → (a.polling = true → e.polling = true) →
      r.busy ≤ (r.put j e).busy := by
    intro j a e ha he
    have := put_busy (d := e) ha
    cases h1 : a.polling
    · simp only [h1] at this; simp at this; omega
    · simp only [h1, he h1] at this; simp at this; omega
  cases hs with
  | time => exact Nat.le_refl _
  | other => exact Nat.le_refl _
  | machine t => simp [busy, List.countP_append]
  | listens ha => exact key ha fun _ => rfl
  | hears ha => exact key ha id
  | waits ha _ h2 => obtain ⟨st, h⟩ := hsaid _ _ ha; rw [h2] at h; cases h
  | ends ha _ h2 => obtain ⟨st, h⟩ := hsaid _ _ ha; rw [h2] at h; cases h
  | sleeps ha => exact key ha id
  | early ha => exact key ha id
  | barks ha => exact key ha id

/-- Over a documented connection the listener does not end. -/
theorem reached_on {t : Nat} (hp : Published (ask i)) (h : Reached (Step workers ask) (Workers.start t) r) :
    ∀ c, r.chores[i]? = some c → c.over = false := by
  induction h with
  | here => intro c hc; simp [Workers.start] at hc
  | @next s s' hr hs ih =>
    intro c hc
    cases hsi : s.chores[i]? with
    | none =>
      obtain ⟨u, rfl⟩ := step_new hs hsi hc
      rfl
    | some d =>
      obtain ⟨c', h1, h2⟩ := step_chores hs hsi
      cases Option.some.inj (hc.symm.trans h1)
      have hd := ih d hsi
      cases h2 with
      | ends _ said =>
        obtain ⟨st, hst⟩ := reached_said hp hr d hsi
        rw [said] at hst; cases hst
      | _ => exact hd

theorem le_countP {α : Type} {p : α → Bool} : ∀ {m : Nat} {l : List α},
    (∀ i, i < m → ∃ c, l[i]? = some c ∧ p c = true) → m ≤ l.countP p
  | 0, _, _ => Nat.zero_le _
  | m + 1, [], h => by obtain ⟨c, h1, -⟩ := h 0 (by omega); cases h1
  | m + 1, x :: l, h => by
    obtain ⟨c, h1, h2⟩ := h 0 (by omega)
    cases Option.some.inj h1
    rw [List.countP_cons_of_pos h2]
    exact Nat.succ_le_succ (le_countP fun i hi => h (i + 1) (by omega))

/-! ## Executions that go on for ever -/

section
variable {σ : Nat → Workers} {n : Nat}

theorem runs_reached (h : Runs workers ask σ) : ∀ n, ∃ t, Reached (Step workers ask) (Workers.start t) (σ n) := by
  intro n
  obtain ⟨t, ht⟩ := h.start
  refine ⟨t, ?_⟩
  induction n with
  | zero => rw [ht]; exact .here
  | succ n ih =>
    rcases h.follows n with hs | he
    · exact .next ih hs
    · rw [he]; exact ih

theorem runs_busy_le (h : Runs workers ask σ) (n : Nat) : (σ n).busy ≤ workers := by
  obtain ⟨t, ht⟩ := runs_reached h n
  exact reached_busy_le ht

theorem runs_chores (h : Follows (Step workers ask) σ) (hc : (σ n).chores[i]? = some c) :
    ∃ c', (σ (n + 1)).chores[i]? = some c' ∧ ChoresStep workers (ask i) (σ n).clock (σ n).busy c c' := by
  rcases h n with hs | he
  · exact step_chores hs hc
  · rw [he]; exact ⟨c, hc, .none⟩

theorem runs_clock_mono (h : Runs workers ask σ) {n m : Nat} (hnm : n ≤ m) : (σ n).clock ≤ (σ m).clock := by
  induction hnm with
  | refl => exact Nat.le_refl _
  | @step m _ ih =>
    refine Nat.le_trans ih ?_
    rcases h.follows m with hs | he
    · have hput : ∀ {j : Nat} {d : Chores}, ((σ m).put j d).clock = (σ m).clock := rfl
      generalize hr : σ (m + 1) = r' at hs
      cases hs <;> first | exact Nat.le_succ _ | exact Nat.le_refl _
    · rw [he]

theorem runs_stays (h : Follows (Step workers ask) σ) {n m : Nat} (hnm : n ≤ m) (hc : (σ n).chores[i]? = some c) :
    ∃ c', (σ m).chores[i]? = some c' ∧ c'.last = c.last ∧ c'.timeout = c.timeout ∧ c.polls ≤ c'.polls := by
  induction hnm with
  | refl => exact ⟨c, hc, rfl, rfl, Nat.le_refl _⟩
  | @step m _ ih =>
    obtain ⟨c', h1, h2, h3, h4⟩ := ih
    obtain ⟨c'', h5, h6⟩ := runs_chores h h1
    refine ⟨c'', h5, ?_⟩
    cases h6 <;> exact ⟨h2, h3, by first | exact h4 | exact Nat.le_succ_of_le h4⟩

/-- A listener that is polled for ever polls streams without end. -/
theorem runs_past (h : Follows (Step workers ask) σ)
    (hf : ∀ i, Fair (Step workers ask) (ListenerPolls i) σ) (hc : (σ n).chores[i]? = some c)
    (occ : ∀ k, n ≤ k → ∃ d, (σ k).chores[i]? = some d ∧ d.polling = true) :
    ∀ b, ∃ k d, n ≤ k ∧ (σ k).chores[i]? = some d ∧ b ≤ d.polls := by
  have more : ∀ k, n ≤ k → ∃ m, k ≤ m ∧ ListenerPolls i (σ m) (σ (m + 1)) := by
    intro k hk
    refine hf i k fun m hm => ?_
    obtain ⟨d, h1, h2⟩ := occ m (Nat.le_trans hk hm)
    have hl : ∀ {e : Chores}, ((σ m).put i e).chores[i]? = some e := fun {e} => by rw [put_get h1, if_pos rfl]
    cases hs : ask i d.polls with
    | pending => exact ⟨_, .waits h1 h2 hs, d, _, h1, hl, rfl⟩
    | ready o =>
      cases o with
      | none => exact ⟨_, .ends h1 h2 hs, d, _, h1, hl, rfl⟩
      | some st => exact ⟨_, .hears h1 h2 hs, d, _, h1, hl, rfl⟩
  intro b
  induction b with
  | zero => exact ⟨n, c, Nat.le_refl _, hc, Nat.zero_le _⟩
  | succ b ih =>
    obtain ⟨k, d, h1, h2, h3⟩ := ih
    obtain ⟨m, h4, d1, d2, h5, h6, h7⟩ := more k h1
    obtain ⟨d', h8, -, -, h9⟩ := runs_stays h h4 h2
    cases Option.some.inj (h8.symm.trans h5)
    exact ⟨m + 1, d2, by omega, h6, by omega⟩

/-- While the listener is told that the connection is closed, it logs that with every poll of a stream. -/
theorem runs_floods (h : Follows (Step workers ask) σ) (hc : (σ n).chores[i]? = some c) (hp : c.polling = true)
    (hq : ∀ q, c.polls ≤ q → ask i q = .ready (some .closed)) : ∀ k, n ≤ k → ∃ d, (σ k).chores[i]? = some d ∧
      d.polling = true ∧ c.polls ≤ d.polls ∧
      d.heard = c.heard ++ List.replicate (d.polls - c.polls) (.logError "connection was closed") := by
  intro k hk
  induction hk with
  | refl => exact ⟨c, hc, hp, Nat.le_refl _, by simp⟩
  | @step m _ ih =>
    obtain ⟨d, h1, h2, h3, h4⟩ := ih
    obtain ⟨e, h5, h6⟩ := runs_chores h h1
    have hs := hq d.polls h3
    refine ⟨e, h5, ?_⟩
    cases h6 with
    | hears _ said =>
      rw [hs] at said
      cases said
      refine ⟨h2, Nat.le_succ_of_le h3, ?_⟩
      show d.heard ++ _ = _
      rw [h4, List.append_assoc, show d.polls + 1 - c.polls = (d.polls - c.polls) + 1 by omega, List.replicate_succ']
      rfl
    | waits _ said => rw [hs] at said; cases said
    | ends _ said => rw [hs] at said; cases said
    | listens => exact ⟨rfl, h3, h4⟩
    | _ => exact ⟨h2, h3, h4⟩

/-- A poll of the listener ends if and only if some stream has nothing for it. -/
theorem runs_gives_way (h : Follows (Step workers ask) σ)
    (hf : ∀ i, Fair (Step workers ask) (ListenerPolls i) σ) (hc : (σ n).chores[i]? = some c) (hp : c.polling = true) :
    (∃ k, n ≤ k ∧ ¬ Occupied i (σ k)) ↔ ∃ q, c.polls ≤ q ∧ ∀ st, ask i q ≠ .ready (some st) := by
  refine ⟨?_, ?_⟩
  · rintro ⟨k, hk, hno⟩
    apply Classical.byContradiction
    intro hall
    have hall' : ∀ q, c.polls ≤ q → ∃ st, ask i q = .ready (some st) := fun q hq => by
      apply Classical.byContradiction
      intro hx
      exact hall ⟨q, hq, fun st hst => hx ⟨st, hst⟩⟩
    apply hno
    suffices ∃ c', (σ k).chores[i]? = some c' ∧ c'.polling = true ∧ c.polls ≤ c'.polls from
      this.imp fun _ h => ⟨h.1, h.2.1⟩
    clear hno
    induction hk with
    | refl => exact ⟨c, hc, hp, Nat.le_refl _⟩
    | @step m _ ih =>
      obtain ⟨d, h1, h2, h3⟩ := ih
      obtain ⟨e, h4, h5⟩ := runs_chores h h1
      obtain ⟨st, hst⟩ := hall' d.polls h3
      refine ⟨e, h4, ?_⟩
      cases h5 <;> first
        | exact ⟨h2, h3⟩
        | exact ⟨rfl, h3⟩
        | exact ⟨h2, Nat.le_succ_of_le h3⟩
        | (rename_i said; rw [said] at hst; cases hst)
  · rintro ⟨q, hq, hno⟩
    apply Classical.byContradiction
    intro hall
    have occ : ∀ k, n ≤ k → ∃ d, (σ k).chores[i]? = some d ∧ d.polling = true := fun k hk =>
      Classical.byContradiction fun hx => hall ⟨k, hk, hx⟩
    -- the listener polls again and again, and so comes past `q`
    have past := runs_past h hf hc occ
    -- but it cannot while it is polled
    have le : ∀ k, n ≤ k → ∃ d, (σ k).chores[i]? = some d ∧ d.polls ≤ q := by
      intro k hk
      induction hk with
      | refl => exact ⟨c, hc, hq⟩
      | @step m hm ih =>
        obtain ⟨d, h1, h2⟩ := ih
        obtain ⟨e, h3, h4⟩ := runs_chores h h1
        obtain ⟨e', h5, h6⟩ := occ (m + 1) (Nat.le_succ_of_le hm)
        cases Option.some.inj (h3.symm.trans h5)
        refine ⟨e, h3, ?_⟩
        cases h4 with
        | hears _ said =>
          rcases Nat.lt_or_eq_of_le h2 with h7 | h7
          · exact h7
          · exact absurd said (h7 ▸ hno _)
        | waits _ said => cases h6
        | ends _ said => cases h6
        | _ => exact h2
    obtain ⟨k, d, h1, h2, h3⟩ := past (q + 1)
    obtain ⟨d', h4, h5⟩ := le k h1
    cases Option.some.inj (h2.symm.trans h4)
    omega

/-- If each of finitely many things is so from some point on, then all are. -/
theorem all_from {P : Nat → Nat → Prop} {n b : Nat}
    (hP : ∀ i, i < b → ∃ k, n ≤ k ∧ ∀ m, k ≤ m → P i m) : ∃ k, n ≤ k ∧ ∀ i, i < b → ∀ m, k ≤ m → P i m := by
  induction b with
  | zero => exact ⟨n, Nat.le_refl _, fun i hi => absurd hi (Nat.not_lt_zero _)⟩
  | succ b ih =>
    obtain ⟨k, h1, h2⟩ := ih fun i hi => hP i (by omega)
    obtain ⟨k', h3, h4⟩ := hP b (by omega)
    refine ⟨max k k', by omega, fun i hi m hm => ?_⟩
    rcases Nat.lt_succ_iff_lt_or_eq.mp hi with h5 | h5
    · exact h2 i h5 m (by omega)
    · subst h5; exact h4 m (by omega)

theorem first_not {P : Nat → Prop} {n k : Nat} (hn : P n) (hk : n ≤ k) (h : ¬ P k) :
    ∃ m, n ≤ m ∧ P m ∧ ¬ P (m + 1) := by
  apply Classical.byContradiction
  intro hx
  apply h
  clear h
  induction hk with
  | refl => exact hn
  | @step m hm ih => exact Classical.byContradiction fun h => hx ⟨m, hm, ih, h⟩

/-- If streams have nothing for the listeners again and again, then there is a free worker thread again and again. -/
theorem runs_free (h : Runs workers ask σ) (hw : 0 < workers) (hr : ∀ i, Relents (ask i)) (n : Nat) :
    ∃ k, n ≤ k ∧ (σ k).busy < workers := by
  by_cases hb : (σ n).busy < workers
  · exact ⟨n, Nat.le_refl _, hb⟩
  · have hpos : 0 < (σ n).busy := by omega
    obtain ⟨c, hm, hp⟩ := List.countP_pos_iff.mp hpos
    obtain ⟨i, hc⟩ := List.mem_iff_getElem?.mp hm
    obtain ⟨q, hq, hno⟩ := hr i c.polls
    obtain ⟨k, hk, hk'⟩ := (runs_gives_way h.follows h.polls hc hp).mpr ⟨q, hq, hno⟩
    obtain ⟨m, h1, ⟨d, h2, h3⟩, h4⟩ := first_not (P := fun k => Occupied i (σ k)) ⟨c, hc, hp⟩ hk hk'
    refine ⟨m + 1, by omega, ?_⟩
    rcases h.follows m with hs | he
    · obtain ⟨e, h5, -⟩ := step_chores hs h2
      refine step_frees hs (runs_busy_le h m) h2 h3 h5 ?_
      cases h6 : e.polling
      · rfl
      · exact absurd ⟨e, h5, h6⟩ h4
    · exact absurd ⟨d, he ▸ h2, h3⟩ h4

theorem runs_done (h : Runs workers ask σ) (n : Nat) :
    ∀ c, (σ n).chores[i]? = some c → c.dog = .done → Act.close ∈ c.barked := by
  intro c hc hd
  obtain ⟨t, ht⟩ := runs_reached h n
  rw [(reached_inv ht c hc).barked, if_pos hd]
  simp [handleConnectionError]

theorem runs_barks (h : Runs workers ask σ) (hw : 0 < workers) (hr : ∀ i, Relents (ask i))
    (hc : (σ n).chores[i]? = some c) : ∃ k, n ≤ k ∧ Barked i (σ k) := by
  apply Classical.byContradiction
  intro hno
  have alive : ∀ k d, n ≤ k → (σ k).chores[i]? = some d → d.dog ≠ .done := fun k d hk hd he =>
    hno ⟨k, hk, d, hd, runs_done h k d hd he⟩
  obtain ⟨m, hm⟩ := h.time (c.last + c.timeout + 1)
  -- from `a` on the watchdog is late
  have late : ∀ k, max n m ≤ k → c.last + c.timeout < (σ k).clock := fun k hk => by
    have := runs_clock_mono h (show m ≤ k by omega); omega
  -- it sleeps at some time
  have sleeps : ∃ b d since, max n m ≤ b ∧ (σ b).chores[i]? = some d ∧ d.dog = .sleeping since := by
    apply Classical.byContradiction
    intro hx
    have fresh : ∀ k, max n m ≤ k → ∃ d, (σ k).chores[i]? = some d ∧ d.dog = .fresh := fun k hk => by
      obtain ⟨d, h1, -⟩ := runs_stays h.follows (show n ≤ k by omega) hc
      refine ⟨d, h1, ?_⟩
      cases hd : d.dog with
      | fresh => rfl
      | done => exact absurd hd (alive k d (by omega) h1)
      | sleeping s => exact absurd ⟨k, d, s, hk, h1, hd⟩ hx
    obtain ⟨k, hk, d, d', h1, h2, h3⟩ := h.dogs i (max n m) fun p hp => by
      obtain ⟨k, hk, hf⟩ := runs_free h hw hr p
      obtain ⟨d, h1, h2⟩ := fresh k (by omega)
      refine ⟨k, hk, _, .sleeps h1 h2 hf, d, _, h1, by rw [put_get h1, if_pos rfl], ?_⟩
      rw [h2]; simp
    obtain ⟨e, h4, h5⟩ := fresh k hk
    obtain ⟨e', h6, h7⟩ := fresh (k + 1) (by omega)
    cases Option.some.inj (h1.symm.trans h4)
    cases Option.some.inj (h2.symm.trans h6)
    exact h3 (h7.trans h5.symm)
  obtain ⟨b, d, since, hb, hd, hsl⟩ := sleeps
  -- and then for ever
  have same : ∀ k, b ≤ k → ∃ e, (σ k).chores[i]? = some e ∧ e.dog = .sleeping since ∧ e.last = c.last ∧
      e.timeout = c.timeout := by
    intro k hk
    induction hk with
    | refl =>
      obtain ⟨d', h1, h2, h3, -⟩ := runs_stays h.follows (show n ≤ b by omega) hc
      cases Option.some.inj (h1.symm.trans hd)
      exact ⟨d, hd, hsl, h2, h3⟩
    | @step k hk ih =>
      have hk : b ≤ k := hk
      obtain ⟨e, h1, h2, h3, h4⟩ := ih
      obtain ⟨e', h5, h6⟩ := runs_chores h.follows h1
      refine ⟨e', h5, ?_⟩
      have hl := late k (by omega)
      cases h6 with
      | sleeps hf => rw [h2] at hf; cases hf
      | early _ _ hs => rw [h3, h4] at hs; omega
      | barks => exact absurd rfl (alive (k + 1) _ (by omega) h5)
      | _ => exact ⟨h2, h3, h4⟩
  obtain ⟨m', hm'⟩ := h.time (since + c.timeout)
  obtain ⟨k, hk, d1, d2, h1, h2, h3⟩ := h.dogs i (max b m') fun p hp => by
    obtain ⟨k, hk, hf⟩ := runs_free h hw hr p
    obtain ⟨e, h1, h2, h3, h4⟩ := same k (by omega)
    have hl := late k (by omega)
    have hcl := runs_clock_mono h (show m' ≤ k by omega)
    refine ⟨k, hk, _, .barks h1 h2 (by rw [h4]; omega) (by rw [h3, h4]; omega) hf, e, _, h1,
      by rw [put_get h1, if_pos rfl], ?_⟩
    rw [h2]; simp
  obtain ⟨e, h4, h5, -⟩ := same k (by omega)
  obtain ⟨e', h6, h7, -⟩ := same (k + 1) (by omega)
  cases Option.some.inj (h1.symm.trans h4)
  cases Option.some.inj (h2.symm.trans h6)
  exact h3 (h7.trans h5.symm)

theorem runs_occupied (h : Runs workers ask σ) (hp : Published (ask i)) (ho : Occupied i (σ n)) :
    ∀ k, n ≤ k → Occupied i (σ k) := by
  intro k hk
  induction hk with
  | refl => exact ho
  | @step m _ ih =>
    rcases h.follows m with hs | he
    · obtain ⟨t, ht⟩ := runs_reached h m
      exact step_occupied hs (reached_said hp ht) ih
    · rw [he]; exact ih

/-- Over documented connections all threads are occupied in the end, or all listeners polled. -/
theorem runs_inevitable (h : Runs workers ask σ) (hp : ∀ i, Published (ask i))
    (hl : ∀ i, Fair (Step workers ask) (ListenerBegins i) σ) (n : Nat) :
    ∃ k, n ≤ k ∧ min workers (σ n).chores.length ≤ (σ k).busy := by
  apply Classical.byContradiction
  intro hno
  have free : ∀ k, n ≤ k → (σ k).busy < workers := fun k hk => by
    apply Classical.byContradiction
    intro hx
    exact hno ⟨k, hk, by omega⟩
  have each : ∀ i, i < (σ n).chores.length → ∃ k, n ≤ k ∧ ∀ m, k ≤ m → Occupied i (σ m) := by
    intro i hi
    have hc := List.getElem?_eq_getElem hi
    suffices ∃ k, n ≤ k ∧ Occupied i (σ k) by
      obtain ⟨k, hk, ho⟩ := this
      exact ⟨k, hk, runs_occupied h (hp i) ho⟩
    apply Classical.byContradiction
    intro hx
    obtain ⟨k, hk, -, ho⟩ := hl i n fun k hk => by
      obtain ⟨d, h1, -⟩ := runs_stays h.follows hk hc
      obtain ⟨t, ht⟩ := runs_reached h k
      have hd : d.polling = false := by
        cases hdp : d.polling with
        | false => rfl
        | true => exact absurd ⟨k, hk, d, h1, hdp⟩ hx
      refine ⟨_, .listens h1 hd (reached_on (hp i) ht d h1) (free k hk), fun ho => hx ⟨k, hk, ho⟩,
        { d with polling := true }, ?_, rfl⟩
      rw [put_get h1, if_pos rfl]
    exact hx ⟨k + 1, by omega, ho⟩
  obtain ⟨k, hk, hall⟩ := all_from each
  have : (σ n).chores.length ≤ (σ k).chores.countP (fun c : Chores => c.polling) :=
    le_countP fun i hi => hall i hi k (Nat.le_refl _)
  exact hno ⟨k, hk, Nat.le_trans (Nat.min_le_right _ _) this⟩

end

end Binate
