import Verif.Lemmas.Storms
import Verif.Spec.StormsLive
import Verif.Props.StormLive

/-! # Executions of any number of sockets that go on for ever, with everything that can go wrong -/

namespace Binate

open Spec RSocketMachine

variable {dbg : Bool} {trs : Nat → WildTransport} {τ : Nat → Storms}

theorem storms_reachable (h : StormsForever dbg trs τ) (n : Nat) : Storms.Reachable dbg trs (τ n) := by
  induction n with
  | zero =>
    obtain ⟨now, h0⟩ := h.start
    rw [h0]
    exact .init now
  | succ n ih =>
    rcases h.follows n with hs | hs
    · exact ih.step hs
    · rw [hs]
      exact ih

theorem storms_stays (h : StormsForever dbg trs τ) {n : Nat} {g : Handle} (hg : g ∈ (τ n).world.made)
    (k : Nat) : g ∈ (τ (n + k)).world.made := by
  induction k with
  | zero => exact hg
  | succ k ih =>
    rcases h.follows (n + k) with hs | hs
    · have inv := stormsInv (storms_reachable h (n + k))
      exact (storms_made (storms_acts inv.world inv.calm hs)).2 g ih
    · show g ∈ (τ (n + k + 1)).world.made
      rw [hs]
      exact ih

/-- When a socket was made. -/
theorem storms_made_once (h : StormsForever dbg trs τ) {n : Nat} {g : Handle}
    (hg : g ∈ (τ n).world.made) :
    ∃ m spawned down, (∀ a, g ∈ (τ a).world.made → m ≤ a) ∧ g ∈ (τ m).world.made ∧ stormOf (τ m) g =
      { Storm.new g.role g.keepaliveTimeout g.keepaliveLastReceived spawned with down := down } := by
  induction n with
  | zero =>
    obtain ⟨now, h0⟩ := h.start
    rw [h0] at hg
    cases hg
  | succ n ih =>
    rcases h.follows n with hs | hs
    · have inv := stormsInv (storms_reachable h n)
      rcases storms_acts inv.world inv.calm hs with ⟨now, hn, e⟩ | ⟨r, e⟩ | ⟨k, -, -, -, hm, -⟩ |
        ⟨role, timeout, created, r, -, hm, -, hnew, -⟩
      · rw [e] at hg
        exact ih hg
      · rw [e] at hg
        exact ih hg
      · exact ih (hm ▸ hg)
      · rcases List.mem_append.1 (hm ▸ hg) with hg' | hg'
        · exact ih hg'
        · have hg' := List.mem_singleton.1 hg'
          subst hg'
          refine ⟨n + 1, (τ n).clock, (τ n).down r, fun a ha => Nat.lt_of_not_le fun hle => ?_, hg, hnew⟩
          have := storms_stays h ha (n - a)
          rw [Nat.add_sub_cancel' hle] at this
          have := (inv.world.world.lt _ this).1
          exact absurd this (Nat.lt_irrefl _)
    · exact ih (hs ▸ hg)

/-- One machine, from before anything is known of it. -/
def fromNew (h : Storm) (σ : Nat → Storm) : Nat → Storm
  | 0 => h
  | k + 1 => σ k

/-- From when it was made, what is seen of a socket is an execution of one machine alone. -/
theorem storms_forever (h : StormsForever dbg trs τ) {n : Nat} {g : Handle} (hg : g ∈ (τ n).world.made) :
    ∃ m spawned, (∀ a, g ∈ (τ a).world.made → m ≤ a) ∧ (∀ k, g ∈ (τ (m + k)).world.made) ∧
      StormForever dbg (trs g.connection) g.role g.keepaliveTimeout g.keepaliveLastReceived spawned
        (fromNew (Storm.new g.role g.keepaliveTimeout g.keepaliveLastReceived spawned)
          fun k => stormOf (τ (m + k)) g) := by
  obtain ⟨m, sp, down, h1, h2, h3⟩ := storms_made_once h hg
  refine ⟨m, sp, h1, storms_stays h h2, rfl, fun k => ?_⟩
  cases k with
  | zero =>
    show Storm.Step _ _ _ (stormOf (τ m) g) ∨ stormOf (τ m) g = _
    rw [h3]
    cases down
    · exact .inr rfl
    · exact .inl (.shutdown _)
  | succ k =>
    show Storm.Step _ _ (stormOf (τ (m + k)) g) (stormOf (τ (m + k + 1)) g) ∨
      stormOf (τ (m + k + 1)) g = stormOf (τ (m + k)) g
    rcases h.follows (m + k) with hs | hs
    · have inv := stormsInv (storms_reachable h (m + k))
      exact storms_one (storms_acts inv.world inv.calm hs) (storms_stays h h2 k)
    · rw [hs]
      exact .inr rfl

theorem fromNew_at {h : Storm} {σ : Nat → Storm} {k : Nat} (hk : 1 ≤ k) : fromNew h σ k = σ (k - 1) := by
  cases k with
  | zero => cases hk
  | succ k => rfl

/-- What is so of one machine from some time on is so of the socket. -/
theorem fromNew_all {h : Storm} {m : Nat} {g : Handle} {P : Storm → Prop}
    (hp : ∃ n, ∀ k, n ≤ k → P (fromNew h (fun k => stormOf (τ (m + k)) g) k)) :
    ∃ n, ∀ k, n ≤ k → P (stormOf (τ k) g) := by
  obtain ⟨n, hn⟩ := hp
  refine ⟨m + n, fun k hk => ?_⟩
  have := hn (k - m + 1) (by omega)
  rw [fromNew_at (by omega)] at this
  have e : m + (k - m + 1 - 1) = k := by omega
  have this : P (stormOf (τ (m + (k - m + 1 - 1))) g) := this
  rw [e] at this
  exact this

theorem fromNew_some {h : Storm} {m : Nat} {g : Handle} {P : Storm → Prop} {n : Nat} (hm : m ≤ n)
    (hp : P (stormOf (τ n) g)) : P (fromNew h (fun k => stormOf (τ (m + k)) g) (n - m + 1)) := by
  show P (stormOf (τ (m + (n - m))) g)
  rw [Nat.add_sub_cancel' hm]
  exact hp

/-- Fairness to a socket is fairness to the machine that is seen of it. -/
theorem fair_one (h : StormsForever dbg trs τ) {g : Handle} {act : Storm → Storm → Prop}
    (hf : FairTo dbg trs τ g act) {m : Nat} (hm : ∀ k, g ∈ (τ (m + k)).world.made) (s : Storm) :
    Fair (Storm.Step dbg (trs g.connection)) act (fromNew s fun k => stormOf (τ (m + k)) g) := by
  intro n hn
  have able : ∀ k, n ≤ k → ∃ t', Storms.Step dbg trs (τ (m + k)) t' ∧
      act (stormOf (τ (m + k)) g) (stormOf t' g) := by
    intro k hk
    obtain ⟨s', hs, hd⟩ := hn (k + 1) (by omega)
    obtain ⟨t', ht, rfl⟩ := storms_can (stormsInv (storms_reachable h (m + k))).world (hm k) hs
    exact ⟨t', ht, hd⟩
  obtain ⟨k, h1, h2⟩ := hf (m + n) fun k hk => by
    have := able (k - m) (by omega)
    rwa [Nat.add_sub_cancel' (by omega)] at this
  refine ⟨k - m + 1, by omega, ?_⟩
  show act (stormOf (τ (m + (k - m))) g) (stormOf (τ (m + (k - m) + 1)) g)
  rw [Nat.add_sub_cancel' (by omega)]
  exact h2

theorem storms_clock (h : StormsForever dbg trs τ) (n k : Nat) : (τ n).clock ≤ (τ (n + k)).clock := by
  induction k with
  | zero => exact Nat.le_refl _
  | succ k ih =>
    refine Nat.le_trans ih ?_
    show (τ (n + k)).clock ≤ (τ (n + k + 1)).clock
    rcases h.follows (n + k) with hs | hs
    · have inv := stormsInv (storms_reachable h (n + k))
      exact (storms_made (storms_acts inv.world inv.calm hs)).1
    · rw [hs]

theorem time_one (h : StormsForever dbg trs τ) (ht : StormsEveryTime τ) (m : Nat) (g : Handle) (s : Storm) :
    StormTimeGoesOn (fromNew s fun k => stormOf (τ (m + k)) g) := by
  intro t
  obtain ⟨n, hn⟩ := ht t
  refine ⟨n + 1, Nat.le_trans hn ?_⟩
  show (τ n).clock ≤ (τ (m + n)).clock
  rw [Nat.add_comm m n]
  exact storms_clock h n m

/-! ## Executions that come to rest -/

/-- An execution in which `P` holds throughout and `Q` at some time and which ends up in `t`. -/
def ComesTo (dbg : Bool) (trs : Nat → WildTransport) (P Q : Storms → Prop) (t : Storms) : Prop :=
  ∃ (τ : Nat → Storms) (N : Nat), StormsForever dbg trs τ ∧ (∀ n, N ≤ n → τ n = t) ∧ (∀ n, P (τ n)) ∧
    ∃ n, Q (τ n)

theorem comesTo_init {P Q : Storms → Prop} {now : Nat} (hp : P (Storms.init now))
    (hq : Q (Storms.init now)) : ComesTo dbg trs P Q (Storms.init now) :=
  ⟨fun _ => Storms.init now, 0, ⟨⟨now, rfl⟩, fun _ => .inr rfl⟩, fun _ _ => rfl, fun _ => hp, 0, hq⟩

theorem comesTo_step {P Q Q' : Storms → Prop} {t t' : Storms} (h : ComesTo dbg trs P Q t)
    (hs : Storms.Step dbg trs t t') (hp : P t') (hq : (∀ s, Q s → Q' s) ∨ Q' t') :
    ComesTo dbg trs P Q' t' := by
  obtain ⟨τ, N, h1, h2, h3, n, h4⟩ := h
  let τ' : Nat → Storms := fun k => if k ≤ N + n then τ k else t'
  have lo : ∀ k, k ≤ N + n → τ' k = τ k := fun k hk => if_pos hk
  have hi : ∀ k, N + n + 1 ≤ k → τ' k = t' := fun k hk => if_neg (by omega)
  refine ⟨τ', N + n + 1, ⟨?_, fun k => ?_⟩, hi, fun k => ?_, ?_⟩
  · obtain ⟨now, h0⟩ := h1.start
    exact ⟨now, (lo 0 (Nat.zero_le _)).trans h0⟩
  · rcases Nat.lt_trichotomy k (N + n) with hk | hk | hk
    · rw [lo k (by omega), lo (k + 1) (by omega)]
      exact h1.follows k
    · rw [lo k (by omega), hi (k + 1) (by omega), h2 k (by omega)]
      exact .inl hs
    · rw [hi k (by omega), hi (k + 1) (by omega)]
      exact .inr rfl
  · by_cases hk : k ≤ N + n
    · rw [lo k hk]
      exact h3 k
    · rw [hi k (by omega)]
      exact hp
  · rcases hq with hq | hq
    · exact ⟨n, by rw [lo n (by omega)]; exact hq _ h4⟩
    · exact ⟨N + n + 1, by rw [hi _ (Nat.le_refl _)]; exact hq⟩

/-- An execution that has come to rest goes on with time passing. -/
theorem comesTo_ticks {P Q : Storms → Prop} {t : Storms} (h : ComesTo dbg trs P Q t)
    (hp : ∀ now, P { t with clock := now }) :
    ∃ (τ : Nat → Storms) (N : Nat), StormsForever dbg trs τ ∧ StormsEveryTime τ ∧
      (∀ n, N ≤ n → ∃ now, t.clock ≤ now ∧ τ n = { t with clock := now }) ∧ (∀ n, P (τ n)) ∧
      ∃ n, Q (τ n) := by
  obtain ⟨τ, N, h1, h2, h3, n, h4⟩ := h
  let τ' : Nat → Storms := fun k =>
    if k ≤ N + n then τ k else { t with clock := t.clock + (k - (N + n)) }
  have lo : ∀ k, k ≤ N + n → τ' k = τ k := fun k hk => if_pos hk
  have hi : ∀ k, N + n + 1 ≤ k → τ' k = { t with clock := t.clock + (k - (N + n)) } :=
    fun k hk => if_neg (by omega)
  refine ⟨τ', N + n + 1, ⟨?_, fun k => ?_⟩, fun a => ⟨N + n + 1 + a, ?_⟩,
    fun k hk => ⟨_, ?_, hi k hk⟩, fun k => ?_, n, ?_⟩
  · obtain ⟨now, h0⟩ := h1.start
    exact ⟨now, (lo 0 (Nat.zero_le _)).trans h0⟩
  · rcases Nat.lt_trichotomy k (N + n) with hk | hk | hk
    · rw [lo k (by omega), lo (k + 1) (by omega)]
      exact h1.follows k
    · rw [lo k (by omega), hi (k + 1) (by omega), h2 k (by omega)]
      exact .inl (.time t _ (by omega))
    · rw [hi k (by omega), hi (k + 1) (by omega)]
      refine .inl (.time _ _ ?_)
      show t.clock + (k - (N + n)) ≤ t.clock + (k + 1 - (N + n))
      omega
  · rw [hi _ (by omega)]
    show a ≤ t.clock + (N + n + 1 + a - (N + n))
    omega
  · omega
  · by_cases hk : k ≤ N + n
    · rw [lo k hk]
      exact h3 k
    · rw [hi k (by omega)]
      exact hp _
  · rw [lo n (by omega)]
    exact h4

/-- What can no longer happen need not. -/
theorem fairTo_rest {N : Nat} {g : Handle} {act : Storm → Storm → Prop} (h : StormsForever dbg trs τ)
    (hg : ∀ n, N ≤ n → g ∈ (τ n).world.made) (hno : ∀ n s', N ≤ n →
      Storm.Step dbg (trs g.connection) (stormOf (τ n) g) s' ∨ s' = stormOf (τ n) g →
      ¬ act (stormOf (τ n) g) s') : FairTo dbg trs τ g act := by
  intro n hn
  obtain ⟨t', ht, ha⟩ := hn (n + N) (by omega)
  have inv := stormsInv (storms_reachable h (n + N))
  exact absurd ha (hno _ _ (by omega)
    (storms_one (storms_acts inv.world inv.calm ht) (hg (n + N) (by omega))))

/-- A call that has ended does nothing. -/
theorem storm_ended_still {dbg : Bool} {tr : WildTransport} {h h' : Storm} (hs : Storm.Step dbg tr h h')
    {i : Nat} {c : Call} (hi : h.sys.conc.calls[i]? = some c) (hr : running c = false) :
    ¬ WildMoves h.sys.conc h'.sys.conc i := by
  have same : ∀ w : WildConc, w.calls = h.sys.conc.calls → ¬ WildMoves h.sys.conc w i := by
    rintro w e ⟨d, hd, hne⟩
    rw [e] at hne
    exact hne hd
  cases hs with
  | run s hs _ =>
    cases hs with
    | request w new hh hs hw => exact wild_ended_still hs hi hr
    | _ => exact same _ rfl
  | _ => exact same _ rfl

end Binate
