import Verif.Lemmas.Sockets
import Verif.Spec.SocketsLive
import Verif.Props.Live

/-! # Executions of any number of sockets that go on for ever -/

namespace Binate

open Spec RSocketMachine

variable {dbg : Bool} {trs : Nat → Transport} {τ : Nat → Sockets}

theorem always_reachable (h : AllForever dbg trs τ) (n : Nat) : SocketsReachable dbg trs (τ n) := by
  induction n with
  | zero =>
    obtain ⟨now, h0⟩ := h.start
    rw [h0]
    exact .init now
  | succ n ih =>
    rcases h.follows n with hs | hs
    · exact ih.step hs
    · rw [hs]
      exact ih

theorem made_stays (h : AllForever dbg trs τ) {n : Nat} {g : Handle} (hg : g ∈ (τ n).world.made) :
    g ∈ (τ (n + 1)).world.made := by
  rcases h.follows n with hs | hs
  · rcases (sockets_world (socketsInv (always_reachable h n)).world hs).2 with
      ⟨hm, -⟩ | ⟨role, timeout, created, -, hm, -⟩
    · rw [hm]
      exact hg
    · rw [hm]
      exact List.mem_append_left _ hg
  · rw [hs]
    exact hg

theorem made_stays_on (h : AllForever dbg trs τ) {n : Nat} {g : Handle} (hg : g ∈ (τ n).world.made)
    (k : Nat) : g ∈ (τ (n + k)).world.made := by
  induction k with
  | zero => exact hg
  | succ k ih => exact made_stays h ih

/-- When a socket was made. -/
theorem made_once (h : AllForever dbg trs τ) {n : Nat} {g : Handle} (hg : g ∈ (τ n).world.made) :
    ∃ m spawned, (∀ a, g ∈ (τ a).world.made → m ≤ a) ∧ g ∈ (τ m).world.made ∧ systemOf (τ m) g =
      System.new g.role g.keepaliveTimeout g.keepaliveLastReceived spawned := by
  induction n with
  | zero =>
    obtain ⟨now, h0⟩ := h.start
    rw [h0] at hg
    cases hg
  | succ n ih =>
    rcases h.follows n with hs | hs
    · rcases (sockets_world (socketsInv (always_reachable h n)).world hs).2 with
        ⟨hm, -⟩ | ⟨role, timeout, created, -, hm, hnew, -⟩
      · exact ih (hm ▸ hg)
      · rcases List.mem_append.1 (hm ▸ hg) with hg' | hg'
        · exact ih hg'
        · have hg' := List.mem_singleton.1 hg'
          subst hg'
          refine ⟨n + 1, (τ n).clock, fun a ha => Nat.lt_of_not_le fun hle => ?_, hg, hnew⟩
          have := made_stays_on h ha (n - a)
          rw [Nat.add_sub_cancel' hle] at this
          have := ((socketsInv (always_reachable h n)).world.lt _ this).1
          exact absurd this (Nat.lt_irrefl _)
    · exact ih (hs ▸ hg)

/-- From when it was made, what is seen of a socket is an execution of one machine alone. -/
theorem one_forever (h : AllForever dbg trs τ) {n : Nat} {g : Handle} (hg : g ∈ (τ n).world.made) :
    ∃ m spawned, (∀ a, g ∈ (τ a).world.made → m ≤ a) ∧ (∀ k, g ∈ (τ (m + k)).world.made) ∧
      Forever dbg (trs g.connection) g.role g.keepaliveTimeout g.keepaliveLastReceived spawned
        fun k => systemOf (τ (m + k)) g := by
  obtain ⟨m, sp, h1, h2, h3⟩ := made_once h hg
  refine ⟨m, sp, h1, made_stays_on h h2, h3, fun k => ?_⟩
  have inv := socketsInv (always_reachable h (m + k))
  have hk := made_stays_on h h2 k
  rcases h.follows (m + k) with hs | hs
  · rcases sockets_acts inv.world inv.quiet hs with ⟨now, hn, e⟩ | ⟨g', hg', h4, h5⟩ | h4
    · refine .inl ?_
      show System.Step _ _ (systemOf (τ (m + k)) g) (systemOf (τ (m + k + 1)) g)
      rw [e]
      exact .time _ now hn
    · by_cases e : g = g'
      · subst e
        exact .inl h4
      · exact .inr (h5 g hk e)
    · exact .inr (h4 g hk)
  · refine .inr ?_
    show systemOf (τ (m + k + 1)) g = systemOf (τ (m + k)) g
    rw [hs]

theorem shift_all {P : Nat → Prop} {m n : Nat} (h : ∀ k, n ≤ k → P (m + k)) :
    ∀ k, m + n ≤ k → P k := by
  intro k hk
  have := h (k - m) (by omega)
  rwa [Nat.add_sub_cancel' (by omega)] at this

theorem shift_time (ht : EveryTime τ) (m : Nat) (g : Handle) (h : AllForever dbg trs τ) :
    TimeGoesOn fun k => systemOf (τ (m + k)) g := by
  have mono : ∀ n k, (τ n).clock ≤ (τ (n + k)).clock := by
    intro n k
    induction k with
    | zero => exact Nat.le_refl _
    | succ k ih =>
      refine Nat.le_trans ih ?_
      show (τ (n + k)).clock ≤ (τ (n + k + 1)).clock
      rcases h.follows (n + k) with hs | hs
      · generalize τ (n + k + 1) = t' at hs
        cases hs with
        | time now hn => exact hn
        | _ => exact Nat.le_refl _
      · rw [hs]
  intro t
  obtain ⟨n, hn⟩ := ht t
  refine ⟨n, Nat.le_trans hn ?_⟩
  show (τ n).clock ≤ (τ (m + n)).clock
  rw [Nat.add_comm m n]
  exact mono n m

theorem shift_dog (h : AllForever dbg trs τ) {g : Handle} (hf : ItsDogScheduled dbg trs τ g) {m : Nat}
    (hm : ∀ k, g ∈ (τ (m + k)).world.made) : DogGoesOn fun k => systemOf (τ (m + k)) g := by
  intro n hn
  obtain ⟨k, h1, h2⟩ := hf (m + n) (shift_all fun k hk => by
    obtain ⟨s, hs, hd⟩ := dog_enabled (dbg := dbg) (tr := trs g.connection) (hn k hk)
    obtain ⟨t', ht, rfl⟩ := sockets_can (socketsInv (always_reachable h (m + k))).world (hm k) hs
    exact ⟨t', ht, hd⟩)
  refine ⟨k - m, by omega, ?_⟩
  show DogMoves (systemOf (τ (m + (k - m))) g) (systemOf (τ (m + (k - m) + 1)) g)
  rw [Nat.add_sub_cancel' (by omega)]
  exact h2

theorem shift_call (h : AllForever dbg trs τ) {g : Handle} {i : Nat}
    (hf : ItsCallScheduled dbg trs τ g i) {m : Nat} (hm : ∀ k, g ∈ (τ (m + k)).world.made) :
    GoesOn (fun k => (systemOf (τ (m + k)) g).conc) i := by
  intro n hn
  obtain ⟨k, h1, h2⟩ := hf (m + n) (shift_all fun k hk => by
    have inv := socketsInv (always_reachable h (m + k))
    obtain ⟨s, hs, hd⟩ := request_enabled (inv.system g (hm k)) (hn k hk)
    obtain ⟨t', ht, rfl⟩ := sockets_can inv.world (hm k) hs
    exact ⟨t', ht, hd⟩)
  refine ⟨k - m, by omega, ?_⟩
  show Moves (systemOf (τ (m + (k - m))) g).conc (systemOf (τ (m + (k - m) + 1)) g).conc i
  rw [Nat.add_sub_cancel' (by omega)]
  exact h2

/-- A watchdog that has ended does nothing, whatever is done with other sockets. -/
theorem stopped_rests {t t' : Sockets} (ht : SocketsReachable dbg trs t) (hs : SocketsStep dbg trs t t')
    {g : Handle} (hg : g ∈ t.world.made) (hd : (t.keeper g.connection).dog = .stopped) :
    ¬ DogMoves (systemOf t g) (systemOf t' g) := by
  have inv := socketsInv ht
  have same : systemOf t' g = systemOf t g → ¬ DogMoves (systemOf t g) (systemOf t' g) := by
    rintro e (hm | ⟨hm, -⟩)
    · exact hm (congrArg System.dog e)
    · have hm : (t.keeper g.connection).dog = .sleeping := hm
      rw [hd] at hm
      cases hm
  rcases sockets_acts inv.world inv.quiet hs with ⟨now, hn, rfl⟩ | ⟨g', hg', h4, h5⟩ | h4
  · exact stopped_still (dbg := dbg) (tr := trs 0) (.time (systemOf t g) now hn) hd
  · by_cases e : g = g'
    · subst e
      exact stopped_still h4 hd
    · exact same (h5 g hg e)
  · exact same (h4 g hg)

/-- A call that has ended does nothing, whatever is done with other sockets. -/
theorem ended_rests {t t' : Sockets} (ht : SocketsReachable dbg trs t) (hs : SocketsStep dbg trs t t')
    {g : Handle} (hg : g ∈ t.world.made) {i : Nat} {c : Call}
    (hi : (systemOf t g).conc.calls[i]? = some c) (hr : running c = false) :
    ¬ Moves (systemOf t g).conc (systemOf t' g).conc i := by
  have inv := socketsInv ht
  have same : (systemOf t' g).conc = (systemOf t g).conc →
      ¬ Moves (systemOf t g).conc (systemOf t' g).conc i := by
    rintro e ⟨d, hd, hne⟩
    rw [e] at hne
    exact hne hd
  rcases sockets_acts inv.world inv.quiet hs with ⟨now, hn, rfl⟩ | ⟨g', hg', h4, h5⟩ | h4
  · exact same rfl
  · by_cases e : g = g'
    · subst e
      generalize systemOf t' g = s' at h4 same ⊢
      generalize systemOf t g = s at h4 same hi ⊢
      cases h4 with
      | request c new hh hc => exact ended_still hc hi hr
      | _ => exact same rfl
    · exact same (congrArg System.conc (h5 g hg e))
  · exact same (congrArg System.conc (h4 g hg))

/-- One step more of an execution that has come to rest. -/
theorem extend_rest {N : Nat} {t t' : Sockets} (h : AllForever dbg trs τ) (hr : ∀ k, N ≤ k → τ k = t)
    (hs : SocketsStep dbg trs t t') : ∃ τ', AllForever dbg trs τ' ∧ (∀ k, k ≤ N → τ' k = τ k) ∧
      ∀ k, N + 1 ≤ k → τ' k = t' := by
  have lo : ∀ k, k ≤ N → (if k ≤ N then τ k else t') = τ k := fun k hk => if_pos hk
  have hi : ∀ k, N + 1 ≤ k → (if k ≤ N then τ k else t') = t' := fun k hk => if_neg (by omega)
  refine ⟨fun k => if k ≤ N then τ k else t', ⟨?_, fun k => ?_⟩, lo, hi⟩
  · obtain ⟨now, h0⟩ := h.start
    exact ⟨now, (lo 0 (Nat.zero_le _)).trans h0⟩
  · show SocketsStep dbg trs (if k ≤ N then τ k else t') (if k + 1 ≤ N then τ (k + 1) else t') ∨
      (if k + 1 ≤ N then τ (k + 1) else t') = (if k ≤ N then τ k else t')
    rcases Nat.lt_trichotomy k N with hk | hk | hk
    · rw [lo k (by omega), lo (k + 1) (by omega)]
      exact h.follows k
    · subst hk
      rw [lo k (Nat.le_refl _), hi (k + 1) (Nat.le_refl _), hr k (Nat.le_refl _)]
      exact .inl hs
    · rw [hi k (by omega), hi (k + 1) (by omega)]
      exact .inr rfl

end Binate
