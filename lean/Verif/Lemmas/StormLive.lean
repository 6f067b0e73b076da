import Verif.Spec.StormLive
import Verif.Lemmas.Storm
import Verif.Lemmas.Live
import Verif.Props.WildConc
import Verif.Props.Storm

/-! # Executions that go on for ever, with everything that can go wrong -/

namespace Binate

open Spec RSocketMachine

variable {dbg : Bool} {tr : WildTransport} {e : Error} {role : Role} {timeout created spawned : Nat}
  {σ : Nat → Storm}

/-! ## Calls -/

/-- A simulation step by step is one for ever. -/
theorem follows_sim {α β : Type} {step : α → α → Prop} {stepb : β → β → Prop} {R : α → β → Prop}
    {τ : Nat → α} {b : β} (h0 : R (τ 0) b) (h : Follows step τ)
    (sim : ∀ {a a' b}, R a b → step a a' → ∃ b', stepb b b' ∧ R a' b') :
    ∃ ρ : Nat → β, ρ 0 = b ∧ Follows stepb ρ ∧ ∀ n, R (τ n) (ρ n) := by
  have next : ∀ n (x : { b // R (τ n) b }), ∃ y : { b // R (τ (n + 1)) b },
      stepb x.1 y.1 ∨ y.1 = x.1 := by
    intro n x
    rcases h n with hs | e
    · obtain ⟨b', h1, h2⟩ := sim x.2 hs
      exact ⟨⟨b', h2⟩, .inl h1⟩
    · exact ⟨⟨x.1, by rw [e]; exact x.2⟩, .inr rfl⟩
  let ρ : (n : Nat) → { b // R (τ n) b } := fun n =>
    Nat.rec (motive := fun n => { b // R (τ n) b }) ⟨b, h0⟩ (fun n x => Classical.choose (next n x)) n
  exact ⟨fun n => (ρ n).1, rfl, fun n => Classical.choose_spec (next n (ρ n)), fun n => (ρ n).2⟩

theorem wild_follows {m : RSocketMachine} {τ : Nat → WildConc} (h0 : τ 0 = WildConc.init m)
    (h : Follows (WildStep dbg tr) τ) :
    ∃ ρ : Nat → Conc, ρ 0 = Conc.init m ∧ Follows (ConcStep dbg (refusing e tr)) ρ ∧
      ∀ n, Alike tr e (τ n) (ρ n) := by
  obtain ⟨ρ, h1, h2, h3⟩ := follows_sim (stepb := ConcStep dbg (refusing e tr))
    (R := fun w s => Alike tr e w s ∧ ConcReachable dbg (refusing e tr) m s) (b := Conc.init m)
    ⟨h0 ▸ alike_init m, .init⟩ h (fun {a a' b} hr hs => by
      obtain ⟨s', k1, k2⟩ := wild_forward hr.1 hr.2 hs
      exact ⟨s', k1, k2, .step hr.2 k1⟩)
  exact ⟨ρ, h1, h2, fun n => (h3 n).1⟩

/-- Calls that are alike. -/
theorem alike_some {w : WildConc} {s : Conc} (h : Alike tr e w s) {i : Nat} {c : Call}
    (hi : w.calls[i]? = some c) : ∃ d, s.calls[i]? = some d ∧ SameCall tr e s.wire c d := by
  obtain ⟨hl, -⟩ := List.getElem?_eq_some_iff.1 hi
  have hj : s.calls[i]? = some (s.calls[i]'(by rw [← h.count]; exact hl)) := List.getElem?_eq_getElem _
  exact ⟨_, hj, h.calls i _ _ hi hj⟩

theorem alike_some_back {w : WildConc} {s : Conc} (h : Alike tr e w s) {i : Nat} {d : Call}
    (hi : s.calls[i]? = some d) : ∃ c, w.calls[i]? = some c ∧ SameCall tr e s.wire c d := by
  obtain ⟨hl, -⟩ := List.getElem?_eq_some_iff.1 hi
  have hj : w.calls[i]? = some (w.calls[i]'(by rw [h.count]; exact hl)) := List.getElem?_eq_getElem _
  exact ⟨_, hj, h.calls i _ _ hj hi⟩

theorem sameCall_running {wire : List Frame} {c d : Call} (h : SameCall tr e wire c d) :
    running c = running d := by
  rcases h with rfl | ⟨p, sid, rfl, rfl, -⟩ <;> rfl

/-- Call `i` is not under way for ever without taking a step. -/
def WildGoesOn (τ : Nat → WildConc) (i : Nat) : Prop :=
  ∀ n, (∀ k, n ≤ k → ∃ c, (τ k).calls[i]? = some c ∧ running c = true) →
    ∃ k, n ≤ k ∧ WildMoves (τ k) (τ (k + 1)) i

theorem wildFollows_reachable {m : RSocketMachine} {τ : Nat → WildConc} (h0 : τ 0 = WildConc.init m)
    (h : Follows (WildStep dbg tr) τ) (n : Nat) : WildReachable dbg tr m (τ n) := by
  induction n with
  | zero => rw [h0]; exact .init
  | succ n ih =>
    rcases h n with hs | e
    · exact .step ih hs
    · rw [e]; exact ih

theorem wild_enabled {m : RSocketMachine} {w : WildConc} (hno : ∀ sent f, tr sent f ≠ .diverge)
    (h : WildReachable dbg tr m w) {i : Nat} {c : Call} (hi : w.calls[i]? = some c)
    (hr : running c = true) : ∃ w', WildStep dbg tr w w' ∧ WildMoves w w' i := by
  obtain ⟨w', c', hs, hc', hne⟩ := C113_progress hno h hi hr
  exact ⟨w', hs, c, hi, fun e => by rw [hc'] at e; cases e; exact hne rfl⟩

theorem wild_goesOn {m : RSocketMachine} {τ : Nat → WildConc} (hno : ∀ sent f, tr sent f ≠ .diverge)
    (h0 : τ 0 = WildConc.init m) (h : Follows (WildStep dbg tr) τ) {i : Nat}
    (hf : WildScheduled dbg tr τ i) : WildGoesOn τ i :=
  fun n hn => hf n fun k hk =>
    have ⟨_, hc, hr⟩ := hn k hk
    wild_enabled hno (wildFollows_reachable h0 h k) hc hr

/-- A call that has ended does nothing. -/
theorem wild_ended_still {w w' : WildConc} (h : WildStep dbg tr w w') {i : Nat} {c : Call}
    (hi : w.calls[i]? = some c) (hr : running c = false) : ¬ WildMoves w w' i := by
  rintro ⟨d, hd, hne⟩
  rw [hi] at hd
  cases hd
  have upd : ∀ {j : Nat} {a b : Call}, w.calls[j]? = some a → running a = true →
      (w.calls.set j b)[i]? = some c := by
    intro j a b hj ha
    by_cases e : j = i
    · subst e
      rw [hj] at hi
      cases hi
      rw [ha] at hr
      cases hr
    · exact (List.getElem?_set_ne e).trans hi
  apply hne
  cases h with
  | call p => exact (List.getElem?_append_left (List.getElem?_eq_some_iff.1 hi).1).trans hi
  | push => exact hi
  | pushPanic => exact hi
  | env => exact hi
  | fetch j p hj => exact upd hj rfl
  | checkUsed j p sid hj => exact upd hj rfl
  | checkFree j p sid hj => exact upd hj rfl
  | sendOne j p sid f r hj => exact upd hj rfl
  | sendOnePanic j p sid f m hj => exact upd hj rfl
  | sendChunk j p sid idx n chunks chunks' ch f hj => exact upd hj rfl
  | sendChunkErr j p sid idx n chunks chunks' ch f e hj => exact upd hj rfl
  | sendChunkPanic j p sid idx n chunks chunks' ch f m hj => exact upd hj rfl
  | finish j p sid idx n chunks chunks' hj => exact upd hj rfl

theorem wild_scheduled {τ : Nat → WildConc} {ρ : Nat → Conc} (ha : ∀ n, Alike tr e (τ n) (ρ n)) {i : Nat}
    (hf : WildGoesOn τ i) : GoesOn ρ i := by
  intro n hn
  obtain ⟨k, hk, c, h1, h2⟩ := hf n fun k hk => by
    obtain ⟨d, hd, hr⟩ := hn k hk
    obtain ⟨c, hc, hs⟩ := alike_some_back (ha k) hd
    exact ⟨c, hc, (sameCall_running hs).trans hr⟩
  refine ⟨k, hk, ?_⟩
  obtain ⟨d, hd, hs⟩ := alike_some (ha k) h1
  refine ⟨d, hd, fun hd' => h2 ?_⟩
  obtain ⟨c', hc', hs'⟩ := alike_some_back (ha (k + 1)) hd'
  obtain ⟨d₁, hd₁, hr⟩ := hn k hk
  rw [hd] at hd₁
  cases hd₁
  rw [hc']
  rcases hs with rfl | ⟨p, sid, -, rfl, -⟩
  · rcases hs' with rfl | ⟨p, sid, -, rfl, -⟩
    · rfl
    · cases hr
  · cases hr

theorem sameCall_ended {wire : List Frame} {c d : Call} (h : SameCall tr e wire c d)
    (hd : Spec.Ended d) : Spec.Ended c := by
  rcases h with rfl | ⟨p, sid, rfl, rfl, -⟩
  · exact hd
  · exact .panicked p

/-! ## The system -/

theorem stormForever_reachable (h : StormForever dbg tr role timeout created spawned σ) (n : Nat) :
    Storm.Reachable dbg tr role timeout created spawned (σ n) := by
  induction n with
  | zero => rw [h.start]; exact .init
  | succ n ih =>
    rcases h.follows n with hs | e
    · exact ih.step hs
    · rw [e]; exact ih

theorem stormForever_conc (h : StormForever dbg tr role timeout created spawned σ) :
    Follows (WildStep dbg tr) (fun n => (σ n).sys.conc) := by
  intro n
  rcases h.follows n with hs | e
  · show WildStep dbg tr (σ n).sys.conc (σ (n + 1)).sys.conc ∨ (σ (n + 1)).sys.conc = (σ n).sys.conc
    generalize σ (n + 1) = s' at hs ⊢
    cases hs with
    | run s hs _ =>
      cases hs with
      | request c new hh hc => exact .inl hc
      | _ => exact .inr rfl
    | _ => exact .inr rfl
  · exact .inr (congrArg (fun h => h.sys.conc) e)

theorem storm_clock {h h' : Storm} (hs : Storm.Step dbg tr h h') : h.sys.clock ≤ h'.sys.clock := by
  cases hs with
  | run s hs _ =>
    cases hs with
    | time now hn => exact hn
    | _ => exact Nat.le_refl _
  | _ => exact Nat.le_refl _

/-- The watchdog never goes back. -/
theorem storm_dog {h h' : Storm} (hs : Storm.Step dbg tr h h') :
    h'.sys.dog = h.sys.dog ∨ h.sys.dog = .sleeping ∧ h'.sys.dog = .timedOut ∨
      h.sys.dog = .timedOut ∧ h'.sys.dog = .stopped := by
  cases hs with
  | run s hs _ =>
    cases hs with
    | wakeLate hd => exact .inr (.inl ⟨hd, rfl⟩)
    | dogCloses hd => exact .inr (.inr ⟨hd, rfl⟩)
    | dogPanics hd => exact .inr (.inr ⟨hd, rfl⟩)
    | _ => exact .inl rfl
  | _ => exact .inl rfl

/-- What is over stays over. -/
theorem storm_keeps {h h' : Storm} (hs : Storm.Step dbg tr h h') :
    (h.dogGone = true → h'.dogGone = true) ∧ (h.sys.listening = false → h'.sys.listening = false) ∧
    (h.sys.handles = 0 → h'.sys.handles = 0) ∧ (h.down = true → h'.down = true) ∧
    (h.sys.dog = .stopped → h'.sys.dog = .stopped) := by
  have hd : h.sys.dog = .stopped → h'.sys.dog = .stopped := fun e => by
    rcases storm_dog hs with k | ⟨k, -⟩ | ⟨k, -⟩
    · exact k.trans e
    · rw [e] at k; cases k
    · rw [e] at k; cases k
  refine ⟨fun e => ?_, fun e => ?_, fun e => ?_, fun e => ?_, hd⟩
  · cases hs with
    | dropDog => rfl
    | dogPanics => rfl
    | _ => exact e
  · cases hs with
    | run s hs _ =>
      cases hs with
      | statusEnd => rfl
      | statusPanics => rfl
      | _ => exact e
    | dropListener => rfl
    | listenerPanics => rfl
    | _ => exact e
  · cases hs with
    | run s hs _ =>
      cases hs with
      | clone hh => omega
      | drop hh => omega
      | _ => exact e
    | _ => exact e
  · cases hs with
    | shutdown => rfl
    | _ => exact e

theorem stormForever_keeps (h : StormForever dbg tr role timeout created spawned σ) {n k : Nat}
    (hk : n ≤ k) :
    ((σ n).dogGone = true → (σ k).dogGone = true) ∧
    ((σ n).sys.listening = false → (σ k).sys.listening = false) ∧
    ((σ n).sys.handles = 0 → (σ k).sys.handles = 0) ∧ ((σ n).down = true → (σ k).down = true) ∧
    ((σ n).sys.dog = .stopped → (σ k).sys.dog = .stopped) ∧ (σ n).sys.clock ≤ (σ k).sys.clock := by
  induction k, hk using Nat.le_induction with
  | base => exact ⟨id, id, id, id, id, Nat.le_refl _⟩
  | succ k _ ih =>
    obtain ⟨h1, h2, h3, h4, h5, h6⟩ := ih
    rcases h.follows k with hs | e
    · obtain ⟨g1, g2, g3, g4, g5⟩ := storm_keeps hs
      exact ⟨g1 ∘ h1, g2 ∘ h2, g3 ∘ h3, g4 ∘ h4, g5 ∘ h5, Nat.le_trans h6 (storm_clock hs)⟩
    · rw [e]; exact ⟨h1, h2, h3, h4, h5, h6⟩

theorem stormForever_steps (h : StormForever dbg tr role timeout created spawned σ) {n k : Nat}
    (hk : n ≤ k) : StormSteps dbg tr (σ n) (σ k) := by
  induction k, hk using Nat.le_induction with
  | base => exact .refl _
  | succ k _ ih =>
    rcases h.follows k with hs | e
    · exact stormSteps_trans ih (.step hs (.refl _))
    · rw [e]; exact ih

theorem storm_due {h : Storm} (hr : Storm.Reachable dbg tr role timeout created spawned h) :
    (h.sys.dog = .sleeping → h.sys.slept ≤ max spawned (created + timeout)) ∧
    h.sys.conc.machine.keepaliveTimeout = timeout := by
  obtain ⟨g, hg, ha, -⟩ := storm_hosted ⟨.io, none⟩ hr
  obtain ⟨s, hs, hb⟩ := hosted_asleep hg
  rw [ha.sys.dog, ha.sys.slept, ha.sys.conc.machine, hb.dog, hb.slept, hb.conc]
  exact ⟨(sysInv hs).due, (sysInv hs).timeout⟩

/-- A call under way is made through a handle that the user still has. -/
theorem storm_held {h : Storm} (hr : Storm.Reachable dbg tr role timeout created spawned h) {i : Nat}
    {c : Call} (hi : h.sys.conc.calls[i]? = some c) (hrun : running c = true) : 0 < h.sys.handles := by
  obtain ⟨g, hg, ha, -⟩ := storm_hosted ⟨.io, none⟩ hr
  obtain ⟨s, hs, hb⟩ := hosted_asleep hg
  rcases Nat.eq_zero_or_pos h.sys.handles with e | e
  · have h0 : s.handles = 0 := by rw [← hb.handles, ← ha.sys.handles]; exact e
    obtain ⟨d, hd, hsame⟩ := alike_some ha.sys.conc hi
    rw [hb.conc] at hd
    have := C75_calls_ended hs (.inl h0) d (List.mem_of_getElem? hd)
    have hrun := (sameCall_running hsame).symm.trans hrun
    cases this <;> cases hrun
  · exact e

theorem storm_call_enabled (hno : ∀ sent f, tr sent f ≠ .diverge) {h : Storm}
    (hr : Storm.Reachable dbg tr role timeout created spawned h) {i : Nat} {c : Call}
    (hi : h.sys.conc.calls[i]? = some c) (hrun : running c = true) :
    ∃ h', Storm.Step dbg tr h h' ∧ WildMoves h.sys.conc h'.sys.conc i := by
  obtain ⟨w, hs, hm⟩ := wild_enabled hno (C120_requests hr).1 hi hrun
  have : ∃ new, w.wire = h.sys.conc.wire ++ new := by
    cases hs <;> first
      | exact ⟨_, rfl⟩
      | exact ⟨[], (List.append_nil _).symm⟩
  obtain ⟨new, hn⟩ := this
  exact ⟨_, .run h _ (.request h.sys w new (storm_held hr hi hrun) hs hn) fun _ => ⟨rfl, rfl⟩, hm⟩

theorem storm_goesOn (hno : ∀ sent f, tr sent f ≠ .diverge)
    (h : StormForever dbg tr role timeout created spawned σ) {i : Nat}
    (hf : StormCallScheduled dbg tr σ i) : WildGoesOn (fun n => (σ n).sys.conc) i :=
  fun n hn => hf n fun k hk =>
    have ⟨_, hc, hr⟩ := hn k hk
    storm_call_enabled hno (stormForever_reachable h k) hc hr

/-- The watchdog is there and waits for nothing but being scheduled. -/
def StormDogReady (h : Storm) : Prop :=
  h.dogGone = false ∧
  (h.sys.dog = .sleeping ∧ h.sys.slept + h.sys.conc.machine.keepaliveTimeout ≤ h.sys.clock ∨
    h.sys.dog = .timedOut)

theorem storm_dog_enabled {h : Storm} (hr : StormDogReady h) :
    ∃ h', Storm.Step dbg tr h h' ∧ h'.dogGone = h.dogGone ∧ StormDogMoves h h' := by
  obtain ⟨hg, hr⟩ := hr
  have there : ∀ s : WildSystem, h.dogGone = true → s.dog = h.sys.dog ∧ s.slept = h.sys.slept := by
    intro s e
    rw [hg] at e
    cases e
  rcases hr with ⟨hd, hl⟩ | hd
  · by_cases hn : h.sys.clock - h.sys.conc.machine.keepaliveLastReceived >
        h.sys.conc.machine.keepaliveTimeout
    · exact ⟨_, .run h _ (.wakeLate h.sys hd hl hn) (there _), rfl, .inl (by rw [hd]; exact nofun)⟩
    · exact ⟨_, .run h _ (.wakeEarly h.sys hd hl hn) (there _), rfl, .inr (.inr ⟨hd, rfl⟩)⟩
  · exact ⟨_, .run h _ (.dogCloses h.sys hd) (there _), rfl, .inl (by rw [hd]; exact nofun)⟩

/-- The watchdog is not ready for ever without being scheduled. -/
def StormDogGoesOn (σ : Nat → Storm) : Prop :=
  ∀ n, (∀ k, n ≤ k → StormDogReady (σ k)) → ∃ k, n ≤ k ∧ StormDogMoves (σ k) (σ (k + 1))

theorem storm_dog_goesOn (h : StormDogScheduled dbg tr σ) : StormDogGoesOn σ := by
  refine fun n hn => h n fun k hk => ?_
  obtain ⟨h', h1, -, h3⟩ := storm_dog_enabled (hn k hk)
  exact ⟨h', h1, h3⟩

theorem storm_dog_served (h : StormDogServed dbg tr σ) : StormDogGoesOn σ := by
  intro n hn
  obtain ⟨k, hk, h1⟩ := h n fun k hk => storm_dog_enabled (hn k hk)
  exact ⟨k, hk, h1.2⟩

/-- A watchdog that has ended or is gone does nothing. -/
theorem storm_dog_still {h h' : Storm} (hs : Storm.Step dbg tr h h')
    (hd : h.sys.dog = .stopped ∧ h.dogGone = false ∨ h.dogGone = true ∧ h.sys.slept ≠ h.sys.clock) :
    ¬ StormDogMoves h h' := by
  rintro (hm | hm | ⟨hm, hm'⟩)
  · rcases hd with ⟨hd, -⟩ | ⟨hd, -⟩
    · exact hm ((storm_keeps hs).2.2.2.2 hd |>.trans hd.symm)
    · cases hs with
      | run s hs hg => exact hm (hg hd).1
      | _ => exact hm rfl
  · rcases hd with ⟨hd, hg⟩ | ⟨hd, -⟩
    · cases hs with
      | dropDog h1 h2 h3 => rw [hd] at h3; cases h3
      | dogPanics h1 h2 => rw [hd] at h2; cases h2
      | _ => exact hm rfl
    · exact hm ((storm_keeps hs).1 hd |>.trans hd.symm)
  · rcases hd with ⟨hd, -⟩ | ⟨hd, hne⟩
    · rw [hd] at hm; cases hm
    · cases hs with
      | run s hs hg => exact hne ((hg hd).2.symm.trans hm')
      | _ => exact hne hm'

/-- The watchdog closes the connection or is gone. -/
theorem storm_dog_ends (h : StormForever dbg tr role timeout created spawned σ) (ht : StormTimeGoesOn σ)
    (hf : StormDogGoesOn σ) : ∃ n, (σ n).sys.dog = .stopped ∨ (σ n).dogGone = true := by
  by_contra hno
  have hno : ∀ n, (σ n).sys.dog ≠ .stopped ∧ (σ n).dogGone = false := fun n =>
    ⟨fun e => hno ⟨n, .inl e⟩, by
      cases e : (σ n).dogGone with
      | false => rfl
      | true => exact absurd ⟨n, .inr e⟩ hno⟩
  obtain ⟨n, hn⟩ := ht (max spawned (created + timeout) + timeout + 1)
  have late : ∀ k, n ≤ k → max spawned (created + timeout) + timeout + 1 ≤ (σ k).sys.clock :=
    fun k hk => Nat.le_trans hn (stormForever_keeps h hk).2.2.2.2.2
  have ready : ∀ k, n ≤ k → StormDogReady (σ k) := by
    intro k hk
    obtain ⟨h1, h2⟩ := storm_due (stormForever_reachable h k)
    refine ⟨(hno k).2, ?_⟩
    cases hd : (σ k).sys.dog with
    | sleeping =>
      have := h1 hd
      have := late k hk
      refine .inl ⟨rfl, ?_⟩
      rw [h2]
      omega
    | timedOut => exact .inr rfl
    | stopped => exact absurd hd (hno k).1
  have goes : ∀ j, n ≤ j → ∃ k, j ≤ k ∧ (σ (k + 1)).sys.dog ≠ (σ k).sys.dog := by
    intro j hj
    obtain ⟨k, hk, hm⟩ := hf j fun k hk => ready k (Nat.le_trans hj hk)
    refine ⟨k, hk, ?_⟩
    rcases hm with hm | hm | ⟨h1, h2⟩
    · exact hm
    · rw [(hno k).2, (hno (k + 1)).2] at hm
      exact absurd rfl hm
    · intro e
      have := (storm_due (stormForever_reachable h (k + 1))).1 (e.trans h1)
      have := late k (by omega)
      omega
  have move : ∀ k, (σ (k + 1)).sys.dog ≠ (σ k).sys.dog →
      (σ k).sys.dog = .sleeping ∧ (σ (k + 1)).sys.dog = .timedOut := by
    intro k hk
    rcases h.follows k with hs | e
    · rcases storm_dog hs with e | e | ⟨-, e⟩
      · exact absurd e hk
      · exact e
      · exact absurd e (hno _).1
    · rw [e] at hk; exact absurd rfl hk
  have awake : ∀ j k, j ≤ k → (σ j).sys.dog = .timedOut → (σ k).sys.dog = .timedOut := by
    intro j k hk e
    induction k, hk using Nat.le_induction with
    | base => exact e
    | succ k _ ih =>
      by_contra hne
      have := (move k fun e => hne (e.trans ih)).2
      exact hne this
  obtain ⟨j, hj, hm⟩ := goes n (Nat.le_refl n)
  obtain ⟨k, hk, hm'⟩ := goes (j + 1) (by omega)
  have := awake _ _ hk (move j hm).2
  rw [(move k hm').1] at this
  cases this

/-- A runtime that is shut down is rid of the watchdog in the end. -/
theorem storm_dog_cleared (h : StormForever dbg tr role timeout created spawned σ)
    (hc : DogCleared dbg tr σ) {n : Nat} (hd : (σ n).down = true) :
    ∃ k, (σ k).sys.dog = .stopped ∨ (σ k).dogGone = true := by
  by_contra hno
  have hno : ∀ n, (σ n).sys.dog ≠ .stopped ∧ (σ n).dogGone = false := fun n =>
    ⟨fun e => hno ⟨n, .inl e⟩, by
      cases e : (σ n).dogGone with
      | false => rfl
      | true => exact absurd ⟨n, .inr e⟩ hno⟩
  have move : ∀ k, (σ (k + 1)).sys.dog ≠ (σ k).sys.dog →
      (σ k).sys.dog = .sleeping ∧ (σ (k + 1)).sys.dog = .timedOut := by
    intro k hk
    rcases h.follows k with hs | e
    · rcases storm_dog hs with e | e | ⟨-, e⟩
      · exact absurd e hk
      · exact e
      · exact absurd e (hno _).1
    · rw [e] at hk; exact absurd rfl hk
  have goes : ∀ j, n ≤ j → ∃ k, j ≤ k ∧ (σ (k + 1)).sys.dog ≠ (σ k).sys.dog := by
    intro j hj
    obtain ⟨k, hk, -, hm⟩ := hc j fun k hk => by
      have down := (stormForever_keeps h (Nat.le_trans hj hk)).2.2.2.1 hd
      cases hdog : (σ k).sys.dog with
      | sleeping =>
        refine ⟨_, .dropDog (σ k) down (hno k).2 hdog, down, .inr ?_⟩
        rw [(hno k).2]
        exact nofun
      | timedOut =>
        refine ⟨_, .run (σ k) _ (.dogCloses _ hdog) (fun e => ?_), down, .inl ?_⟩
        · rw [(hno k).2] at e
          cases e
        · rw [hdog]
          exact nofun
      | stopped => exact absurd hdog (hno k).1
    refine ⟨k, hk, hm.resolve_right fun e => e ?_⟩
    rw [(hno k).2, (hno (k + 1)).2]
  have awake : ∀ j k, j ≤ k → (σ j).sys.dog = .timedOut → (σ k).sys.dog = .timedOut := by
    intro j k hk e
    induction k, hk using Nat.le_induction with
    | base => exact e
    | succ k _ ih =>
      by_contra hne
      exact hne (move k fun e => hne (e.trans ih)).2
  obtain ⟨j, hj, hm⟩ := goes n (Nat.le_refl n)
  obtain ⟨k, hk, hm'⟩ := goes (j + 1) (by omega)
  have := awake _ _ hk (move j hm).2
  rw [(move k hm').1] at this
  cases this

/-- A runtime that is shut down is rid of the listener in the end. -/
theorem storm_listener_cleared (h : StormForever dbg tr role timeout created spawned σ)
    (hc : ListenerCleared dbg tr σ) {n : Nat} (hd : (σ n).down = true) :
    ∃ k, (σ k).sys.listening = false := by
  by_contra hno
  have hear : ∀ k, (σ k).sys.listening = true := fun k => by
    cases e : (σ k).sys.listening with
    | true => rfl
    | false => exact absurd ⟨k, e⟩ hno
  obtain ⟨k, -, -, hk⟩ := hc n fun k hk => by
    have down := (stormForever_keeps h hk).2.2.2.1 hd
    refine ⟨_, .dropListener (σ k) down (hear k), down, ?_⟩
    rw [hear k]
    exact nofun
  exact hk ((hear _).trans (hear _).symm)

end Binate
