import Verif.Spec.Live
import Verif.Lemmas.Wait
import Verif.Lemmas.System
import Verif.Lemmas.Closing
import Verif.Props.Conc
import Verif.Props.Wait
import Verif.Props.System

/-! # Executions that go on for ever -/

namespace Binate

open Spec RSocketMachine System PayloadChunks

variable {dbg : Bool} {tr : Transport}

/-! ## Fair schedulers -/

/-- The watchdog waits for nothing but being scheduled. -/
def DogReady (s : System) : Prop :=
  s.dog = .sleeping ∧ s.slept + s.conc.machine.keepaliveTimeout ≤ s.clock ∨ s.dog = .timedOut

theorem dog_enabled {s : System} (h : DogReady s) : ∃ s', Step dbg tr s s' ∧ DogMoves s s' := by
  rcases h with ⟨hd, hl⟩ | hd
  · by_cases hn : s.clock - s.conc.machine.keepaliveLastReceived > s.conc.machine.keepaliveTimeout
    · exact ⟨_, .wakeLate s hd hl hn, .inl (by rw [hd]; exact nofun)⟩
    · exact ⟨_, .wakeEarly s hd hl hn, .inr ⟨hd, rfl⟩⟩
  · exact ⟨_, .dogCloses s hd, .inl (by rw [hd]; exact nofun)⟩

/-- The watchdog is not ready for ever without doing something. -/
def DogGoesOn (σ : Nat → System) : Prop :=
  ∀ n, (∀ k, n ≤ k → DogReady (σ k)) → ∃ k, n ≤ k ∧ DogMoves (σ k) (σ (k + 1))

theorem dog_goesOn {σ : Nat → System} (h : DogScheduled dbg tr σ) : DogGoesOn σ :=
  fun n hn => h n fun k hk => dog_enabled (hn k hk)

/-- Call `i` has been made and has neither returned nor panicked. -/
def UnderWay (s : Conc) (i : Nat) : Prop := ∃ c, s.calls[i]? = some c ∧ running c = true

theorem call_enabled {m : RSocketMachine} {s : Conc} (h : ConcReachable dbg tr m s) {i : Nat}
    (hu : UnderWay s i) : ∃ s', ConcStep dbg tr s s' ∧ Moves s s' i := by
  obtain ⟨c, hc, hr⟩ := hu
  obtain ⟨s', c', hs, hc', hne⟩ := C57_progress h hc hr
  exact ⟨s', hs, c, hc, fun e => by rw [hc'] at e; cases e; exact hne rfl⟩

/-- Call `i` is not under way for ever without taking a step. -/
def GoesOn (σ : Nat → Conc) (i : Nat) : Prop :=
  ∀ n, (∀ k, n ≤ k → UnderWay (σ k) i) → ∃ k, n ≤ k ∧ Moves (σ k) (σ (k + 1)) i

/-! ## Calls -/

/-- How many steps a call has still to take when no id is rejected. -/
def stepsLeft (fragment : Option Nat) : Call → Nat
  | .probing p => 3 + (match fragment with | none => 0 | some size => chunkCount size p)
  | .checking p _ => 2 + (match fragment with | none => 0 | some size => chunkCount size p)
  | .sending p _ idx _ _ => 1 + ((match fragment with | none => 0 | some size => chunkCount size p) - idx)
  | .sendingOne _ _ => 1
  | .done _ _ _ => 0
  | .panicked _ => 0

theorem follows_reachable {m : RSocketMachine} {σ : Nat → Conc} (h0 : σ 0 = Conc.init m)
    (h : Follows (ConcStep dbg tr) σ) (n : Nat) : ConcReachable dbg tr m (σ n) := by
  induction n with
  | zero => rw [h0]; exact .init
  | succ n ih =>
    rcases h n with hs | e
    · exact ih.step hs
    · rw [e]; exact ih

/-- A call stays where it is or has less to do. -/
theorem step_left {m : RSocketMachine} {s s' : Conc} (h : ConcReachable dbg tr m s)
    (hs : ConcStep dbg tr s s') (hr : ∀ x, s.machine.receivers x = false) {i : Nat} {c : Call}
    (hi : s.calls[i]? = some c) :
    ∃ c', s'.calls[i]? = some c' ∧
      (c' = c ∨ stepsLeft m.chunkPayload c' < stepsLeft m.chunkPayload c) := by
  have upd : ∀ {j : Nat} {a b : Call}, s.calls[j]? = some a →
      stepsLeft m.chunkPayload b < stepsLeft m.chunkPayload a →
      ∃ c', (s.calls.set j b)[i]? = some c' ∧
        (c' = c ∨ stepsLeft m.chunkPayload c' < stepsLeft m.chunkPayload c) := by
    intro j a b hj hl
    by_cases e : j = i
    · subst e
      rw [hj] at hi
      cases hi
      exact ⟨b, List.getElem?_set_self' .. |>.trans (by rw [hj]; rfl), .inr hl⟩
    · exact ⟨c, (List.getElem?_set_ne e).trans hi, .inl rfl⟩
  have inv := freeInv h
  cases hs with
  | call p =>
    refine ⟨c, ?_, .inl rfl⟩
    rw [List.getElem?_append_left (List.getElem?_eq_some_iff.1 hi).1]
    exact hi
  | fetch j p hj => exact upd hj (by simp only [stepsLeft]; omega)
  | checkUsed j p sid hj hu => rw [hr] at hu; cases hu
  | checkFree j p sid hj hu =>
    refine upd hj ?_
    unfold afterId
    rw [inv.chunk]
    split
    · rename_i size e
      split <;> simp only [stepsLeft] <;> omega
    · simp only [stepsLeft]; omega
  | sendOne j p sid f hj hf => exact upd hj (by simp only [stepsLeft]; omega)
  | sendChunk j p sid idx n chunks chunks' ch f hj hn hf ha =>
    refine upd hj ?_
    obtain ⟨w, size, h1, h2, h3, -⟩ := inv.call j _ hj
    have nn : (afterNext idx ⟨size, p.metadata, p.data⟩).next.1 =
        if idx < chunkCount size p then some (chunkAt size p idx) else none :=
      nth_next (c := ⟨size, p.metadata, p.data⟩) h2 idx
    rw [← h3, hn] at nn
    have : idx < chunkCount size p := by
      by_contra hlt
      rw [if_neg hlt] at nn
      cases nn
    simp only [stepsLeft, h1]
    omega
  | sendChunkErr j p sid idx n chunks chunks' ch f e hj hn hf ha =>
    exact upd hj (by simp only [stepsLeft]; omega)
  | finish j p sid idx n chunks chunks' hj hn => exact upd hj (by simp only [stepsLeft]; omega)
  | push md => exact ⟨c, hi, .inl rfl⟩
  | env r => exact ⟨c, hi, .inl rfl⟩

theorem follows_left {m : RSocketMachine} {σ : Nat → Conc} (h0 : σ 0 = Conc.init m)
    (h : Follows (ConcStep dbg tr) σ) (hr : ∀ n x, (σ n).machine.receivers x = false) {i : Nat}
    {n k : Nat} (hk : n ≤ k) {c : Call} (hi : (σ n).calls[i]? = some c) :
    ∃ c', (σ k).calls[i]? = some c' ∧
      (c' = c ∨ stepsLeft m.chunkPayload c' < stepsLeft m.chunkPayload c) := by
  induction k, hk using Nat.le_induction with
  | base => exact ⟨c, hi, .inl rfl⟩
  | succ k hk ih =>
    obtain ⟨c', h1, h2⟩ := ih
    rcases h k with hs | e
    · obtain ⟨c'', h3, h4⟩ := step_left (follows_reachable h0 h k) hs (hr k) h1
      refine ⟨c'', h3, ?_⟩
      rcases h4 with rfl | h4
      · exact h2
      · rcases h2 with rfl | h2
        · exact .inr h4
        · exact .inr (Nat.lt_trans h4 h2)
    · rw [e]
      exact ⟨c', h1, h2⟩

theorem returns_unused {m : RSocketMachine} {σ : Nat → Conc} (h0 : σ 0 = Conc.init m)
    (h : Follows (ConcStep dbg tr) σ) (hr : ∀ n x, (σ n).machine.receivers x = false) {i : Nat}
    (hf : GoesOn σ i) {n : Nat} {c : Call} (hi : (σ n).calls[i]? = some c) :
    ∃ k c', n ≤ k ∧ (σ k).calls[i]? = some c' ∧ running c' = false := by
  generalize hl : stepsLeft m.chunkPayload c = l
  induction l using Nat.strongRecOn generalizing n c with
  | ind l ih =>
    by_cases hu : ∀ k, n ≤ k → UnderWay (σ k) i
    · obtain ⟨k, hk, d, hd, hne⟩ := hf n hu
      obtain ⟨c', h1, h2⟩ := follows_left h0 h hr hk hi
      obtain ⟨c'', h3, h4⟩ := follows_left h0 h hr (Nat.le_succ k) h1
      rw [hd] at h1
      cases h1
      rcases h4 with rfl | h4
      · exact absurd h3 hne
      · have hlt : stepsLeft m.chunkPayload c'' < l := by
          rcases h2 with rfl | h2 <;> omega
        obtain ⟨k', e, g1, g2, g3⟩ := ih _ hlt h3 rfl
        exact ⟨k', e, by omega, g2, g3⟩
    · obtain ⟨k, hk⟩ := not_forall.1 hu
      obtain ⟨hk, hk'⟩ := Classical.not_imp.1 hk
      obtain ⟨c', h1, -⟩ := follows_left h0 h hr hk hi
      refine ⟨k, c', hk, h1, ?_⟩
      cases hrun : running c' with
      | false => rfl
      | true => exact absurd ⟨c', h1, hrun⟩ hk'

/-- A call that has ended does nothing. -/
theorem ended_still {s s' : Conc} (h : ConcStep dbg tr s s') {i : Nat} {c : Call}
    (hi : s.calls[i]? = some c) (hr : running c = false) : ¬ Moves s s' i := by
  rintro ⟨d, hd, hne⟩
  rw [hi] at hd
  cases hd
  have upd : ∀ {j : Nat} {a b : Call}, s.calls[j]? = some a → running a = true →
      (s.calls.set j b)[i]? = some c := by
    intro j a b hj ha
    by_cases e : j = i
    · subst e
      rw [hj] at hi
      cases hi
      rw [ha] at hr
      cases hr
    · exact (List.getElem?_set_ne e).trans hi
  apply hne
  cases h with
  | call p => exact (List.getElem?_append_left (List.getElem?_eq_some_iff.1 hi).1).trans hi
  | fetch j p hj => exact upd hj rfl
  | checkUsed j p sid hj hu => exact upd hj rfl
  | checkFree j p sid hj hu => exact upd hj rfl
  | sendOne j p sid f hj hf => exact upd hj rfl
  | sendChunk j p sid idx n chunks chunks' ch f hj hn hf ha => exact upd hj rfl
  | sendChunkErr j p sid idx n chunks chunks' ch f e hj hn hf ha => exact upd hj rfl
  | finish j p sid idx n chunks chunks' hj hn => exact upd hj rfl
  | push md => exact hi
  | env r => exact hi

/-! ## Calls when ids are in use -/

open Classical in
/-- How many steps each call has taken. -/
noncomputable def stepsOf (σ : Nat → Conc) : Nat → Nat → Nat
  | 0, _ => 0
  | n + 1, i => stepsOf σ n i + if Moves (σ n) (σ (n + 1)) i then 1 else 0

theorem stepsOf_run {m : RSocketMachine} {σ : Nat → Conc} (h0 : σ 0 = Conc.init m)
    (h : Follows (ConcStep dbg tr) σ) {keys : List U32}
    (hr : ∀ n x, (σ n).machine.receivers x = true → x ∈ keys) (n : Nat) :
    ConcRun dbg tr m keys (σ n) (stepsOf σ n) := by
  induction n with
  | zero =>
    have := hr 0
    rw [h0] at this ⊢
    exact .init this
  | succ n ih =>
    rcases h n with hs | e
    · refine .step ih hs (hr _) (fun i hm => ?_) (fun i hm => ?_)
      · exact congrArg _ (if_pos hm)
      · exact (congrArg _ (if_neg hm)).trans (Nat.add_zero _)
    · have : stepsOf σ (n + 1) = stepsOf σ n := by
        funext i
        refine (congrArg (stepsOf σ n i + ·) (if_neg ?_)).trans (Nat.add_zero _)
        rintro ⟨c, h1, h2⟩
        rw [e] at h2
        exact h2 h1
      rw [this, e]
      exact ih

theorem stepsOf_mono (σ : Nat → Conc) (i : Nat) {n k : Nat} (h : n ≤ k) :
    stepsOf σ n i ≤ stepsOf σ k i := by
  induction k, h using Nat.le_induction with
  | base => exact Nat.le_refl _
  | succ k _ ih => exact Nat.le_trans ih (Nat.le_add_right _ _)

theorem call_stays {σ : Nat → Conc} (h : Follows (ConcStep dbg tr) σ) {i n k : Nat} (hk : n ≤ k)
    {c : Call} (hi : (σ n).calls[i]? = some c) :
    ∃ c', (σ k).calls[i]? = some c' ∧ callPayload c' = callPayload c := by
  induction k, hk using Nat.le_induction with
  | base => exact ⟨c, hi, rfl⟩
  | succ k _ ih =>
    obtain ⟨c', h1, h2⟩ := ih
    rcases h k with hs | e
    · obtain ⟨c'', h3, h4, -⟩ := (C57_history hs).2 i c' h1
      exact ⟨c'', h3, h4.trans h2⟩
    · rw [e]
      exact ⟨c', h1, h2⟩

theorem returns_keys {m : RSocketMachine} {σ : Nat → Conc} (h0 : σ 0 = Conc.init m)
    (h : Follows (ConcStep dbg tr) σ) {keys : List U32}
    (hr : ∀ n x, (σ n).machine.receivers x = true → x ∈ keys)
    (hl : ∀ n, (σ n).calls.length + keys.length ≤ 2 ^ 30) {i : Nat} (hf : GoesOn σ i) {n : Nat}
    {c : Call} (hi : (σ n).calls[i]? = some c) :
    ∃ k c', n ≤ k ∧ (σ k).calls[i]? = some c' ∧ running c' = false := by
  by_cases hu : ∀ k, n ≤ k → UnderWay (σ k) i
  · exfalso
    have more : ∀ b, ∃ k, n ≤ k ∧ b ≤ stepsOf σ k i := by
      intro b
      induction b with
      | zero => exact ⟨n, Nat.le_refl _, Nat.zero_le _⟩
      | succ b ih =>
        obtain ⟨k, h1, h2⟩ := ih
        obtain ⟨k', h3, h4⟩ := hf k fun j hj => hu j (Nat.le_trans h1 hj)
        refine ⟨k' + 1, by omega, ?_⟩
        have e : stepsOf σ (k' + 1) i = stepsOf σ k' i + 1 := congrArg (stepsOf σ k' i + ·) (if_pos h4)
        have := stepsOf_mono σ i h3
        omega
    obtain ⟨k, hk, hb⟩ := more (maxSteps keys m.chunkPayload (callPayload c) + 1)
    obtain ⟨c', h1, h2⟩ := call_stays h hk hi
    have := (C87_wait_free (stepsOf_run h0 h hr k) (hl k) h1).1
    rw [h2] at this
    omega
  · obtain ⟨k, hk⟩ := not_forall.1 hu
    obtain ⟨hk, hk'⟩ := Classical.not_imp.1 hk
    obtain ⟨c', h1, -⟩ := call_stays h hk hi
    refine ⟨k, c', hk, h1, ?_⟩
    cases hrun : running c' with
    | false => rfl
    | true => exact absurd ⟨c', h1, hrun⟩ hk'

/-! ## The system -/

variable {role : Role} {timeout created spawned : Nat} {σ : Nat → System}

theorem forever_reachable (h : Forever dbg tr role timeout created spawned σ) (n : Nat) :
    Reachable dbg tr role timeout created spawned (σ n) := by
  induction n with
  | zero => rw [h.start]; exact .init
  | succ n ih =>
    rcases h.follows n with hs | e
    · exact ih.step hs
    · rw [e]; exact ih

theorem forever_conc (h : Forever dbg tr role timeout created spawned σ) :
    Follows (ConcStep dbg tr) (fun n => (σ n).conc) := by
  intro n
  rcases h.follows n with hs | e
  · show ConcStep dbg tr (σ n).conc (σ (n + 1)).conc ∨ (σ (n + 1)).conc = (σ n).conc
    generalize σ (n + 1) = s' at hs ⊢
    cases hs with
    | request c new hh hc => exact .inl hc
    | _ => exact .inr rfl
  · exact .inr (congrArg System.conc e)

theorem step_clock {s s' : System} (h : Step dbg tr s s') : s.clock ≤ s'.clock := by
  cases h with
  | time now hn => exact hn
  | _ => exact Nat.le_refl _

/-- The watchdog never goes back. -/
theorem step_dog {s s' : System} (h : Step dbg tr s s') :
    s'.dog = s.dog ∨ s.dog = .sleeping ∧ s'.dog = .timedOut ∨ s.dog = .timedOut ∧ s'.dog = .stopped := by
  cases h with
  | wakeLate hd => exact .inr (.inl ⟨hd, rfl⟩)
  | dogCloses hd => exact .inr (.inr ⟨hd, rfl⟩)
  | _ => exact .inl rfl

theorem forever_steps (h : Forever dbg tr role timeout created spawned σ) {n k : Nat} (hk : n ≤ k) :
    SystemSteps dbg tr (σ n) (σ k) := by
  induction k, hk using Nat.le_induction with
  | base => exact .refl _
  | succ k _ ih =>
    rcases h.follows k with hs | e
    · exact ih.step hs
    · rw [e]; exact ih

theorem forever_clock (h : Forever dbg tr role timeout created spawned σ) {n k : Nat} (hk : n ≤ k) :
    (σ n).clock ≤ (σ k).clock := by
  induction k, hk using Nat.le_induction with
  | base => exact Nat.le_refl _
  | succ k _ ih =>
    rcases h.follows k with hs | e
    · exact Nat.le_trans ih (step_clock hs)
    · rw [e]; exact ih

/-- A watchdog that has ended does nothing. -/
theorem stopped_still {s s' : System} (h : Step dbg tr s s') (hd : s.dog = .stopped) : ¬ DogMoves s s' := by
  rintro (hm | ⟨hm, -⟩)
  · rcases step_dog h with e | ⟨e, -⟩ | ⟨e, -⟩
    · exact hm e
    · rw [hd] at e; cases e
    · rw [hd] at e; cases e
  · rw [hd] at hm; cases hm

/-- The watchdog ends and stays so. -/
theorem dog_stops (h : Forever dbg tr role timeout created spawned σ) (ht : TimeGoesOn σ)
    (hf : DogGoesOn σ) : ∃ n, ∀ k, n ≤ k → (σ k).dog = .stopped := by
  have stays : ∀ {n k}, n ≤ k → (σ n).dog = .stopped → (σ k).dog = .stopped := by
    intro n k hk hd
    induction k, hk using Nat.le_induction with
    | base => exact hd
    | succ k _ ih =>
      rcases h.follows k with hs | e
      · rcases step_dog hs with e | ⟨e, -⟩ | ⟨e, -⟩
        · rw [e]; exact ih
        · rw [ih] at e; cases e
        · rw [ih] at e; cases e
      · rw [e]; exact ih
  suffices hs : ∃ n, (σ n).dog = .stopped by
    obtain ⟨n, hn⟩ := hs
    exact ⟨n, fun k hk => stays hk hn⟩
  by_contra hno
  have hno : ∀ n, (σ n).dog ≠ .stopped := fun n e => hno ⟨n, e⟩
  obtain ⟨n, hn⟩ := ht (max spawned (created + timeout) + timeout + 1)
  have late : ∀ k, n ≤ k → max spawned (created + timeout) + timeout + 1 ≤ (σ k).clock :=
    fun k hk => Nat.le_trans hn (forever_clock h hk)
  have ready : ∀ k, n ≤ k → DogReady (σ k) := by
    intro k hk
    have inv := sysInv (forever_reachable h k)
    cases hd : (σ k).dog with
    | sleeping =>
      have := inv.due hd
      have := late k hk
      refine .inl ⟨hd, ?_⟩
      rw [inv.timeout]
      omega
    | timedOut => exact .inr hd
    | stopped => exact absurd hd (hno k)
  -- each time it is scheduled it goes on
  have goes : ∀ j, n ≤ j → ∃ k, j ≤ k ∧ (σ (k + 1)).dog ≠ (σ k).dog := by
    intro j hj
    obtain ⟨k, hk, hm⟩ := hf j fun k hk => ready k (Nat.le_trans hj hk)
    refine ⟨k, hk, ?_⟩
    rcases hm with hm | ⟨h1, h2⟩
    · exact hm
    · intro e
      have := (sysInv (forever_reachable h (k + 1))).due (e.trans h1)
      have := late k (by omega)
      omega
  have move : ∀ k, (σ (k + 1)).dog ≠ (σ k).dog →
      (σ k).dog = .sleeping ∧ (σ (k + 1)).dog = .timedOut := by
    intro k hk
    rcases h.follows k with hs | e
    · rcases step_dog hs with e | e | ⟨-, e⟩
      · exact absurd e hk
      · exact e
      · exact absurd e (hno _)
    · exact absurd (congrArg System.dog e) hk
  obtain ⟨k, hk, g⟩ := goes n (Nat.le_refl _)
  obtain ⟨-, e1⟩ := move k g
  have awake : ∀ j, k + 1 ≤ j → (σ j).dog = .timedOut := by
    intro j hj
    induction j, hj using Nat.le_induction with
    | base => exact e1
    | succ j _ ih =>
      by_cases e : (σ (j + 1)).dog = (σ j).dog
      · rw [e]; exact ih
      · exact (move j e).2
  obtain ⟨j, hj, g⟩ := goes (k + 1) (by omega)
  have := (move j g).1
  rw [awake j hj] at this
  cases this

theorem call_goesOn {m : RSocketMachine} {τ : Nat → Conc} (h0 : τ 0 = Conc.init m)
    (h : Follows (ConcStep dbg tr) τ) {i : Nat} (hf : Scheduled dbg tr τ i) : GoesOn τ i :=
  fun n hn => hf n fun k hk => call_enabled (follows_reachable h0 h k) (hn k hk)

/-- A call that is under way can go on in the machine. -/
theorem request_enabled {s : System} (hr : Reachable dbg tr role timeout created spawned s) {i : Nat}
    (hu : UnderWay s.conc i) : ∃ s', Step dbg tr s s' ∧ Moves s.conc s'.conc i := by
  obtain ⟨c', hs, hm⟩ := call_enabled (sysInv hr).conc hu
  have hh : 0 < s.handles := by
    rcases Nat.eq_zero_or_pos s.handles with e | e
    · obtain ⟨c, hc, hrun⟩ := hu
      have := C75_calls_ended hr (.inl e) c (List.mem_of_getElem? hc)
      cases this <;> cases hrun
    · exact e
  have : ∃ new, c'.wire = s.conc.wire ++ new := by
    cases hs <;> first
      | exact ⟨_, rfl⟩
      | exact ⟨[], (List.append_nil _).symm⟩
  obtain ⟨new, hn⟩ := this
  exact ⟨_, .request s c' new hh hs hn, hm⟩

theorem request_goesOn (h : Forever dbg tr role timeout created spawned σ) {i : Nat}
    (hf : CallScheduled dbg tr σ i) : GoesOn (fun n => (σ n).conc) i :=
  fun n hn => hf n fun k hk => request_enabled (forever_reachable h k) (hn k hk)

theorem goesOn_ended {m : RSocketMachine} {τ : Nat → Conc} (h0 : τ 0 = Conc.init m)
    (h : Follows (ConcStep dbg tr) τ) (hr : ∀ n x, (τ n).machine.receivers x = false) {i : Nat}
    (hf : GoesOn τ i) {n : Nat} {c : Call} (hi : (τ n).calls[i]? = some c) :
    ∃ k c', n ≤ k ∧ (τ k).calls[i]? = some c' ∧ Ended c' := by
  obtain ⟨k, c', h1, h2, h3⟩ := returns_unused h0 h hr hf hi
  refine ⟨k, c', h1, h2, ?_⟩
  cases c' with
  | done p x r => exact .returned p x r
  | panicked p => exact .panicked p
  | _ => cases h3

theorem goesOn_ended_keys {m : RSocketMachine} {τ : Nat → Conc} (h0 : τ 0 = Conc.init m)
    (h : Follows (ConcStep dbg tr) τ) {keys : List U32}
    (hr : ∀ n x, (τ n).machine.receivers x = true → x ∈ keys)
    (hl : ∀ n, (τ n).calls.length + keys.length ≤ 2 ^ 30) {i : Nat} (hf : GoesOn τ i) {n : Nat}
    {c : Call} (hi : (τ n).calls[i]? = some c) :
    ∃ k c', n ≤ k ∧ (τ k).calls[i]? = some c' ∧ Ended c' := by
  obtain ⟨k, c', h1, h2, h3⟩ := returns_keys h0 h hr hl hf hi
  refine ⟨k, c', h1, h2, ?_⟩
  cases c' with
  | done p x r => exact .returned p x r
  | panicked p => exact .panicked p
  | _ => cases h3

theorem goesOn_closes (h : Forever dbg tr role timeout created spawned σ) (ht : TimeGoesOn σ)
    (hf : DogGoesOn σ) :
    ∃ n, ∀ k, n ≤ k → (σ k).dog = .stopped ∧ closesOf (σ k).happened = (σ k).userCloses + 1 := by
  obtain ⟨n, hn⟩ := dog_stops h ht hf
  refine ⟨n, fun k hk => ⟨hn k hk, ?_⟩⟩
  rw [(sysInv (forever_reachable h k)).closes, hn k hk]
  rfl

theorem goesOn_request (h : Forever dbg tr role timeout created spawned σ)
    (hr : (∀ n x, (σ n).conc.machine.receivers x = false) ∨ ∃ keys : List U32,
      (∀ n x, (σ n).conc.machine.receivers x = true → x ∈ keys) ∧
      ∀ n, (σ n).conc.calls.length + keys.length ≤ 2 ^ 30) {i : Nat}
    (hf : GoesOn (fun n => (σ n).conc) i) {n : Nat} {c : Call}
    (hi : (σ n).conc.calls[i]? = some c) :
    ∃ k sid r, n ≤ k ∧ (σ k).conc.calls[i]? = some (.done (callPayload c) sid r) ∧
      fnfFrame sid false (callPayload c) ∈ framesOf (σ k).happened := by
  have hc := forever_conc h
  have h0 : (σ 0).conc = Conc.init (RSocketMachine.new role timeout created) := by rw [h.start]; rfl
  obtain ⟨k, c', h1, h2, h3⟩ : ∃ k c', n ≤ k ∧ (σ k).conc.calls[i]? = some c' ∧ Ended c' := by
    rcases hr with hr | ⟨keys, hr, hl⟩
    · exact goesOn_ended h0 hc hr hf hi
    · exact goesOn_ended_keys h0 hc hr hl hf hi
  have inv := sysInv (forever_reachable h k)
  obtain ⟨c'', e, hp⟩ := call_stays hc h1 hi
  have h2 : (σ k).conc.calls[i]? = some c' := h2
  have e : (σ k).conc.calls[i]? = some c'' := e
  rw [h2] at e
  cases e
  obtain ⟨log, own⟩ := ownInv inv.conc
  have hok := own.call i _ h2
  have hfr := inv.frames
  cases h3 with
  | panicked p => exact absurd hok.1 nofun
  | returned p sid r =>
    have hp : p = callPayload c := hp
    subst hp
    refine ⟨k, sid, r, h1, h2, hfr ▸ own_subset own i ?_⟩
    cases r with
    | ok u => rw [hok.2.1]; exact List.mem_singleton.2 rfl
    | error e =>
      obtain ⟨-, j, e', -⟩ := hok
      rw [e']
      exact List.mem_cons_self

theorem goesOn_released (h : Forever dbg tr role timeout created spawned σ) (ht : TimeGoesOn σ)
    (hf : DogGoesOn σ) (hd : ∃ n, (σ n).handles = 0) (hl : ∃ n, (σ n).listening = false) :
    ∃ n, ∀ k, n ≤ k → (σ k).released = true := by
  obtain ⟨a, ha⟩ := hd
  obtain ⟨b, hb⟩ := hl
  obtain ⟨d, hd⟩ := dog_stops h ht hf
  have deaf : ∀ k, b ≤ k → (σ k).listening = false := by
    intro k hk
    induction k, hk using Nat.le_induction with
    | base => exact hb
    | succ k _ ih =>
      rcases h.follows k with hs | e
      · generalize σ (k + 1) = s' at hs ⊢
        cases hs with
        | statusEnd => rfl
        | _ => exact ih
      · rw [e]; exact ih
  refine ⟨max a (max b d), fun k hk => (C75_released_iff (forever_reachable h k)).2 ⟨?_, ?_, ?_⟩⟩
  · exact (systemSteps_unowned (forever_steps h (n := a) (by omega)) ha).1
  · exact deaf k (by omega)
  · exact hd k (by omega)

end Binate
