import Verif.Lemmas.Live
import Verif.Lemmas.StormLive
import Verif.Spec.Progress

/-! # Helper lemmas on requests as a whole -/

namespace Binate

open Spec RSocketMachine StreamIdProvider PayloadChunks

variable {dbg : Bool} {tr : Transport}

/-- The call has an id, or has drawn one that is not `used`. -/
def Past (used : U32 → Prop) : Call → Prop
  | .probing _ => False
  | .checking _ sid => ¬ used sid
  | _ => True

theorem past_afterId (used : U32 → Prop) (m : RSocketMachine) (p : Payload) (sid : U32) :
    Past used (afterId m p sid) := by
  unfold afterId
  split
  · split <;> trivial
  · trivial

/-- Such a call stays where it is or has less to do. -/
theorem step_past {m : RSocketMachine} {s s' : Conc} (h : ConcReachable dbg tr m s)
    (hs : ConcStep dbg tr s s') {used : U32 → Prop} (hr : ∀ x, s.machine.receivers x = true → used x)
    {i : Nat} {c : Call} (hi : s.calls[i]? = some c) (hp : Past used c) :
    ∃ c', s'.calls[i]? = some c' ∧ Past used c' ∧
      (c' = c ∨ stepsLeft m.chunkPayload c' < stepsLeft m.chunkPayload c) := by
  have upd : ∀ {j : Nat} {a b : Call}, s.calls[j]? = some a →
      (Past used a → Past used b ∧ stepsLeft m.chunkPayload b < stepsLeft m.chunkPayload a) →
      ∃ c', (s.calls.set j b)[i]? = some c' ∧ Past used c' ∧
        (c' = c ∨ stepsLeft m.chunkPayload c' < stepsLeft m.chunkPayload c) := by
    intro j a b hj hl
    by_cases e : j = i
    · subst e
      rw [hj] at hi
      cases hi
      obtain ⟨h1, h2⟩ := hl hp
      exact ⟨b, List.getElem?_set_self' .. |>.trans (by rw [hj]; rfl), h1, .inr h2⟩
    · exact ⟨c, (List.getElem?_set_ne e).trans hi, hp, .inl rfl⟩
  have inv := freeInv h
  cases hs with
  | call p =>
    refine ⟨c, ?_, hp, .inl rfl⟩
    rw [List.getElem?_append_left (List.getElem?_eq_some_iff.1 hi).1]
    exact hi
  | fetch j p hj => exact upd hj fun h => h.elim
  | checkUsed j p sid hj hu => exact upd hj fun h => absurd (hr sid hu) h
  | checkFree j p sid hj hu =>
    refine upd hj fun _ => ⟨past_afterId .., ?_⟩
    unfold afterId
    rw [inv.chunk]
    split
    · rename_i size e
      split <;> simp only [stepsLeft] <;> omega
    · simp only [stepsLeft]; omega
  | sendOne j p sid f hj hf => exact upd hj fun _ => ⟨trivial, by simp only [stepsLeft]; omega⟩
  | sendChunk j p sid idx n chunks chunks' ch f hj hn hf ha =>
    refine upd hj fun _ => ⟨trivial, ?_⟩
    obtain ⟨w, size, h1, h2, h3, -⟩ := inv.call j _ hj
    have nn : (afterNext idx ⟨size, p.metadata, p.data⟩).next.1 =
        if idx < chunkCount size p then some (chunkAt size p idx) else none :=
      nth_next (c := ⟨size, p.metadata, p.data⟩) h2 idx
    rw [← h3, hn] at nn
    have : idx < chunkCount size p := by
      by_contra hlt
      rw [if_neg hlt] at nn
      cases nn
    simp only [stepsLeft, h1]
    omega
  | sendChunkErr j p sid idx n chunks chunks' ch f e hj hn hf ha =>
    exact upd hj fun _ => ⟨trivial, by simp only [stepsLeft]; omega⟩
  | finish j p sid idx n chunks chunks' hj hn =>
    exact upd hj fun _ => ⟨trivial, by simp only [stepsLeft]; omega⟩
  | push md => exact ⟨c, hi, hp, .inl rfl⟩
  | env r => exact ⟨c, hi, hp, .inl rfl⟩

section

variable {m : RSocketMachine} {σ : Nat → Conc} (h0 : σ 0 = Conc.init m)
  (h : Follows (ConcStep dbg tr) σ) {used : U32 → Prop} {N : Nat}
  (hr : ∀ n, N ≤ n → ∀ x, (σ n).machine.receivers x = true → used x)

include h0 h hr in
theorem follows_past {i n k : Nat} (hn : N ≤ n) (hk : n ≤ k) {c : Call} (hi : (σ n).calls[i]? = some c)
    (hp : Past used c) :
    ∃ c', (σ k).calls[i]? = some c' ∧ Past used c' ∧
      (c' = c ∨ stepsLeft m.chunkPayload c' < stepsLeft m.chunkPayload c) := by
  induction k, hk using Nat.le_induction with
  | base => exact ⟨c, hi, hp, .inl rfl⟩
  | succ k hk ih =>
    obtain ⟨c', h1, hp', h2⟩ := ih
    rcases h k with hs | e
    · obtain ⟨c'', h3, hp'', h4⟩ := step_past (follows_reachable h0 h k) hs (hr k (by omega)) h1 hp'
      refine ⟨c'', h3, hp'', ?_⟩
      rcases h4 with rfl | h4
      · exact h2
      · rcases h2 with rfl | h2
        · exact .inr h4
        · exact .inr (Nat.lt_trans h4 h2)
    · rw [e]
      exact ⟨c', h1, hp', h2⟩

include h0 h hr in
/-- Such a call ends. -/
theorem past_ends {i : Nat} (hf : GoesOn σ i) {n : Nat} (hn : N ≤ n) {c : Call} (hi : (σ n).calls[i]? = some c)
    (hp : Past used c) : ∃ k c', n ≤ k ∧ (σ k).calls[i]? = some c' ∧ running c' = false := by
  generalize hl : stepsLeft m.chunkPayload c = l
  induction l using Nat.strongRecOn generalizing n c with
  | ind l ih =>
    by_cases hu : ∀ k, n ≤ k → UnderWay (σ k) i
    · obtain ⟨k, hk, d, hd, hne⟩ := hf n hu
      obtain ⟨c', h1, hp', h2⟩ := follows_past h0 h hr hn hk hi hp
      obtain ⟨c'', h3, hp'', h4⟩ := follows_past h0 h hr (by omega) (Nat.le_succ k) h1 hp'
      rw [hd] at h1
      cases h1
      rcases h4 with rfl | h4
      · exact absurd h3 hne
      · have hlt : stepsLeft m.chunkPayload c'' < l := by
          rcases h2 with rfl | h2 <;> omega
        obtain ⟨k', e, g1, g2, g3⟩ := ih _ hlt (by omega) h3 hp'' rfl
        exact ⟨k', e, by omega, g2, g3⟩
    · obtain ⟨k, hk⟩ := not_forall.1 hu
      obtain ⟨hk, hk'⟩ := Classical.not_imp.1 hk
      obtain ⟨c', h1, -, -⟩ := follows_past h0 h hr hn hk hi hp
      refine ⟨k, c', hk, h1, ?_⟩
      cases hrun : running c' with
      | false => rfl
      | true => exact absurd ⟨c', h1, hrun⟩ hk'

end

/-- The first step after which a call has ended. -/
theorem first_end {σ : Nat → Conc} (h : Follows (ConcStep dbg tr) σ) {j n k : Nat} (hk : n ≤ k)
    {c c' : Call} (hi : (σ n).calls[j]? = some c) (hc : running c = true)
    (hi' : (σ k).calls[j]? = some c') (hc' : running c' = false) :
    ∃ k, n ≤ k ∧ ∃ c c', (σ k).calls[j]? = some c ∧ running c = true ∧
      (σ (k + 1)).calls[j]? = some c' ∧ running c' = false := by
  induction k, hk using Nat.le_induction generalizing c' with
  | base => rw [hi] at hi'; cases hi'; rw [hc] at hc'; cases hc'
  | succ k hk ih =>
    obtain ⟨d, hd, -⟩ := call_stays h hk hi
    cases hr : running d with
    | true => exact ⟨k, hk, d, c', hd, hr, hi', hc'⟩
    | false => exact ih hd hr

/-! ## Ids -/

theorem conc_word {m : RSocketMachine} {s : Conc} (h : ConcReachable dbg tr m s) :
    s.machine.streamId = after m.streamId s.draws := by
  induction h with
  | init => exact (after_zero _).symm
  | @step s s' _ hs ih =>
    cases hs with
    | fetch j p hj =>
      show s.machine.streamId.draw.2 = _
      rw [ih]
      exact (draw_after _ _).2
    | _ => exact ih

/-- How often a call that gets no id has gone round. -/
def rounds (s : Conc) (i : Nat) : Nat :=
  2 * s.draws + match s.calls[i]? with
    | some (.probing _) => 1
    | _ => 0

/-- A call that has not got an id. -/
def Seeking (s : Conc) (i : Nat) : Prop :=
  ∃ p, s.calls[i]? = some (.probing p) ∨ ∃ sid, s.calls[i]? = some (.checking p sid)

theorem rounds_eq {s : Conc} {i : Nat} : s.calls[i]? = none ∨ ∃ c, s.calls[i]? = some c ∧
    rounds s i = 2 * s.draws + (match c with | .probing _ => 1 | _ => 0) := by
  cases h : s.calls[i]? with
  | none => exact .inl rfl
  | some c =>
    refine .inr ⟨c, rfl, ?_⟩
    unfold rounds
    rw [h]
    cases c <;> rfl

theorem rounds_step {s s' : Conc} (hs : ConcStep dbg tr s s') {i : Nat} (ha : Seeking s i)
    (hb : Seeking s' i) :
    rounds s i ≤ rounds s' i ∧ (Moves s s' i → rounds s i < rounds s' i) := by
  have same : s'.calls[i]? = s.calls[i]? → s.draws ≤ s'.draws →
      rounds s i ≤ rounds s' i ∧ (Moves s s' i → rounds s i < rounds s' i) := by
    intro e hd
    refine ⟨?_, fun ⟨c, h1, h2⟩ => absurd (e.trans h1) h2⟩
    unfold rounds
    rw [e]
    omega
  have upd : ∀ {j : Nat} {a b : Call}, s.calls[j]? = some a → s'.calls = s.calls.set j b →
      s.draws ≤ s'.draws → (j = i → s'.calls[i]? = some b → rounds s i < rounds s' i) →
      rounds s i ≤ rounds s' i ∧ (Moves s s' i → rounds s i < rounds s' i) := by
    intro j a b hj he hd hl
    by_cases e : j = i
    · have := hl e (by subst e; rw [he]; exact List.getElem?_set_self' .. |>.trans (by rw [hj]; rfl))
      exact ⟨Nat.le_of_lt this, fun _ => this⟩
    · exact same (by rw [he]; exact List.getElem?_set_ne e) hd
  have bad : ∀ {b : Call}, s'.calls[i]? = some b → (∀ p, b ≠ .probing p) → (∀ p x, b ≠ .checking p x) →
      rounds s i < rounds s' i := by
    intro b hb' h1 h2
    obtain ⟨p, hp | ⟨x, hp⟩⟩ := hb <;> rw [hb'] at hp <;> cases hp
    · exact absurd rfl (h1 _)
    · exact absurd rfl (h2 _ _)
  cases hs with
  | call p =>
    refine same ?_ (Nat.le_refl _)
    obtain ⟨q, hq | ⟨x, hq⟩⟩ := ha <;>
      exact List.getElem?_append_left (List.getElem?_eq_some_iff.1 hq).1
  | fetch j p hj =>
    refine upd hj rfl (Nat.le_succ _) fun e hb' => ?_
    subst e
    unfold rounds
    rw [hj, hb']
    show 2 * s.draws + 1 < 2 * (s.draws + 1) + 0
    omega
  | checkUsed j p sid hj hu =>
    refine upd hj rfl (Nat.le_refl _) fun e hb' => ?_
    subst e
    unfold rounds
    rw [hj, hb']
    show 2 * s.draws + 0 < 2 * s.draws + 1
    omega
  | checkFree j p sid hj hu =>
    refine upd hj rfl (Nat.le_refl _) fun e hb' => bad hb' ?_ ?_
    · intro q e'
      have := past_afterId (fun _ => True) s.machine p sid
      rw [e'] at this
      exact this
    · unfold afterId
      split
      · split <;> exact nofun
      · exact nofun
  | sendOne j p sid f hj hf => exact upd hj rfl (Nat.le_refl _) fun _ hb' => bad hb' nofun nofun
  | sendChunk j p sid idx n chunks chunks' ch f hj hn hf ha =>
    exact upd hj rfl (Nat.le_refl _) fun _ hb' => bad hb' nofun nofun
  | sendChunkErr j p sid idx n chunks chunks' ch f e hj hn hf ha =>
    exact upd hj rfl (Nat.le_refl _) fun _ hb' => bad hb' nofun nofun
  | finish j p sid idx n chunks chunks' hj hn =>
    exact upd hj rfl (Nat.le_refl _) fun _ hb' => bad hb' nofun nofun
  | push md => exact same rfl (Nat.le_refl _)
  | env r => exact same rfl (Nat.le_refl _)

/-- An id of the machine is among any `2 ^ 30` that are drawn in a row. -/
theorem own_drawn {w : U32} {x : U32} (hx : OwnId w x) (d : Nat) :
    ∃ e, d ≤ e ∧ e < d + 2 ^ 30 ∧ BitVec.ofNat 32 (idAt w.toNat e) = x := by
  obtain ⟨h1, h2⟩ := hx
  have hw := w.isLt
  refine ⟨d + ((x.toNat + 2 ^ 31 - (w.toNat + 2 * d) % 2 ^ 31) % 2 ^ 31) / 2, Nat.le_add_right _ _, ?_, ?_⟩
  · omega
  · apply BitVec.eq_of_toNat_eq
    rw [BitVec.toNat_ofNat, Nat.mod_eq_of_lt (Nat.lt_trans (idAt_lt _ _) (by omega))]
    unfold idAt
    omega

/-- Every id that is drawn is one of the machine. -/
theorem own_idAt (w : U32) (e : Nat) : OwnId w (BitVec.ofNat 32 (idAt w.toNat e)) := by
  unfold OwnId
  rw [BitVec.toNat_ofNat, Nat.mod_eq_of_lt (Nat.lt_trans (idAt_lt _ _) (by omega))]
  refine ⟨idAt_lt _ _, ?_⟩
  unfold idAt
  omega

/-- Some call that is under way ends, if not this one. -/
theorem someone_ends {m : RSocketMachine} {σ : Nat → Conc} (h0 : σ 0 = Conc.init m)
    (h : Follows (ConcStep dbg tr) σ) {free : U32}
    (hl : OwnId m.streamId.word free) (hf : ∀ i, GoesOn σ i) {n i : Nat}
    (hfree : ∀ k, n ≤ k → (σ k).machine.receivers free = false) (hu : UnderWay (σ n) i) :
    ∃ j k : Nat, n ≤ k ∧ ∃ c c', (σ k).calls[j]? = some c ∧ running c = true ∧
      (σ (k + 1)).calls[j]? = some c' ∧ running c' = false := by
  by_contra hno
  let used : U32 → Prop := fun x => x ≠ free
  have hr : ∀ k, n ≤ k → ∀ x, (σ k).machine.receivers x = true → used x := by
    rintro k hk x hx rfl
    rw [hfree k hk] at hx
    cases hx
  have alive : ∀ {j k k' : Nat} {c c' : Call}, n ≤ k → k ≤ k' → (σ k).calls[j]? = some c →
      running c = true → (σ k').calls[j]? = some c' → running c' = true := by
    intro j k k' c c' hk hk' hc hrun hc'
    cases hr' : running c' with
    | true => rfl
    | false =>
      obtain ⟨k₁, h1, h2⟩ := first_end h hk' hc hrun hc' hr'
      exact absurd ⟨j, k₁, by omega, h2⟩ hno
  have notPast : ∀ {j k : Nat} {c : Call}, n ≤ k → (σ k).calls[j]? = some c → running c = true →
      ¬ Past used c := by
    intro j k c hk hc hrun hp
    obtain ⟨k', c', h1, h2, h3⟩ := past_ends h0 h hr (hf j) hk hc hp
    rw [alive hk h1 hc hrun h2] at h3
    cases h3
  obtain ⟨c, hc, hrun⟩ := hu
  have on : ∀ k, n ≤ k → UnderWay (σ k) i := by
    intro k hk
    obtain ⟨c', hc', -⟩ := call_stays h hk hc
    exact ⟨c', hc', alive (Nat.le_refl _) hk hc hrun hc'⟩
  have seeks : ∀ k, n ≤ k → Seeking (σ k) i := by
    intro k hk
    obtain ⟨c', hc', hr'⟩ := on k hk
    have := notPast hk hc' hr'
    cases c' with
    | probing p => exact ⟨p, .inl hc'⟩
    | checking p sid => exact ⟨p, .inr ⟨sid, hc'⟩⟩
    | done p x r => cases hr'
    | panicked p => cases hr'
    | _ => exact absurd trivial this
  have mono : ∀ {k k'}, n ≤ k → k ≤ k' → rounds (σ k) i ≤ rounds (σ k') i := by
    intro k k' hk hk'
    induction k', hk' using Nat.le_induction with
    | base => exact Nat.le_refl _
    | succ k' hk' ih =>
      rcases h k' with hs | e
      · exact Nat.le_trans ih (rounds_step hs (seeks _ (by omega)) (seeks _ (by omega))).1
      · rw [e]; exact ih
  have more : ∀ b, ∃ k, n ≤ k ∧ b ≤ rounds (σ k) i := by
    intro b
    induction b with
    | zero => exact ⟨n, Nat.le_refl _, Nat.zero_le _⟩
    | succ b ih =>
      obtain ⟨k, h1, h2⟩ := ih
      obtain ⟨k', h3, h4⟩ := hf i k fun j hj => on j (Nat.le_trans h1 hj)
      refine ⟨k' + 1, by omega, ?_⟩
      have h5 := mono h1 h3
      rcases h k' with hs | e
      · have := (rounds_step hs (seeks _ (by omega)) (seeks _ (by omega))).2 h4
        omega
      · obtain ⟨c, g1, g2⟩ := h4
        rw [e] at g2
        exact absurd g1 g2
  have inKeys : ∀ k, n ≤ k → ∀ e, (σ n).draws ≤ e → e < (σ k).draws →
      used (BitVec.ofNat 32 (idAt m.streamId.word.toNat e)) := by
    intro k hk
    induction k, hk using Nat.le_induction with
    | base => intro e h1 h2; omega
    | succ k hk ih =>
      intro e h1 h2
      rcases h k with hs | heq
      · by_cases hlt : e < (σ k).draws
        · exact ih e h1 hlt
        · have reach := follows_reachable h0 h k
          have hw := conc_word reach
          generalize hs' : σ (k + 1) = s' at hs h2
          cases hs with
          | fetch j p hj =>
            have hee : e = (σ k).draws := by
              have : e < (σ k).draws + 1 := h2
              omega
            subst hee
            have hg : (σ (k + 1)).calls[j]? = some (.checking p (σ k).machine.streamId.draw.1) := by
              rw [hs']
              exact List.getElem?_set_self' .. |>.trans (by rw [hj]; rfl)
            have := Classical.not_not.1 (notPast (by omega) hg rfl)
            have hid : (σ k).machine.streamId.draw.1 =
                BitVec.ofNat 32 (idAt m.streamId.word.toNat (σ k).draws) := by
              apply BitVec.eq_of_toNat_eq
              rw [hw, (draw_after _ _).1, BitVec.toNat_ofNat,
                Nat.mod_eq_of_lt (Nat.lt_trans (idAt_lt _ _) (by omega))]
            rw [← hid]
            exact this
          | _ => exact absurd h2 hlt
      · rw [heq] at h2
        exact ih e h1 h2
  have far : ∀ N, ∃ k, n ≤ k ∧ (σ n).draws + N ≤ (σ k).draws := by
    intro N
    obtain ⟨k, hk, hb⟩ := more (2 * ((σ n).draws + N) + 1)
    have : rounds (σ k) i ≤ 2 * (σ k).draws + 1 := by
      unfold rounds
      split <;> omega
    exact ⟨k, hk, by omega⟩
  obtain ⟨k, hk, hd⟩ := far (2 ^ 30)
  obtain ⟨e, h1, h2, h3⟩ := own_drawn hl (σ n).draws
  exact inKeys k hk e h1 (Nat.lt_of_lt_of_le h2 hd) h3

/-- The same, if the id is free only from some time on. -/
theorem someone_ends_later {m : RSocketMachine} {σ : Nat → Conc} (h0 : σ 0 = Conc.init m)
    (h : Follows (ConcStep dbg tr) σ) {free : U32} (hl : OwnId m.streamId.word free)
    (hf : ∀ i, GoesOn σ i) (hfree : ∃ N, ∀ k, N ≤ k → (σ k).machine.receivers free = false)
    {n i : Nat} (hu : UnderWay (σ n) i) :
    ∃ j k : Nat, n ≤ k ∧ ∃ c c', (σ k).calls[j]? = some c ∧ running c = true ∧
      (σ (k + 1)).calls[j]? = some c' ∧ running c' = false := by
  obtain ⟨N, hN⟩ := hfree
  obtain ⟨c, hc, hrun⟩ := hu
  obtain ⟨c', hc', -⟩ := call_stays h (Nat.le_max_left n N) hc
  cases hr : running c' with
  | true =>
    obtain ⟨j, k, hk, hj⟩ := someone_ends h0 h hl hf (n := max n N) (fun k hk => hN k (by omega))
      ⟨c', hc', hr⟩
    exact ⟨j, k, by omega, hj⟩
  | false =>
    obtain ⟨k, hk, hj⟩ := first_end h (Nat.le_max_left n N) hc hrun hc' hr
    exact ⟨i, k, hk, hj⟩

theorem ended_iff {c : Call} : Spec.Ended c ↔ running c = false := by
  constructor
  · intro h; cases h <;> rfl
  · intro h
    cases c with
    | done p x r => exact .returned p x r
    | panicked p => exact .panicked p
    | _ => cases h

theorem running_of {c : Call} (h : ¬ Spec.Ended c) : running c = true := by
  cases hr : running c with
  | true => rfl
  | false => exact absurd (ended_iff.2 hr) h

theorem ends_of {before after : List Call} {j : Nat} {c c' : Call} (h1 : before[j]? = some c)
    (h2 : running c = true) (h3 : after[j]? = some c') (h4 : running c' = false) :
    Ends before after j :=
  ⟨c, c', h1, fun e => absurd (h2.symm.trans (ended_iff.1 e)) nofun, h3, ended_iff.2 h4⟩

theorem wild_someone {tr : WildTransport} {m : RSocketMachine} {τ : Nat → WildConc}
    (h0 : τ 0 = WildConc.init m) (h : Follows (WildStep dbg tr) τ) {free : U32}
    (hl : OwnId m.streamId.word free) (hr : ∃ N, ∀ n, N ≤ n → (τ n).machine.receivers free = false)
    (hf : ∀ i, WildGoesOn τ i) {n i : Nat} {c : Call} (hi : (τ n).calls[i]? = some c)
    (hc : ¬ Spec.Ended c) : ∃ j k, n ≤ k ∧ Ends (τ k).calls (τ (k + 1)).calls j := by
  obtain ⟨ρ, r0, rf, ra⟩ := wild_follows (e := ⟨.io, none⟩) h0 h
  obtain ⟨d, hd, hs⟩ := alike_some (ra n) hi
  obtain ⟨j, k, hk, c, c', h1, h2, h3, h4⟩ := someone_ends_later r0 rf hl
    (fun i => wild_scheduled ra (hf i))
    (hr.imp fun N hN n hn => by rw [← (ra n).machine]; exact hN n hn)
    ⟨d, hd, (sameCall_running hs).symm.trans (running_of hc)⟩
  obtain ⟨e, he, hs1⟩ := alike_some_back (ra k) h1
  obtain ⟨e', he', hs2⟩ := alike_some_back (ra (k + 1)) h3
  exact ⟨j, k, hk, ends_of he ((sameCall_running hs1).trans h2) he' ((sameCall_running hs2).trans h4)⟩

end Binate
