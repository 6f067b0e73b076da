import Verif.Lemmas.Ascending
import Verif.Props.Conc

/-! # Stream ids on the wire

C103. The protocol numbers the streams of one side in the order in which they are opened: each new
stream has a higher id than the streams before it. The ids are drawn in that order, but a call may be
overtaken between drawing its id and sending its first frame. -/

namespace Binate

open Spec RSocketMachine

/-- A new client with this id counter, for the examples. -/
abbrev exampleClient (w : U32) : RSocketMachine :=
  { RSocketMachine.new .client 60 0 with streamId := ⟨w⟩ }

/-- **C103, refuted as stated.** Two calls on a new client: the peer sees stream 3 before
stream 1. -/
theorem C103_ascending_false : ∃ s, ConcReachable true openTransport (RSocketMachine.new .client 60 0) s ∧
    s.draws = 2 ∧ streamIds s.wire = [3, 1] ∧
    s.calls.map callResult = [some (.ok ()), some (.ok ())] := by
  let a : Payload := ⟨none, some [1#8]⟩
  let R := ConcReachable true openTransport (RSocketMachine.new .client 60 0)
  have via : ∀ {s s' s'' : Conc}, R s → ConcStep true openTransport s s' → s' = s'' → R s'' :=
    fun r h e => e ▸ r.step h
  let q : List Asked := [.fireAndForget a, .fireAndForget a]
  have r1 : R ⟨exampleClient 1#32, [.probing a], 0, [], [.fireAndForget a]⟩ := ConcReachable.init.step (.call _ a)
  have r2 : R ⟨exampleClient 1#32, [.probing a, .probing a], 0, [], q⟩ := r1.step (.call _ a)
  have r3 : R ⟨exampleClient 3#32, [.checking a 1#32, .probing a], 1, [], q⟩ :=
    via r2 (.fetch _ 0 a rfl) (by simp only [Conc.set]; rfl)
  have r4 : R ⟨exampleClient 5#32, [.checking a 1#32, .checking a 3#32], 2, [], q⟩ :=
    via r3 (.fetch _ 1 a rfl) (by simp only [Conc.set]; rfl)
  have r5 : R ⟨exampleClient 5#32, [.checking a 1#32, .sendingOne a 3#32], 2, [], q⟩ :=
    r4.step (.checkFree _ 1 a 3#32 rfl rfl)
  have r6 : R ⟨exampleClient 5#32, [.sendingOne a 1#32, .sendingOne a 3#32], 2, [], q⟩ :=
    r5.step (.checkFree _ 0 a 1#32 rfl rfl)
  have r7 : R ⟨exampleClient 5#32, [.sendingOne a 1#32, .done a 3#32 (.ok ())], 2,
      [fnfFrame 3#32 false a], q⟩ :=
    r6.step (.sendOne _ 1 a 3#32 ⟨3#32, ⟨0#16⟩, a⟩ rfl rfl)
  have r8 : R ⟨exampleClient 5#32, [.done a 1#32 (.ok ()), .done a 3#32 (.ok ())], 2,
      [fnfFrame 3#32 false a, fnfFrame 1#32 false a], q⟩ :=
    r7.step (.sendOne _ 0 a 1#32 ⟨1#32, ⟨0#16⟩, a⟩ rfl rfl)
  exact ⟨_, r8, rfl, rfl, rfl⟩

/-- **C103.** Whatever happened before a state `s` and whatever happens after it: a request frame
that is sent after `s` either carries an id that was drawn after `s` (the `n`-th id of the machine
for an `n` that was not yet drawn in `s`) or the id of a call that was in progress in `s` and had
drawn it already. Holds for any number of draws. -/
theorem C103_late {dbg : Bool} {tr : Transport} {m : RSocketMachine} {s s' : Conc}
    (h : ConcReachable dbg tr m s) (h' : ConcSteps dbg tr s s') :
    ∃ ext, s'.wire = s.wire ++ ext ∧ ∀ k ∈ streamIds ext,
      (∃ n, s.draws ≤ n ∧ n < s'.draws ∧ k = idAt m.streamId.word.toNat n) ∨
        ∃ (i : Nat) (sid : U32), inProgress s i = true ∧ drawnId s i = some sid ∧ sid.toNat = k := by
  obtain ⟨ext, inv⟩ := sinceInv h h'
  exact ⟨ext, inv.wire, inv.sent⟩

/-- **C103, what holds of ids.** While the counter has not wrapped around, a call that draws its id
after another call has drawn its own gets the higher one. -/
theorem C103_drawn_partial {dbg : Bool} {tr : Transport} {m : RSocketMachine} {s s' : Conc}
    (h : ConcReachable dbg tr m s) (h' : ConcSteps dbg tr s s')
    (nowrap : m.streamId.word.toNat + 2 * s'.draws ≤ 2 ^ 31) {i j : Nat} {a b : U32}
    (hi : drawnId s i = some a) (hj : drawnId s j = none) (hj' : drawnId s' j = some b) :
    a.toNat < b.toNat := by
  obtain ⟨ext, inv⟩ := sinceInv h h'
  cases hc : s.calls[i]? with
  | none => rw [drawnId, hc] at hi; cases hi
  | some c =>
    rw [drawnId_some hc] at hi
    obtain ⟨n, h1, h2⟩ := (bornInv h).ids i c a hc hi
    rcases inv.ids j b hj' with ⟨k, h3, h4, h5⟩ | h3
    · rw [h2, h5]
      exact idAt_mono nowrap (by omega) h4
    · rw [hj] at h3
      cases h3

/-- **C103, what holds of the wire.** While the counter has not wrapped around, a frame can only
follow a frame with a higher id when its call was in progress, with its id, when that other frame
was already sent. -/
theorem C103_overlap_partial {dbg : Bool} {tr : Transport} {m : RSocketMachine} {s s' : Conc}
    (h : ConcReachable dbg tr m s) (h' : ConcSteps dbg tr s s')
    (nowrap : m.streamId.word.toNat + 2 * s'.draws ≤ 2 ^ 31) {a b : Nat}
    (ha : a ∈ streamIds s.wire) (hb : b ∈ streamIds (s'.wire.drop s.wire.length)) (hlt : b < a) :
    ∃ (i : Nat) (sid : U32), inProgress s i = true ∧ drawnId s i = some sid ∧ sid.toNat = b := by
  obtain ⟨ext, inv⟩ := sinceInv h h'
  rw [inv.wire, List.drop_left] at hb
  rcases inv.sent b hb with ⟨n, h1, h2, h3⟩ | h1
  · obtain ⟨k, h4, h5⟩ := (bornInv h).wire a ha
    have := idAt_mono nowrap (show k < n by omega) h2
    omega
  · exact h1

/-- **C103, what holds of the wire.** At a moment without a call in progress: everything sent after
it has a higher id than everything sent before. -/
theorem C103_quiet_partial {dbg : Bool} {tr : Transport} {m : RSocketMachine} {s s' : Conc}
    (h : ConcReachable dbg tr m s) (h' : ConcSteps dbg tr s s')
    (nowrap : m.streamId.word.toNat + 2 * s'.draws ≤ 2 ^ 31) (quiet : ∀ i, inProgress s i = false)
    {a b : Nat} (ha : a ∈ streamIds s.wire) (hb : b ∈ streamIds (s'.wire.drop s.wire.length)) :
    a < b := by
  obtain ⟨ext, inv⟩ := sinceInv h h'
  rw [inv.wire, List.drop_left] at hb
  rcases inv.sent b hb with ⟨n, h1, h2, h3⟩ | ⟨i, sid, h1, -⟩
  · obtain ⟨k, h4, h5⟩ := (bornInv h).wire a ha
    rw [h5, h3]
    exact idAt_mono nowrap (by omega) h2
  · rw [quiet i] at h1
    cases h1

/-- **C103, what holds of callers that take turns.** When an id is only drawn while no other call in
progress has one, the ids on the wire never go down until the counter wraps around. -/
theorem C103_turns_partial {dbg : Bool} {tr : Transport} {m : RSocketMachine} {s : Conc}
    (h : Sequential dbg tr m s) (nowrap : m.streamId.word.toNat + 2 * s.draws ≤ 2 ^ 31) :
    (streamIds s.wire).Pairwise (· ≤ ·) := (loneInv h).sorted nowrap

/-- The hypotheses of all of these hold together: two calls that take turns, with a moment of quiet
between them. -/
example : ∃ s s', Sequential true openTransport (RSocketMachine.new .client 60 0) s ∧
    ConcSteps true openTransport s s' ∧
    Sequential true openTransport (RSocketMachine.new .client 60 0) s' ∧
    (RSocketMachine.new .client 60 0).streamId.word.toNat + 2 * s'.draws ≤ 2 ^ 31 ∧
    (∀ i, inProgress s i = false) ∧ streamIds s.wire = [1] ∧
    streamIds (s'.wire.drop s.wire.length) = [3] ∧
    drawnId s 0 = some 1#32 ∧ drawnId s 1 = none ∧ drawnId s' 1 = some 3#32 := by
  let a : Payload := ⟨none, some [1#8]⟩
  let R := Sequential true openTransport (RSocketMachine.new .client 60 0)
  let q : List Asked := [.fireAndForget a, .fireAndForget a]
  have fr : ∀ i : Nat, drawnId ⟨exampleClient 3#32, [.done a 1#32 (.ok ()), .probing a], 1,
      [fnfFrame 1#32 false a], q⟩ i = none ∨ i = 0 := by
    intro i
    rcases i with _ | _ | i
    · exact .inr rfl
    · exact .inl rfl
    · exact .inl rfl
  let s1 : Conc := ⟨exampleClient 1#32, [.probing a], 0, [], [.fireAndForget a]⟩
  let s2 : Conc := ⟨exampleClient 3#32, [.checking a 1#32], 1, [], [.fireAndForget a]⟩
  let s3 : Conc := ⟨exampleClient 3#32, [.sendingOne a 1#32], 1, [], [.fireAndForget a]⟩
  let s4 : Conc := ⟨exampleClient 3#32, [.done a 1#32 (.ok ())], 1, [fnfFrame 1#32 false a], [.fireAndForget a]⟩
  let s5 : Conc := ⟨exampleClient 3#32, [.done a 1#32 (.ok ()), .probing a], 1, [fnfFrame 1#32 false a], q⟩
  let s6 : Conc := ⟨exampleClient 5#32, [.done a 1#32 (.ok ()), .checking a 3#32], 2,
    [fnfFrame 1#32 false a], q⟩
  let s7 : Conc := ⟨exampleClient 5#32, [.done a 1#32 (.ok ()), .sendingOne a 3#32], 2,
    [fnfFrame 1#32 false a], q⟩
  let s8 : Conc := ⟨exampleClient 5#32, [.done a 1#32 (.ok ()), .done a 3#32 (.ok ())], 2,
    [fnfFrame 1#32 false a, fnfFrame 3#32 false a], q⟩
  have alike : ∀ {s s' s'' : Conc}, ConcStep true openTransport s s' → s' = s'' →
      ConcStep true openTransport s s'' := fun h e => e ▸ h
  have e12 : ConcStep true openTransport s1 s2 := by
    refine alike (ConcStep.fetch s1 0 a rfl) ?_
    simp only [Conc.set, s1, s2]
    rfl
  have e56 : ConcStep true openTransport s5 s6 := by
    refine alike (ConcStep.fetch s5 1 a rfl) ?_
    simp only [Conc.set, s5, s6]
    rfl
  have e23 : ConcStep true openTransport s2 s3 := ConcStep.checkFree s2 0 a 1#32 rfl rfl
  have e34 : ConcStep true openTransport s3 s4 := ConcStep.sendOne s3 0 a 1#32 ⟨1#32, ⟨0#16⟩, a⟩ rfl rfl
  have e45 : ConcStep true openTransport s4 s5 := ConcStep.call s4 a
  have e67 : ConcStep true openTransport s6 s7 := ConcStep.checkFree s6 1 a 3#32 rfl rfl
  have e78 : ConcStep true openTransport s7 s8 := ConcStep.sendOne s7 1 a 3#32 ⟨3#32, ⟨0#16⟩, a⟩ rfl rfl
  have r1 : R s1 := Sequential.init.step (.call _ a) (.inl rfl)
  have r2 : R s2 := r1.step e12 (.inr fun i _ _ => by
    rcases i with _ | i <;> rfl)
  have r4 : R s4 := (r2.step e23 (.inl rfl)).step e34 (.inl rfl)
  have r5 : R s5 := r4.step e45 (.inl rfl)
  have r6 : R s6 := r5.step e56 (.inr fun i h _ => by
    rcases fr i with h' | rfl
    · exact h'
    · cases h)
  have r8 : R s8 := (r6.step e67 (.inl rfl)).step e78 (.inl rfl)
  refine ⟨s4, s8, r4, .step (.step (.step (.step (.refl s4) e45) e56) e67) e78, r8, by decide, ?_,
    rfl, rfl, rfl, rfl, rfl⟩
  intro i
  rcases i with _ | i <;> rfl

/-- The hypotheses of `C103_overlap_partial` hold together. -/
example : ∃ s s', ConcReachable true openTransport (RSocketMachine.new .client 60 0) s ∧
    ConcSteps true openTransport s s' ∧
    (RSocketMachine.new .client 60 0).streamId.word.toNat + 2 * s'.draws ≤ 2 ^ 31 ∧
    3 ∈ streamIds s.wire ∧ 1 ∈ streamIds (s'.wire.drop s.wire.length) := by
  let a : Payload := ⟨none, some [1#8]⟩
  let R := ConcReachable true openTransport (RSocketMachine.new .client 60 0)
  have via : ∀ {s s' s'' : Conc}, R s → ConcStep true openTransport s s' → s' = s'' → R s'' :=
    fun r h e => e ▸ r.step h
  let q : List Asked := [.fireAndForget a, .fireAndForget a]
  have r2 : R ⟨exampleClient 1#32, [.probing a, .probing a], 0, [], q⟩ :=
    (ConcReachable.init.step (.call _ a)).step (.call _ a)
  have r3 : R ⟨exampleClient 3#32, [.checking a 1#32, .probing a], 1, [], q⟩ :=
    via r2 (.fetch _ 0 a rfl) (by simp only [Conc.set]; rfl)
  have r4 : R ⟨exampleClient 5#32, [.checking a 1#32, .checking a 3#32], 2, [], q⟩ :=
    via r3 (.fetch _ 1 a rfl) (by simp only [Conc.set]; rfl)
  have r5 : R ⟨exampleClient 5#32, [.checking a 1#32, .sendingOne a 3#32], 2, [], q⟩ :=
    r4.step (.checkFree _ 1 a 3#32 rfl rfl)
  have r6 : R ⟨exampleClient 5#32, [.sendingOne a 1#32, .sendingOne a 3#32], 2, [], q⟩ :=
    r5.step (.checkFree _ 0 a 1#32 rfl rfl)
  have r7 : R ⟨exampleClient 5#32, [.sendingOne a 1#32, .done a 3#32 (.ok ())], 2,
      [fnfFrame 3#32 false a], q⟩ :=
    r6.step (.sendOne _ 1 a 3#32 ⟨3#32, ⟨0#16⟩, a⟩ rfl rfl)
  exact ⟨_, _, r7, .step (.refl _) (.sendOne _ 0 a 1#32 ⟨1#32, ⟨0#16⟩, a⟩ rfl rfl), by decide,
    List.mem_singleton.2 rfl, List.mem_singleton.2 rfl⟩

end Binate
