import Verif.Lemmas.Order

/-! # Frames of calls that do not overlap

C100. Calls of `fire_and_forget` that overlap may interleave their frames (C57). A call that is made
after another one has returned sends all its frames after the frames of that one. -/

namespace Binate

open Spec RSocketMachine

/-- **C100.** From a state `s` on, only calls that are under way in `s` or made later put frames on
the wire: what explains the wire in `s` also explains the front of it later. -/
theorem C100_later {dbg : Bool} {tr : Transport} {m : RSocketMachine} {s s' : Conc}
    (h : ConcReachable dbg tr m s) (h' : ConcSteps dbg tr s s') (h0 : m.chunkPayload ≠ some 0) :
    ∃ log more, Explains dbg tr m s log ∧ Explains dbg tr m s' (log ++ more) ∧
      ∀ x ∈ more, ∀ i, x.owner = some i →
        s.calls.length ≤ i ∨ ∃ c, s.calls[i]? = some c ∧ running c = true := by
  obtain ⟨log, inv⟩ := ownInv h
  suffices hm : ∃ more, OwnInv tr m s' (log ++ more) ∧ ∀ x ∈ more, ∀ i, x.owner = some i →
      s.calls.length ≤ i ∨ ∃ c, s.calls[i]? = some c ∧ running c = true by
    obtain ⟨more, inv', hm⟩ := hm
    exact ⟨log, more, ownInv_explains inv h0, ownInv_explains inv' h0, hm⟩
  induction h' with
  | refl =>
    exact ⟨[], by rw [List.append_nil]; exact inv, fun x hx => absurd hx List.not_mem_nil⟩
  | @step s₁ s₂ hs₁ hs ih =>
    obtain ⟨more, inv', hm⟩ := ih
    obtain ⟨more', inv'', hm'⟩ := ownInv_step inv' hs
    refine ⟨more ++ more', by rw [← List.append_assoc]; exact inv'', ?_⟩
    intro x hx i hi
    rcases List.mem_append.1 hx with hx | hx
    · exact hm x hx i hi
    · obtain ⟨c', h1, h2⟩ := hm' x hx i hi
      by_cases hl : s.calls.length ≤ i
      · exact .inl hl
      · refine .inr ⟨s.calls[i]'(by omega), List.getElem?_eq_getElem _, ?_⟩
        obtain ⟨c'', h3, h4⟩ := steps_history hs₁ i _ (List.getElem?_eq_getElem (by omega))
        rw [h1] at h3
        cases h3
        cases hr : running (s.calls[i]'(by omega)) with
        | true => rfl
        | false =>
          rw [h4 hr, hr] at h2
          cases h2

/-- **C100.** Call `i` had returned (or panicked) in `s`, call `j` was made after `s`: on the wire no
frame of `j` is before a frame of `i`. -/
theorem C100_order {dbg : Bool} {tr : Transport} {m : RSocketMachine} {s s' : Conc}
    (h : ConcReachable dbg tr m s) (h' : ConcSteps dbg tr s s') (h0 : m.chunkPayload ≠ some 0)
    {i j : Nat} {c : Call} (hi : s.calls[i]? = some c) (hr : running c = false)
    (hj : s.calls.length ≤ j) :
    ∃ log, Explains dbg tr m s' log ∧
      ∀ front x mid y back, log = front ++ x :: mid ++ y :: back →
        ¬(x.owner = some j ∧ y.owner = some i) := by
  obtain ⟨log, more, e, e', hm⟩ := C100_later h h' h0
  refine ⟨_, e', ?_⟩
  rintro front x mid y back heq ⟨hx, hy⟩
  have hil : i < s.calls.length := by
    apply Nat.lt_of_not_le
    intro hle
    rw [List.getElem?_eq_none hle] at hi
    cases hi
  -- a frame of `j` is not in the old part, so everything after it is in the new part
  have hmem : y ∈ more := by
    rw [List.append_assoc, List.append_eq_append_iff] at heq
    rcases heq with ⟨a, h1, h2⟩ | ⟨a, h1, h2⟩
    · rw [h2]
      simp
    · cases a with
      | nil =>
        rw [List.nil_append] at h2
        rw [← h2]; simp
      | cons z a =>
        have hz := (List.cons.inj h2).1
        have := e.owners x (by rw [h1, hz]; simp) j hx
        omega
  rcases hm y hmem i hy with hl | ⟨c', h1, h2⟩
  · omega
  · rw [hi] at h1
    cases h1
    rw [hr] at h2
    cases h2

/-- **C100.** The same between the two methods: the METADATA_PUSH frame of a call that is made after
`s` comes after all frames of calls that had returned in `s`. -/
theorem C100_push {dbg : Bool} {tr : Transport} {m : RSocketMachine} {s s' : Conc}
    (h : ConcReachable dbg tr m s) (h' : ConcSteps dbg tr s s') (h0 : m.chunkPayload ≠ some 0) :
    ∃ log more, Explains dbg tr m s log ∧ Explains dbg tr m s' (log ++ more) ∧
      (∀ i c, s.calls[i]? = some c → running c = false → sentBy i more = []) ∧
      (∀ j, s.calls.length ≤ j → sentBy j log = []) ∧
      pushedBy log = (askedPushes s.asked).map (fun p => (.metadataPush ⟨p.1⟩, p.2)) ∧
      pushedBy more = ((askedPushes s'.asked).drop (askedPushes s.asked).length).map
        (fun p => (.metadataPush ⟨p.1⟩, p.2)) := by
  obtain ⟨log, more, e, e', hm⟩ := C100_later h h' h0
  refine ⟨log, more, e, e', ?_, ?_, e.pushes, ?_⟩
  · intro i c hi hr
    refine List.filter_eq_nil_iff.2 fun x hx ho => ?_
    rcases hm x hx i (beq_iff_eq.1 ho) with hl | ⟨c', h1, h2⟩
    · rw [List.getElem?_eq_none hl] at hi
      cases hi
    · rw [hi] at h1
      cases h1
      rw [hr] at h2
      cases h2
  · intro j hj
    refine List.filter_eq_nil_iff.2 fun x hx ho => ?_
    have := e.owners x hx j (beq_iff_eq.1 ho)
    omega
  · have h1 := e'.pushes
    have h2 : pushedBy (log ++ more) = pushedBy log ++ pushedBy more := by
      simp [pushedBy, List.filter_append]
    rw [h2, e.pushes] at h1
    rw [List.map_drop, ← h1, List.drop_left' (by simp)]

/-- A call that has returned, and one that is made afterwards and returns too. Calls that overlap may
interleave their frames: `exampleTwoCalls`. -/
example : ∃ s s', ConcReachable true openTransport (RSocketMachine.new .server 60 0) s ∧
    ConcSteps true openTransport s s' ∧ (RSocketMachine.new .server 60 0).chunkPayload ≠ some 0 ∧
    s.calls.map running = [false] ∧ s'.calls.map running = [false, false] ∧
    s'.wire = [fnfFrame 2#32 false ⟨none, some [7#8]⟩, fnfFrame 4#32 false ⟨none, some [8#8]⟩] := by
  let p : Payload := ⟨none, some [7#8]⟩
  let q : Payload := ⟨none, some [8#8]⟩
  let R := ConcReachable true openTransport (RSocketMachine.new .server 60 0)
  have via : ∀ {s s' s'' : Conc}, R s → ConcStep true openTransport s s' → s' = s'' → R s'' :=
    fun r h e => e ▸ r.step h
  have r1 : R ⟨exampleServer 2#32, [.probing p], 0, [], [.fireAndForget p]⟩ :=
    ConcReachable.init.step (.call _ p)
  have r2 : R ⟨exampleServer 4#32, [.checking p 2#32], 1, [], [.fireAndForget p]⟩ :=
    via r1 (.fetch _ 0 p rfl) (by simp only [Conc.set]; rfl)
  have r3 : R ⟨exampleServer 4#32, [.sendingOne p 2#32], 1, [], [.fireAndForget p]⟩ :=
    r2.step (.checkFree _ 0 p 2#32 rfl rfl)
  have r4 : R ⟨exampleServer 4#32, [.done p 2#32 (.ok ())], 1,
      [fnfFrame 2#32 false p], [.fireAndForget p]⟩ :=
    r3.step (.sendOne _ 0 p 2#32 ⟨2#32, ⟨0#16⟩, p⟩ rfl rfl)
  let s₀ : Conc := ⟨exampleServer 4#32, [.done p 2#32 (.ok ())], 1,
    [fnfFrame 2#32 false p], [.fireAndForget p]⟩
  let S := ConcSteps true openTransport s₀
  have via' : ∀ {s s' s'' : Conc}, S s → ConcStep true openTransport s s' → s' = s'' → S s'' :=
    fun r h e => e ▸ r.step h
  let a : List Asked := [.fireAndForget p, .fireAndForget q]
  have t1 : S ⟨exampleServer 4#32, [.done p 2#32 (.ok ()), .probing q], 1,
      [fnfFrame 2#32 false p], a⟩ := (ConcSteps.refl s₀).step (.call _ q)
  have t2 : S ⟨exampleServer 6#32, [.done p 2#32 (.ok ()), .checking q 4#32], 2,
      [fnfFrame 2#32 false p], a⟩ := via' t1 (.fetch _ 1 q rfl) (by simp only [Conc.set]; rfl)
  have t3 : S ⟨exampleServer 6#32, [.done p 2#32 (.ok ()), .sendingOne q 4#32], 2,
      [fnfFrame 2#32 false p], a⟩ := t2.step (.checkFree _ 1 q 4#32 rfl rfl)
  exact ⟨s₀, _, r4, t3.step (.sendOne _ 1 q 4#32 ⟨4#32, ⟨0#16⟩, q⟩ rfl rfl), nofun, rfl, rfl, rfl⟩

end Binate
