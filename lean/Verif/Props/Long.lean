import Verif.Lemmas.Long
import Verif.Props.Conc

/-! # Long-lived machines

C88. C57 is about machines that have drawn at most 2^30 ids since they were made. Here the machine may
have drawn any number of ids; what is bounded is how many are drawn while one call is in progress.
Without that bound two requests can be mixed up. -/

namespace Binate

open Spec PayloadChunks RSocketMachine

/-- **C88** (partial: as long as at most 2^30 ids are drawn while a call is in progress). What is sent
with the id of a call while that call has it is a prefix of exactly the frames that the same call would
send alone: all of them when it has returned `Ok`, at least one when it has returned an error. -/
theorem C88_own_frames_partial {dbg : Bool} {tr : Transport} {m : RSocketMachine} {s : Conc}
    {span : Nat → Span} (h : LongRun dbg tr m s span) (h0 : m.chunkPayload ≠ some 0)
    {i : Nat} {c : Call} (hi : s.calls[i]? = some c) {sid : U32} (hs : callId c = some sid) :
    ∃ frames, fnfSend dbg openTransport m.chunkPayload sid (callPayload c) [] =
        .ok (.ok (), frames) ∧
      during s span i sid <+: frames ∧
      (callResult c = some (.ok ()) → during s span i sid = frames) ∧
      (∀ e, callResult c = some (.error e) → during s span i sid ≠ []) ∧
      (PartOk (callPayload c).metadata → PartOk (callPayload c).data →
        frames = fnfFrames sid m.chunkPayload (callPayload c)) := by
  have inv := longInv h
  have hlt : sid.toNat < 2 ^ 31 := by
    rw [(inv.ids i c sid hi hs).2]
    exact idAt_lt _ _
  have hc := inv.call i c hi
  refine ⟨callFrames sid m.chunkPayload (callPayload c), ?_, ?_, ?_, ?_,
    fun h1 h2 => callFrames_exact h0 h1 h2⟩
  · rw [fnfSend_spec hlt h0, deliver_open, List.nil_append]
  · show onWire sid (seg s (span i)) <+: _
    cases c with
    | probing => cases hs
    | panicked => cases hs
    | checking p x =>
      cases hs
      have : onWire sid (seg s (span i)) = [] := hc
      rw [this]; exact List.nil_prefix
    | sendingOne p x =>
      cases hs
      have : onWire sid (seg s (span i)) = [] := hc.2
      rw [this]; exact List.nil_prefix
    | sending p x idx n chunks =>
      cases hs
      obtain ⟨-, -, -, -, -, -, e⟩ := hc
      rw [e]; exact List.take_prefix _ _
    | done p x r =>
      cases hs
      cases r with
      | ok u => rw [hc.2]; exact List.prefix_refl _
      | error e =>
        obtain ⟨-, k, -, -, e'⟩ := hc
        rw [e']; exact List.take_prefix _ _
  · intro hr
    cases c with
    | done p x r => cases hr; cases hs; exact hc.2
    | _ => cases hr
  · intro e hr
    cases c with
    | done p x r =>
      cases hr; cases hs
      obtain ⟨-, k, k0, k1, e'⟩ := hc
      show onWire sid (seg s (span i)) ≠ []
      rw [e']
      intro hnil
      have := congrArg List.length hnil
      rw [List.length_take, List.length_nil] at this
      have k1' : k ≤ (callFrames sid m.chunkPayload p).length := k1
      have : min k (callFrames sid m.chunkPayload p).length = 0 := this
      omega
    | _ => cases hr

/-- **C88** (partial, same condition): two calls in progress never have the same id. -/
theorem C88_distinct_partial {dbg : Bool} {tr : Transport} {m : RSocketMachine} {s : Conc}
    {span : Nat → Span} (h : LongRun dbg tr m s span) {i j : Nat} {c d : Call} {sid : U32}
    (hi : s.calls[i]? = some c) (hj : s.calls[j]? = some d) (hc : callId c = some sid)
    (hd : callId d = some sid) (hrc : running c = true) (hrd : running d = true) : i = j :=
  (longInv h).uniq hi hj hc hd hrc hrd

/-- **C88**: the condition holds of every execution with at most 2^30 draws in all, whatever its
calls do. -/
theorem C88_covers_short {dbg : Bool} {tr : Transport} {m : RSocketMachine} {s : Conc}
    (h : ConcReachable dbg tr m s) (hd : s.draws ≤ 2 ^ 30) :
    ∃ span, LongRun dbg tr m s span := by
  induction h with
  | init => exact ⟨fun _ => ⟨0, 0, 0⟩, .init⟩
  | @step s s' h hs ih =>
    have hle : s.draws ≤ s'.draws := by
      cases hs with
      | fetch i p hi => exact Nat.le_succ _
      | _ => exact Nat.le_refl _
    obtain ⟨span, r⟩ := ih (Nat.le_trans hle hd)
    obtain ⟨span', r', -⟩ := longRun_extend r hs fun _ _ _ => Nat.le_trans hd (Nat.le_add_left _ _)
    exact ⟨span', r'⟩

/-- **C88**: and of every execution of any length in which an id is only drawn while no other call in
progress has one. -/
theorem C88_covers_sequential {dbg : Bool} {tr : Transport} {m : RSocketMachine} {s : Conc}
    (h : Sequential dbg tr m s) : ∃ span, LongRun dbg tr m s span := by
  suffices ∃ span, LongRun dbg tr m s span ∧ ∀ i, inProgress s i = true → drawnId s i ≠ none →
      s.draws ≤ (span i).born + 1 by
    obtain ⟨span, r, -⟩ := this
    exact ⟨span, r⟩
  induction h with
  | init => exact ⟨fun _ => ⟨0, 0, 0⟩, .init, fun _ h => by cases h⟩
  | @step s s' h hs alone ih =>
    obtain ⟨span, r, old⟩ := ih
    have key : ∀ i, inProgress s' i = true → drawnId s' i ≠ none →
        s'.draws ≤ (if drawnId s i = none then s.draws else (span i).born) + 1 := by
      intro i h1 h2
      rcases alone with same | alone
      · rw [same]
        by_cases e : drawnId s i = none
        · rw [if_pos e]; omega
        · rw [if_neg e]
          refine old i ?_ e
          cases hc : s.calls[i]? with
          | none => rw [drawnId, hc] at e; exact absurd rfl e
          | some c =>
            rw [inProgress_some hc]
            cases hr : running c with
            | true => rfl
            | false =>
              rw [inProgress_some (step_ended hs hc hr), hr] at h1
              cases h1
      · rw [if_pos (alone i h1 h2)]
        exact step_draws hs
    obtain ⟨span', r', hb⟩ := longRun_extend r hs fun i h1 h2 =>
      Nat.le_trans (key i h1 h2) (by omega)
    exact ⟨span', r', fun i h1 h2 => by rw [hb]; exact key i h1 h2⟩

/-- The payload of call `a` below. -/
private abbrev pa : Payload := ⟨none, some [1#8, 2#8]⟩
/-- The payload of call `b` below. -/
private abbrev pb : Payload := ⟨none, some [3#8, 4#8]⟩
/-- One frame of a request with id 1. -/
private abbrev fr (b : Bool) (x : U8) : Frame := fnfFrame 1#32 b ⟨none, some [x]⟩

private theorem lenA : PayloadChunks.len ⟨1, none, some [1#8, 2#8]⟩ = 2 :=
  len_afterNext (c := ⟨1, none, some [1#8, 2#8]⟩) (by decide) 0 nofun nofun (by decide) (by decide)

private theorem lenB : PayloadChunks.len ⟨1, none, some [3#8, 4#8]⟩ = 2 :=
  len_afterNext (c := ⟨1, none, some [3#8, 4#8]⟩) (by decide) 0 nofun nofun (by decide) (by decide)

private theorem viaStep {m : RSocketMachine} {s s' s'' : Conc}
    (r : ConcReachable true openTransport m s) (h : ConcStep true openTransport s s')
    (e : s' = s'') : ConcReachable true openTransport m s'' := e ▸ r.step h

private theorem getLast' {a x : Call} {R : List Call} :
    (a :: (R ++ [x]))[R.length + 1]? = some x := by simp

private theorem setLast' {a x y : Call} {R : List Call} :
    (a :: (R ++ [x])).set (R.length + 1) y = a :: (R ++ [y]) := by simp

/-- A call with an empty payload draws one id and sends nothing. -/
private theorem idle {m : RSocketMachine} {w : U32} {a : Call} {R : List Call} {d : Nat}
    {wire : List Frame} {l : List Asked}
    (r : ConcReachable true openTransport m ⟨exampleMachine w, a :: R, d, wire, l⟩) :
    ∃ c l', ConcReachable true openTransport m
      ⟨exampleMachine (w + 2#32), a :: (R ++ [c]), d + 1, wire, l'⟩ := by
  let q : Payload := ⟨none, none⟩
  let l' : List Asked := l ++ [.fireAndForget q]
  let x := (⟨w⟩ : StreamIdProvider).draw.1
  have r1 := viaStep r (.call _ q)
    (s'' := ⟨exampleMachine w, a :: (R ++ [.probing q]), d, wire, l'⟩) rfl
  have r2 := viaStep r1 (.fetch _ (R.length + 1) q getLast')
    (s'' := ⟨exampleMachine (w + 2#32), a :: (R ++ [.checking q x]), d + 1, wire, l'⟩)
    (by simp only [Conc.set, setLast']; rfl)
  have r3 := viaStep r2 (.checkFree _ (R.length + 1) q x getLast' rfl)
    (s'' := ⟨exampleMachine (w + 2#32),
      a :: (R ++ [.sending q x 0 (PayloadChunks.len ⟨1, none, none⟩) ⟨1, none, none⟩]), d + 1,
      wire, l'⟩)
    (by simp only [Conc.set, setLast']; rfl)
  have r4 := viaStep r3 (.finish _ (R.length + 1) q x 0 _ _ ⟨1, none, none⟩ getLast' rfl)
    (s'' := ⟨exampleMachine (w + 2#32), a :: (R ++ [.done q x (.ok ())]), d + 1, wire, l'⟩)
    (by simp only [Conc.set, setLast'])
  exact ⟨_, _, r4⟩

/-- Call `a` has sent the first of its two frames and `n` more ids have been drawn. -/
private theorem stalled (n : Nat) : ∃ R l, ConcReachable true openTransport (fragmenting 1)
    ⟨exampleMachine (BitVec.ofNat 32 (3 + 2 * n)),
      .sending pa 1#32 1 2 ⟨1, none, some [2#8]⟩ :: R, n + 1, [fr true 1#8], l⟩ ∧ R.length = n := by
  induction n with
  | zero =>
    have r0 : ConcReachable true openTransport (fragmenting 1) ⟨exampleMachine 1#32, [], 0, [], []⟩ :=
      .init
    let l : List Asked := [.fireAndForget pa]
    have r1 := viaStep r0 (.call _ pa) (s'' := ⟨exampleMachine 1#32, [.probing pa], 0, [], l⟩) rfl
    have r2 := viaStep r1 (.fetch _ 0 pa rfl)
      (s'' := ⟨exampleMachine 3#32, [.checking pa 1#32], 1, [], l⟩) (by simp only [Conc.set]; rfl)
    have r3 := viaStep r2 (.checkFree _ 0 pa 1#32 rfl rfl)
      (s'' := ⟨exampleMachine 3#32, [.sending pa 1#32 0 2 ⟨1, none, pa.data⟩], 1, [], l⟩)
      (by rw [← lenA]; rfl)
    have r4 := viaStep r3 (.sendChunk _ 0 pa 1#32 0 2 _ ⟨1, none, some [2#8]⟩
      ⟨none, some [1#8]⟩ ⟨1#32, ⟨0x40#16⟩, ⟨none, some [1#8]⟩⟩ rfl rfl rfl rfl)
      (s'' := ⟨exampleMachine 3#32, [.sending pa 1#32 1 2 ⟨1, none, some [2#8]⟩], 1,
        [fr true 1#8], l⟩) rfl
    exact ⟨[], l, r4, rfl⟩
  | succ n ih =>
    obtain ⟨R, l, r, hl⟩ := ih
    obtain ⟨c, l', r'⟩ := idle r
    refine ⟨R ++ [c], l', ?_, by rw [List.length_append, hl]; rfl⟩
    have e : BitVec.ofNat 32 (3 + 2 * n) + 2#32 = BitVec.ofNat 32 (3 + 2 * (n + 1)) := by
      apply BitVec.eq_of_toNat_eq
      rw [BitVec.toNat_add, BitVec.toNat_ofNat, BitVec.toNat_ofNat, BitVec.toNat_ofNat]
      omega
    rw [e] at r'
    exact r'

/-- **C88**, refuted without the condition: a request may be in progress while 2^30 further ids are
drawn, and then another request with the same id is sent in the midst of it. Both return `Ok`. The
peer receives, all on stream 1, the first fragment of `[1, 2]`, the first of `[3, 4]`, the last of
the former and the last of the latter: a message that ends after `[1, 3, 2]`, and a message `[4]`. -/
theorem C88_mixed_false : ∃ s, ConcReachable true openTransport (fragmenting 1) s ∧
    s.draws = 2 ^ 30 + 1 ∧
    s.calls[0]? = some (.done ⟨none, some [1#8, 2#8]⟩ 1#32 (.ok ())) ∧
    s.calls[2 ^ 30]? = some (.done ⟨none, some [3#8, 4#8]⟩ 1#32 (.ok ())) ∧
    s.wire = [fnfFrame 1#32 true ⟨none, some [1#8]⟩, fnfFrame 1#32 true ⟨none, some [3#8]⟩,
      fnfFrame 1#32 false ⟨none, some [2#8]⟩, fnfFrame 1#32 false ⟨none, some [4#8]⟩] := by
  obtain ⟨R, l, r, hl⟩ := stalled (2 ^ 30 - 1)
  have e : BitVec.ofNat 32 (3 + 2 * (2 ^ 30 - 1)) = 0x80000001#32 := by decide
  rw [e] at r
  let q : List Asked := l ++ [.fireAndForget pb]
  have r1 := viaStep r (.call _ pb) (s'' := ⟨exampleMachine 0x80000001#32,
    .sending pa 1#32 1 2 ⟨1, none, some [2#8]⟩ :: (R ++ [.probing pb]), 2 ^ 30, [fr true 1#8], q⟩) rfl
  have r2 := viaStep r1 (.fetch _ (R.length + 1) pb getLast')
    (s'' := ⟨exampleMachine 0x80000003#32,
      .sending pa 1#32 1 2 ⟨1, none, some [2#8]⟩ :: (R ++ [.checking pb 1#32]), 2 ^ 30 + 1,
      [fr true 1#8], q⟩) (by simp only [Conc.set, setLast']; rfl)
  have r3 := viaStep r2 (.checkFree _ (R.length + 1) pb 1#32 getLast' rfl)
    (s'' := ⟨exampleMachine 0x80000003#32,
      .sending pa 1#32 1 2 ⟨1, none, some [2#8]⟩ :: (R ++ [.sending pb 1#32 0 2 ⟨1, none, pb.data⟩]),
      2 ^ 30 + 1, [fr true 1#8], q⟩) (by simp only [Conc.set, setLast']; rw [← lenB]; rfl)
  have r4 := viaStep r3 (.sendChunk _ (R.length + 1) pb 1#32 0 2 _ ⟨1, none, some [4#8]⟩
      ⟨none, some [3#8]⟩ ⟨1#32, ⟨0x40#16⟩, ⟨none, some [3#8]⟩⟩ getLast' rfl rfl rfl)
    (s'' := ⟨exampleMachine 0x80000003#32, .sending pa 1#32 1 2 ⟨1, none, some [2#8]⟩ ::
      (R ++ [.sending pb 1#32 1 2 ⟨1, none, some [4#8]⟩]),
      2 ^ 30 + 1, [fr true 1#8, fr true 3#8], q⟩) (by simp only [Conc.set, setLast']; rfl)
  have r5 := viaStep r4 (.sendChunk _ 0 pa 1#32 1 2 _ ⟨1, none, none⟩
      ⟨none, some [2#8]⟩ ⟨1#32, ⟨0#16⟩, ⟨none, some [2#8]⟩⟩ rfl rfl rfl rfl)
    (s'' := ⟨exampleMachine 0x80000003#32, .sending pa 1#32 2 2 ⟨1, none, none⟩ ::
      (R ++ [.sending pb 1#32 1 2 ⟨1, none, some [4#8]⟩]),
      2 ^ 30 + 1, [fr true 1#8, fr true 3#8, fr false 2#8], q⟩) rfl
  have r6 := viaStep r5 (.sendChunk _ (R.length + 1) pb 1#32 1 2 _ ⟨1, none, none⟩
      ⟨none, some [4#8]⟩ ⟨1#32, ⟨0#16⟩, ⟨none, some [4#8]⟩⟩ getLast' rfl rfl rfl)
    (s'' := ⟨exampleMachine 0x80000003#32, .sending pa 1#32 2 2 ⟨1, none, none⟩ ::
      (R ++ [.sending pb 1#32 2 2 ⟨1, none, none⟩]),
      2 ^ 30 + 1, [fr true 1#8, fr true 3#8, fr false 2#8, fr false 4#8], q⟩)
    (by simp only [Conc.set, setLast']; rfl)
  have r7 := viaStep r6 (.finish _ 0 pa 1#32 2 2 _ ⟨1, none, none⟩ rfl rfl)
    (s'' := ⟨exampleMachine 0x80000003#32, .done pa 1#32 (.ok ()) ::
      (R ++ [.sending pb 1#32 2 2 ⟨1, none, none⟩]),
      2 ^ 30 + 1, [fr true 1#8, fr true 3#8, fr false 2#8, fr false 4#8], q⟩) rfl
  have r8 := viaStep r7 (.finish _ (R.length + 1) pb 1#32 2 2 _ ⟨1, none, none⟩ getLast' rfl)
    (s'' := ⟨exampleMachine 0x80000003#32, .done pa 1#32 (.ok ()) ::
      (R ++ [.done pb 1#32 (.ok ())]),
      2 ^ 30 + 1, [fr true 1#8, fr true 3#8, fr false 2#8, fr false 4#8], q⟩)
    (by simp only [Conc.set, setLast'])
  refine ⟨_, r8, rfl, rfl, ?_, rfl⟩
  have hn : R.length + 1 = 2 ^ 30 := by omega
  rw [← hn]
  exact getLast'

/-- **C88**: the condition is exact. With one id more drawn while a call is in progress, the id of that
call is drawn again. -/
theorem C88_next_draw {dbg : Bool} {tr : Transport} {m : RSocketMachine} {s : Conc}
    {span : Nat → Span} (h : LongRun dbg tr m s span) {i : Nat} {c : Call} {sid : U32}
    (hi : s.calls[i]? = some c) (hs : callId c = some sid)
    (full : s.draws = (span i).born + 2 ^ 30) : s.machine.streamId.draw.1 = sid := by
  have inv := longInv h
  apply BitVec.eq_of_toNat_eq
  rw [(inv.ids i c sid hi hs).2, inv.word, (draw_after _ _).1, full, idAt_period]

/-- The executions are not trivial: two calls at a time, both under way. -/
example : ∃ s span, LongRun true openTransport (fragmenting 1) s span ∧ s.draws = 2 ∧
    s.wire.length = 4 := by
  obtain ⟨s, r, hd, hw, -⟩ := exampleTwoCalls
  obtain ⟨span, h⟩ := C88_covers_short r (by rw [hd]; decide)
  exact ⟨s, span, h, hd, by rw [hw]; rfl⟩

/-- Long executions are not all short: any number of ids can have been drawn. -/
example (n : Nat) : ∃ s span, LongRun true openTransport (fragmenting 1) s span ∧ s.draws = n := by
  suffices ∃ w R l, Sequential true openTransport (fragmenting 1) ⟨exampleMachine w, R, n, [], l⟩ ∧
      ∀ c ∈ R, running c = false by
    obtain ⟨w, R, l, h, -⟩ := this
    obtain ⟨span, r⟩ := C88_covers_sequential h
    exact ⟨_, span, r, rfl⟩
  induction n with
  | zero => exact ⟨1#32, [], [], .init, nofun⟩
  | succ n ih =>
    obtain ⟨w, R, l, r, old⟩ := ih
    let q : Payload := ⟨none, none⟩
    let l' : List Asked := l ++ [.fireAndForget q]
    let x := (⟨w⟩ : StreamIdProvider).draw.1
    have get : ∀ {c : Call}, (R ++ [c])[R.length]? = some c := by simp
    have set : ∀ {c c' : Call}, (R ++ [c]).set R.length c' = R ++ [c'] := by simp
    have via : ∀ {s s' s'' : Conc}, Sequential true openTransport (fragmenting 1) s →
        ConcStep true openTransport s s' → s' = s'' → (s''.draws = s.draws ∨
          ∀ i, inProgress s'' i = true → drawnId s'' i ≠ none → drawnId s i = none) →
        Sequential true openTransport (fragmenting 1) s'' := fun r h e ha => by
      subst e
      exact r.step h ha
    have r1 := via r (.call _ q)
      (s'' := ⟨exampleMachine w, R ++ [.probing q], n, [], l'⟩) rfl (.inl rfl)
    have r2 := via r1 (.fetch _ R.length q get)
      (s'' := ⟨exampleMachine (w + 2#32), R ++ [.checking q x], n + 1, [], l'⟩)
      (by simp only [Conc.set, set]; rfl) (.inr fun i h1 _ => by
        rcases Nat.lt_trichotomy i R.length with hl | rfl | hl
        · have h1' : ((R ++ [Call.checking q x])[i]?).any running = true := h1
          rw [List.getElem?_append_left hl, List.getElem?_eq_getElem hl] at h1'
          have : running R[i] = true := h1'
          rw [old _ (List.getElem_mem hl)] at this
          cases this
        · show ((R ++ [Call.probing q])[R.length]?).bind callId = none
          rw [get]
          rfl
        · show ((R ++ [Call.probing q])[i]?).bind callId = none
          rw [List.getElem?_eq_none (by rw [List.length_append]; exact hl)]
          rfl)
    have r3 := via r2 (.checkFree _ R.length q x get rfl)
      (s'' := ⟨exampleMachine (w + 2#32),
        R ++ [.sending q x 0 (PayloadChunks.len ⟨1, none, none⟩) ⟨1, none, none⟩], n + 1, [], l'⟩)
      (by simp only [Conc.set, set]; rfl) (.inl rfl)
    have r4 := via r3 (.finish _ R.length q x 0 _ _ ⟨1, none, none⟩ get rfl)
      (s'' := ⟨exampleMachine (w + 2#32), R ++ [.done q x (.ok ())], n + 1, [], l'⟩)
      (by simp only [Conc.set, set]) (.inl rfl)
    refine ⟨_, _, _, r4, fun c hc => ?_⟩
    rcases List.mem_append.1 hc with h | h
    · exact old c h
    · cases List.mem_singleton.1 h
      rfl

end Binate
