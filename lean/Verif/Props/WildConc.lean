import Verif.Lemmas.WildConc
import Verif.Props.Conc

/-! # C113: a transport that panics harms no other call -/

namespace Binate

open Spec PayloadChunks RSocketMachine

/-- **C113**: whatever calls running at the same time do over a transport that panics, they could have
done over the transport that refuses instead: the machine, the frames handed over and all the calls that
have not panicked are the same, and the calls that have panicked have returned the error. -/
theorem C113_as_refused {dbg : Bool} {tr : WildTransport} {m : RSocketMachine} {w : WildConc} (e : Error)
    (h : WildReachable dbg tr m w) : ∃ s, ConcReachable dbg (refusing e tr) m s ∧ Alike tr e w s :=
  wild_reaches h

/-- **C113**, the other way round, for a transport that always comes back. -/
theorem C113_exact {dbg : Bool} {tr : WildTransport} {m : RSocketMachine} {s : Conc} {e : Error}
    (hno : ∀ sent f, tr sent f ≠ .diverge) (h : ConcReachable dbg (refusing e tr) m s) :
    ∃ w, WildReachable dbg tr m w ∧ Alike tr e w s :=
  reaches_wild hno h

/-- **C113**: the calls that have not panicked have handed over what C57 says, in spite of the panics of
the others, and the transport has panicked at none of their frames. -/
theorem C113_own_frames {dbg : Bool} {tr : WildTransport} {m : RSocketMachine} {w : WildConc}
    (h : WildReachable dbg tr m w) (hd : w.draws ≤ 2 ^ 30) (h0 : m.chunkPayload ≠ some 0)
    {i : Nat} {c : Call} (hi : w.calls[i]? = some c) {sid : U32} (hs : callId c = some sid) :
    ∃ frames, fnfSend dbg openTransport m.chunkPayload sid (callPayload c) [] = .ok (.ok (), frames) ∧
      w.wire.filter (onStream sid) <+: frames ∧
      (callResult c = some (.ok ()) → w.wire.filter (onStream sid) = frames) ∧
      (∀ e, callResult c = some (.error e) → w.wire.filter (onStream sid) ≠ []) ∧
      ¬ PanickedOn tr w.wire sid := by
  have hc : ∀ p, c ≠ .panicked p := by rintro p rfl; cases hs
  obtain ⟨e, he⟩ : ∃ e : Error, callResult c ≠ some (.error e) := by
    cases hr : callResult c with
    | none => exact ⟨⟨.io, none⟩, nofun⟩
    | some r =>
      cases r with
      | ok u => exact ⟨⟨.io, none⟩, nofun⟩
      | error e =>
        obtain ⟨e', he⟩ := other_error e
        refine ⟨e', fun hh => ?_⟩
        cases hh
        exact he rfl
  obtain ⟨s, hr, ha⟩ := wild_reaches (e := e) h
  have hd' : s.draws ≤ 2 ^ 30 := by rw [← ha.draws]; exact hd
  have hi' := alike_get ha hi hc
  obtain ⟨frames, h1, h2, h3, h4, -⟩ := C57_own_frames hr hd' h0 hi' hs
  refine ⟨frames, h1, by rw [ha.wire]; exact h2, by rw [ha.wire]; exact h3, by rw [ha.wire]; exact h4, ?_⟩
  rintro ⟨before, f, after, msg, e1, e2, e3⟩
  obtain ⟨k, hk⟩ := C57_answers hr hd' hi' hs
  rw [← ha.wire, e1, panicked_answers e2 e3] at hk
  have hm := List.mem_append_right (answers (refusing e tr) sid before)
    (List.mem_cons_self (a := (.error e : Except Error Unit))
      (l := answersFrom (refusing e tr) sid (before ++ [f]) after))
  rw [hk] at hm
  rcases List.mem_append.1 hm with hm | hm
  · cases List.eq_of_mem_replicate hm
  · split at hm
    · next e' hr' =>
      cases List.mem_singleton.1 hm
      exact he hr'
    · cases hm

/-- **C113**: a call that has panicked has handed over the first frames of its own, at least one; the
transport panicked at the last of these and at no other, and nothing follows on its stream. -/
theorem C113_panicked {dbg : Bool} {tr : WildTransport} {m : RSocketMachine} {w : WildConc}
    (h : WildReachable dbg tr m w) (hd : w.draws ≤ 2 ^ 30) (h0 : m.chunkPayload ≠ some 0)
    {i : Nat} {p : Payload} (hi : w.calls[i]? = some (.panicked p)) :
    ∃ sid frames before f after msg,
      fnfSend dbg openTransport m.chunkPayload sid p [] = .ok (.ok (), frames) ∧
      w.wire = before ++ f :: after ∧ tr before f = .panic msg ∧ onStream sid f = true ∧
      before.filter (onStream sid) ++ [f] <+: frames ∧ after.filter (onStream sid) = [] ∧
      ¬ PanickedOn tr before sid ∧
      ∀ (j : Nat) c, w.calls[j]? = some c → callId c ≠ some sid := by
  have e : Error := ⟨.io, none⟩
  obtain ⟨s, hr, ha⟩ := wild_reaches (e := e) h
  have hd' : s.draws ≤ 2 ^ 30 := by rw [← ha.draws]; exact hd
  obtain ⟨hl, -⟩ := List.getElem?_eq_some_iff.1 hi
  have hi' : s.calls[i]? = some (s.calls[i]'(by rw [← ha.count]; exact hl)) := List.getElem?_eq_getElem _
  generalize s.calls[i]'(by rw [← ha.count]; exact hl) = d at hi'
  rcases ha.calls i _ _ hi hi' with rfl | ⟨p', sid, hp, rfl, before, f, after, msg, e1, e2, e3⟩
  · exact absurd ((concInv hr hd').call i _ hi') h0
  · cases hp
    obtain ⟨frames, h1, h2, -, -, -⟩ := C57_own_frames hr hd' h0 hi' rfl
    obtain ⟨k, hk⟩ := C57_answers hr hd' hi' rfl
    rw [e1, panicked_answers e2 e3] at hk
    change _ = List.replicate k (Except.ok ()) ++ [Except.error e] at hk
    have hlast : answersFrom (refusing e tr) sid (before ++ [f]) after = [] ∧
        answers (refusing e tr) sid before = List.replicate k (.ok ()) := by
      generalize answers (refusing e tr) sid before = a at hk
      generalize answersFrom (refusing e tr) sid (before ++ [f]) after = b at hk
      rcases List.eq_nil_or_concat b with rfl | ⟨b', x, rfl⟩
      · exact ⟨rfl, (List.append_inj' hk rfl).1⟩
      · rw [List.concat_eq_append, ← List.cons_append, ← List.append_assoc] at hk
        have hh := (List.append_inj' hk rfl).1
        have : (.error e : Except Error Unit) ∈ List.replicate k (.ok ()) := by
          rw [← hh]; exact List.mem_append_right _ List.mem_cons_self
        cases List.eq_of_mem_replicate this
    have hnil := answersFrom_nil _ _ _ _ hlast.1
    refine ⟨sid, frames, before, f, after, msg, h1, ha.wire.trans e1, e3, e2, ?_, hnil, ?_, ?_⟩
    · rw [e1, List.filter_append, List.filter_cons_of_pos e2, hnil] at h2
      exact h2
    · rintro ⟨b', f', a', msg', e1', e2', e3'⟩
      have hb := hlast.2
      rw [e1', panicked_answers e2' e3'] at hb
      have : (.error e : Except Error Unit) ∈ List.replicate k (.ok ()) := by
        rw [← hb]; exact List.mem_append_right _ List.mem_cons_self
      cases List.eq_of_mem_replicate this
    · intro j c hj hc
      have hj' := alike_get ha hj (by rintro q rfl; cases hc)
      have := C57_distinct_ids hr hd' hi' hj' rfl hc
      subst this
      rw [hi] at hj
      cases hj
      cases hc

/-- **C113**: no panic blocks another call. A running call can take a step of its own, if the transport
always comes back. -/
theorem C113_progress {dbg : Bool} {tr : WildTransport} {m : RSocketMachine} {w : WildConc}
    (hno : ∀ sent f, tr sent f ≠ .diverge) (h : WildReachable dbg tr m w) {i : Nat} {c : Call}
    (hi : w.calls[i]? = some c) (hr : running c = true) :
    ∃ w' c', WildStep dbg tr w w' ∧ w'.calls[i]? = some c' ∧ c' ≠ c := by
  have hc : ∀ p, c ≠ .panicked p := by rintro p rfl; cases hr
  obtain ⟨s, hs, ha⟩ := wild_reaches (e := ⟨.io, none⟩) h
  obtain ⟨s', c', st, hc', hne⟩ := C57_progress hs (alike_get ha hi hc) hr
  obtain ⟨w', st', ha'⟩ := wild_back hno ha hs st
  obtain ⟨hl, -⟩ := List.getElem?_eq_some_iff.1 hc'
  have hw : w'.calls[i]? = some (w'.calls[i]'(by rw [ha'.count]; exact hl)) := List.getElem?_eq_getElem _
  refine ⟨w', _, st', hw, ?_⟩
  rcases ha'.calls i _ _ hw hc' with h1 | ⟨p, sid, h1, -, -⟩
  · rw [h1]; exact hne
  · rw [h1]; exact fun h2 => hc p h2.symm

/-- **C113**: the METADATA_PUSH frames handed over are those of the calls of `metadata_push`, in their
order, and each of these calls returns the answer to its frame, or panics if the transport does. -/
theorem C113_pushes {dbg : Bool} {tr : WildTransport} {m : RSocketMachine} {w : WildConc}
    (h : WildReachable dbg tr m w) : wildPushes w.asked = pushedFrom tr [] w.wire :=
  wild_pushes h

/-- Panics at the frames of stream 2. -/
private def notTwo : WildTransport := fun _ f =>
  if onStream 2#32 f then .panic "two" else .ok (.ok ())

/-- The first of two calls panics, then `metadata_push` and the second call return `Ok`. -/
example : ∃ w, WildReachable true notTwo (RSocketMachine.new .server 60 0) w ∧
    w.calls = [.panicked ⟨none, some [7#8]⟩, .done ⟨none, some [8#8]⟩ 4#32 (.ok ())] ∧
    w.wire = [fnfFrame 2#32 false ⟨none, some [7#8]⟩, .metadataPush ⟨[9#8]⟩,
      fnfFrame 4#32 false ⟨none, some [8#8]⟩] ∧
    wildPushes w.asked = [([9#8], some (.ok ()))] ∧ w.draws = 2 := by
  let a : Payload := ⟨none, some [7#8]⟩
  let b : Payload := ⟨none, some [8#8]⟩
  let q : List WildAsked := [.fireAndForget a, .fireAndForget b]
  let q' : List WildAsked := q ++ [.metadataPush [9#8] (some (.ok ()))]
  let R := WildReachable true notTwo (RSocketMachine.new .server 60 0)
  have via : ∀ {s s' s'' : WildConc}, R s → WildStep true notTwo s s' → s' = s'' → R s'' :=
    fun r h e => e ▸ r.step h
  have r0 : R ⟨exampleServer 2#32, [], 0, [], []⟩ := .init
  have r1 : R ⟨exampleServer 2#32, [.probing a], 0, [], [.fireAndForget a]⟩ := r0.step (.call _ a)
  have r2 : R ⟨exampleServer 2#32, [.probing a, .probing b], 0, [], q⟩ := r1.step (.call _ b)
  have r3 : R ⟨exampleServer 4#32, [.checking a 2#32, .probing b], 1, [], q⟩ :=
    via r2 (.fetch _ 0 a rfl) (by simp only [WildConc.set]; rfl)
  have r4 : R ⟨exampleServer 6#32, [.checking a 2#32, .checking b 4#32], 2, [], q⟩ :=
    via r3 (.fetch _ 1 b rfl) (by simp only [WildConc.set]; rfl)
  have r5 : R ⟨exampleServer 6#32, [.sendingOne a 2#32, .checking b 4#32], 2, [], q⟩ :=
    r4.step (.checkFree _ 0 a 2#32 rfl rfl)
  have r6 : R ⟨exampleServer 6#32, [.panicked a, .checking b 4#32], 2, [fnfFrame 2#32 false a], q⟩ :=
    r5.step (.sendOnePanic _ 0 a 2#32 ⟨2#32, ⟨0#16⟩, a⟩ "two" rfl rfl rfl)
  have r7 : R ⟨exampleServer 6#32, [.panicked a, .checking b 4#32], 2,
      [fnfFrame 2#32 false a, .metadataPush ⟨[9#8]⟩], q'⟩ :=
    r6.step (.push _ [9#8] (.ok ()) rfl)
  have r8 : R ⟨exampleServer 6#32, [.panicked a, .sendingOne b 4#32], 2,
      [fnfFrame 2#32 false a, .metadataPush ⟨[9#8]⟩], q'⟩ :=
    r7.step (.checkFree _ 1 b 4#32 rfl rfl)
  exact ⟨_, r8.step (.sendOne _ 1 b 4#32 ⟨4#32, ⟨0#16⟩, b⟩ (.ok ()) rfl rfl rfl), rfl, rfl, rfl, rfl⟩

/-- A transport that hangs: the condition of `C113_progress` is needed. The call stays where it is,
whatever the others do. -/
theorem C113_hangs {dbg : Bool} {tr : WildTransport} (hno : ∀ sent f, tr sent f = .diverge)
    {w w' : WildConc} {i : Nat} {p : Payload} {sid : U32} (hi : w.calls[i]? = some (.sendingOne p sid))
    (h : WildStep dbg tr w w') : w'.calls[i]? = some (.sendingOne p sid) := by
  have upd : ∀ {j : Nat} {a b : Call}, w.calls[j]? = some a → a ≠ .sendingOne p sid →
      (w.calls.set j b)[i]? = some (.sendingOne p sid) := by
    intro j a b hj ha
    have : j ≠ i := by
      rintro rfl
      rw [hi] at hj
      cases hj
      exact ha rfl
    rw [List.getElem?_set_ne this]
    exact hi
  cases h with
  | call payload =>
    obtain ⟨hl, -⟩ := List.getElem?_eq_some_iff.1 hi
    show (w.calls ++ [Call.probing payload])[i]? = _
    rw [List.getElem?_append_left hl]
    exact hi
  | fetch j q hj => exact upd hj nofun
  | checkUsed j q x hj => exact upd hj nofun
  | checkFree j q x hj => exact upd hj nofun
  | sendOne j q x f r hj hf ht => rw [hno] at ht; cases ht
  | sendOnePanic j q x f r hj hf ht => rw [hno] at ht; cases ht
  | sendChunk j q x idx n ch ch' c f hj => exact upd hj nofun
  | sendChunkErr j q x idx n ch ch' c f e hj => exact upd hj nofun
  | sendChunkPanic j q x idx n ch ch' c f e hj => exact upd hj nofun
  | finish j q x idx n ch ch' hj => exact upd hj nofun
  | push => exact hi
  | pushPanic => exact hi
  | env => exact hi

example : ∃ w, WildReachable true (fun _ _ => .diverge) (RSocketMachine.new .server 60 0) w ∧
    w.calls = [.sendingOne ⟨none, some [7#8]⟩ 2#32] := by
  let a : Payload := ⟨none, some [7#8]⟩
  let R := WildReachable true (fun _ _ => .diverge) (RSocketMachine.new .server 60 0)
  have r1 : R ⟨exampleServer 2#32, [.probing a], 0, [], [.fireAndForget a]⟩ :=
    WildReachable.init.step (.call _ a)
  have r2 : R ⟨exampleServer 4#32, [.checking a 2#32], 1, [], [.fireAndForget a]⟩ := by
    have := r1.step (.fetch _ 0 a rfl)
    simp only [WildConc.set] at this
    exact this
  exact ⟨_, r2.step (.checkFree _ 0 a 2#32 rfl rfl), rfl⟩

end Binate
