import Verif.Lemmas.Long
import Verif.Lemmas.Order
import Verif.Spec.Ascending

/-! # Helper lemmas on the order of the stream ids on the wire -/

namespace Binate

open Spec RSocketMachine

/-- Ids are drawn in counter order, for any number of draws. -/
structure BornInv (m0 : RSocketMachine) (s : Conc) : Prop where
  word : s.machine.streamId = after m0.streamId s.draws
  ids : ∀ (i : Nat) (c : Call) (sid : U32), s.calls[i]? = some c → callId c = some sid →
    ∃ n, n < s.draws ∧ sid.toNat = idAt m0.streamId.word.toNat n
  wire : ∀ sid ∈ streamIds s.wire, ∃ n, n < s.draws ∧ sid = idAt m0.streamId.word.toNat n

theorem streamIds_append (a b : List Frame) : streamIds (a ++ b) = streamIds a ++ streamIds b :=
  List.filterMap_append ..

theorem mem_streamIds {n : Nat} {w : List Frame} (h : n ∈ streamIds w) :
    ∃ sid : U32, sid.toNat = n ∧ onWire sid w ≠ [] := by
  obtain ⟨f, h1, h2⟩ := List.mem_filterMap.1 h
  cases f <;> first | (cases h2; done) | skip
  rename_i v
  refine ⟨v.streamId, Option.some.inj h2, fun e => ?_⟩
  exact List.filter_eq_nil_iff.1 e _ h1 (beq_self_eq_true _)

theorem BornInv.lt {m0 : RSocketMachine} {s : Conc} (inv : BornInv m0 s) (i : Nat) (c : Call)
    (sid : U32) (hi : s.calls[i]? = some c) (hc : callId c = some sid) : sid.toNat < 2 ^ 31 := by
  obtain ⟨n, -, h⟩ := inv.ids i c sid hi hc
  rw [h]
  exact idAt_lt _ _

/-- The frames of a step are on the id of the call that makes it. -/
theorem update_ids {c : Call} {ext : List Frame}
    (hx : ∀ sid, callId c ≠ some sid → onWire sid ext = []) {n : Nat} (h : n ∈ streamIds ext) :
    ∃ sid : U32, callId c = some sid ∧ sid.toNat = n := by
  obtain ⟨sid, h1, h2⟩ := mem_streamIds h
  by_cases e : callId c = some sid
  · exact ⟨sid, e, h1⟩
  · exact absurd (hx sid e) h2

theorem other_ids {ext : List Frame} (hx : ∀ sid, onWire sid ext = []) {n : Nat} :
    n ∉ streamIds ext := fun h => by
  obtain ⟨sid, -, h2⟩ := mem_streamIds h
  exact h2 (hx sid)

theorem bornInv {dbg : Bool} {tr : Transport} {m0 : RSocketMachine} {s : Conc}
    (h : ConcReachable dbg tr m0 s) : BornInv m0 s := by
  induction h with
  | init =>
    exact ⟨(after_zero _).symm, fun i c sid hi => by simp [Conc.init] at hi,
      fun sid h => by simp [Conc.init, streamIds] at h⟩
  | @step s s' _ hs inv =>
    cases step_kind hs inv.lt with
    | call p hc hw hd hm =>
      refine ⟨by rw [hm, hd]; exact inv.word, ?_, by rw [hw, hd]; exact inv.wire⟩
      intro i c sid hi hid
      rw [hd]
      rw [hc, List.getElem?_append] at hi
      split at hi
      · exact inv.ids i c sid hi hid
      · have : c = .probing p := by
          have := List.mem_of_getElem? hi
          simpa using this
        rw [this] at hid
        cases hid
    | fetch i p hi hc hw hd hm =>
      have hdr := draw_after m0.streamId s.draws
      rw [← inv.word] at hdr
      refine ⟨by rw [hm, hd]; exact hdr.2, ?_, ?_⟩
      · intro j c sid hj hid
        rw [hd]
        rw [hc] at hj
        rcases getElem?_set_cases hj with ⟨-, rfl⟩ | ⟨-, hj⟩
        · cases hid
          exact ⟨s.draws, Nat.lt_succ_self _, hdr.1⟩
        · obtain ⟨n, h1, h2⟩ := inv.ids j c sid hj hid
          exact ⟨n, Nat.lt_succ_of_lt h1, h2⟩
      · intro sid h
        rw [hw] at h
        obtain ⟨n, h1, h2⟩ := inv.wire sid h
        exact ⟨n, by omega, h2⟩
    | update i c c' ext hi hr hn hc hw hid hx hd hm _ _ =>
      refine ⟨by rw [hm, hd]; exact inv.word, ?_, ?_⟩
      · intro j d sid hj hidd
        rw [hd]
        rw [hc] at hj
        rcases getElem?_set_cases hj with ⟨-, rfl⟩ | ⟨-, hj⟩
        · exact inv.ids i c sid hi (hid sid hidd)
        · exact inv.ids j d sid hj hidd
      · intro n h
        rw [hw, streamIds_append] at h
        rw [hd]
        rcases List.mem_append.1 h with h | h
        · exact inv.wire n h
        · obtain ⟨sid, h1, rfl⟩ := update_ids hx h
          exact inv.ids i c sid hi h1
    | other ext hc hw hx hd hm =>
      refine ⟨by rw [hm, hd]; exact inv.word, by rw [hc, hd]; exact inv.ids, ?_⟩
      intro n h
      rw [hw, streamIds_append] at h
      rw [hd]
      rcases List.mem_append.1 h with h | h
      · exact inv.wire n h
      · exact absurd h (other_ids hx)

theorem idAt_mono {w a b d : Nat} (hd : w + 2 * d ≤ 2 ^ 31) (h : a < b) (hb : b < d) :
    idAt w a < idAt w b := by
  unfold idAt
  omega

theorem idAt_le {w a b d : Nat} (hd : w + 2 * d ≤ 2 ^ 31) (h : a ≤ b) (hb : b < d) :
    idAt w a ≤ idAt w b := by
  unfold idAt
  omega

/-- What has happened since the state `s`. -/
structure SinceInv (m0 : RSocketMachine) (s s' : Conc) (ext : List Frame) : Prop where
  wire : s'.wire = s.wire ++ ext
  draws : s.draws ≤ s'.draws
  ids : ∀ (i : Nat) (sid : U32), drawnId s' i = some sid →
    (∃ n, s.draws ≤ n ∧ n < s'.draws ∧ sid.toNat = idAt m0.streamId.word.toNat n) ∨
      drawnId s i = some sid
  sent : ∀ k ∈ streamIds ext,
    (∃ n, s.draws ≤ n ∧ n < s'.draws ∧ k = idAt m0.streamId.word.toNat n) ∨
      ∃ (i : Nat) (sid : U32), inProgress s i = true ∧ drawnId s i = some sid ∧ sid.toNat = k

theorem concSteps_reachable {dbg : Bool} {tr : Transport} {m0 : RSocketMachine} {s s' : Conc}
    (h : ConcReachable dbg tr m0 s) (h' : ConcSteps dbg tr s s') : ConcReachable dbg tr m0 s' := by
  induction h' with
  | refl => exact h
  | step _ hs ih => exact ih.step hs

theorem sinceInv {dbg : Bool} {tr : Transport} {m0 : RSocketMachine} {s s' : Conc}
    (h : ConcReachable dbg tr m0 s) (h' : ConcSteps dbg tr s s') :
    ∃ ext, SinceInv m0 s s' ext := by
  induction h' with
  | refl =>
    exact ⟨[], (List.append_nil _).symm, Nat.le_refl _, fun i sid h => .inr h,
      fun k hk => absurd hk List.not_mem_nil⟩
  | @step s₁ s₂ hs₁ hs ih =>
    obtain ⟨ext, inv⟩ := ih
    have b := bornInv (concSteps_reachable h hs₁)
    cases step_kind hs b.lt with
    | call p hc hw hd hm =>
      refine ⟨ext, hw.trans inv.wire, by rw [hd]; exact inv.draws, ?_, by rw [hd]; exact inv.sent⟩
      intro i sid hi
      rw [hd]
      refine inv.ids i sid ?_
      rw [drawnId, hc, List.getElem?_append] at hi
      split at hi
      · exact hi
      · cases e : [Call.probing p][i - s₁.calls.length]? with
        | none => rw [e] at hi; cases hi
        | some d =>
          rw [e] at hi
          have : d = .probing p := by
            have := List.mem_of_getElem? e
            simpa using this
          rw [this] at hi
          cases hi
    | fetch i p hi hc hw hd hm =>
      have hdr := draw_after m0.streamId s₁.draws
      rw [← b.word] at hdr
      have le := inv.draws
      refine ⟨ext, hw.trans inv.wire, by omega, ?_, ?_⟩
      · intro j sid hj
        rw [drawnId, hc] at hj
        by_cases e : i = j
        · subst e
          rw [List.getElem?_set_self' , hi] at hj
          cases hj
          exact .inl ⟨s₁.draws, le, by omega, hdr.1⟩
        · rw [List.getElem?_set_ne e] at hj
          rcases inv.ids j sid hj with ⟨n, h1, h2, h3⟩ | h1
          · exact .inl ⟨n, h1, by omega, h3⟩
          · exact .inr h1
      · intro k hk
        rcases inv.sent k hk with ⟨n, h1, h2, h3⟩ | h1
        · exact .inl ⟨n, h1, by omega, h3⟩
        · exact .inr h1
    | update i c c' more hi hr hn hc hw hid hx hd hm _ _ =>
      refine ⟨ext ++ more, by rw [hw, inv.wire, List.append_assoc], by rw [hd]; exact inv.draws,
        ?_, ?_⟩
      · intro j sid hj
        rw [hd]
        refine inv.ids j sid ?_
        rw [drawnId, hc] at hj
        by_cases e : i = j
        · subst e
          rw [List.getElem?_set_self', hi] at hj
          rw [drawnId, hi]
          exact hid sid hj
        · rw [List.getElem?_set_ne e] at hj
          exact hj
      · intro k hk
        rw [hd]
        rw [streamIds_append] at hk
        rcases List.mem_append.1 hk with hk | hk
        · exact inv.sent k hk
        · obtain ⟨sid, h1, rfl⟩ := update_ids hx hk
          rcases inv.ids i sid (by rw [drawnId, hi]; exact h1) with h2 | h2
          · exact .inl h2
          · refine .inr ⟨i, sid, ?_, h2, rfl⟩
            rw [drawnId] at h2
            cases e : s.calls[i]? with
            | none => rw [e] at h2; cases h2
            | some d =>
              rw [inProgress, e]
              show running d = true
              cases hrd : running d with
              | true => rfl
              | false =>
                obtain ⟨c'', h3, h4⟩ := steps_history hs₁ i d e
                rw [hi] at h3
                cases h3
                rw [h4 hrd, hrd] at hr
                cases hr
    | other more hc hw hx hd hm =>
      refine ⟨ext ++ more, by rw [hw, inv.wire, List.append_assoc], by rw [hd]; exact inv.draws,
        ?_, ?_⟩
      · intro j sid hj
        rw [drawnId, hc] at hj
        rw [hd]
        exact inv.ids j sid hj
      · intro k hk
        rw [hd]
        rw [streamIds_append] at hk
        rcases List.mem_append.1 hk with hk | hk
        · exact inv.sent k hk
        · exact absurd hk (other_ids hx)

/-- Invariant of executions in which only one call at a time has an id. -/
structure LoneInv (m0 : RSocketMachine) (s : Conc) : Prop where
  latest : ∀ (i : Nat) (c : Call) (sid : U32), s.calls[i]? = some c → running c = true →
    callId c = some sid → 0 < s.draws ∧ sid.toNat = idAt m0.streamId.word.toNat (s.draws - 1)
  sorted : m0.streamId.word.toNat + 2 * s.draws ≤ 2 ^ 31 → (streamIds s.wire).Pairwise (· ≤ ·)

theorem sequential_reachable {dbg : Bool} {tr : Transport} {m0 : RSocketMachine} {s : Conc}
    (h : Sequential dbg tr m0 s) : ConcReachable dbg tr m0 s := by
  induction h with
  | init => exact .init
  | step _ hs _ ih => exact ih.step hs

theorem loneInv {dbg : Bool} {tr : Transport} {m0 : RSocketMachine} {s : Conc}
    (h : Sequential dbg tr m0 s) : LoneInv m0 s := by
  induction h with
  | init =>
    exact ⟨fun i c sid hi => by simp [Conc.init] at hi, fun _ => by simp [Conc.init, streamIds]⟩
  | @step s s' hseq hs hone inv =>
    have b := bornInv (sequential_reachable hseq)
    cases step_kind hs b.lt with
    | call p hc hw hd hm =>
      refine ⟨?_, by rw [hw, hd]; exact inv.sorted⟩
      intro i c sid hi hr hid
      rw [hd]
      rw [hc, List.getElem?_append] at hi
      split at hi
      · exact inv.latest i c sid hi hr hid
      · have : c = .probing p := by
          have := List.mem_of_getElem? hi
          simpa using this
        rw [this] at hid
        cases hid
    | fetch i p hi hc hw hd hm =>
      have hdr := draw_after m0.streamId s.draws
      rw [← b.word] at hdr
      refine ⟨?_, fun hb => by rw [hw]; exact inv.sorted (by omega)⟩
      intro j c sid hj hr hid
      rcases hone with h | h
      · omega
      · have hj' := hj
        rw [hc] at hj
        rcases getElem?_set_cases hj with ⟨-, rfl⟩ | ⟨hne, hj⟩
        · cases hid
          rw [hd]
          exact ⟨Nat.succ_pos _, hdr.1⟩
        · have := h j (by rw [inProgress_some hj']; exact hr)
            (by rw [drawnId_some hj', hid]; nofun)
          rw [drawnId_some hj, hid] at this
          cases this
    | update i c c' ext hi hr hn hc hw hid hx hd hm _ _ =>
      refine ⟨?_, ?_⟩
      · intro j d sid hj hrd hidd
        rw [hd]
        rw [hc] at hj
        rcases getElem?_set_cases hj with ⟨-, rfl⟩ | ⟨-, hj⟩
        · exact inv.latest i c sid hi hr (hid sid hidd)
        · exact inv.latest j d sid hj hrd hidd
      · intro hb
        rw [hd] at hb
        rw [hw, streamIds_append, List.pairwise_append]
        have eq : ∀ k ∈ streamIds ext,
            0 < s.draws ∧ k = idAt m0.streamId.word.toNat (s.draws - 1) := by
          intro k hk
          obtain ⟨sid, h1, rfl⟩ := update_ids hx hk
          exact inv.latest i c sid hi hr h1
        refine ⟨inv.sorted hb, ?_, ?_⟩
        · exact List.pairwise_of_forall_mem_list fun a ha b hb' =>
            Nat.le_of_eq ((eq a ha).2.trans (eq b hb').2.symm)
        · intro a ha k hk
          obtain ⟨n, h1, h2⟩ := b.wire a ha
          obtain ⟨h3, h4⟩ := eq k hk
          rw [h2, h4]
          exact idAt_le hb (by omega) (by omega)
    | other ext hc hw hx hd hm =>
      refine ⟨by rw [hc, hd]; exact inv.latest, fun hb => ?_⟩
      rw [hd] at hb
      have e : streamIds ext = [] := List.eq_nil_iff_forall_not_mem.2 fun _ => other_ids hx
      rw [hw, streamIds_append, e, List.append_nil]
      exact inv.sorted hb

end Binate
