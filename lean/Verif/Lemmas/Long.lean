import Verif.Lemmas.Conc
import Verif.Spec.Long

/-! # Helper lemmas on long-lived machines -/

namespace Binate

open Spec PayloadChunks RSocketMachine

/-- What a step can be. -/
inductive StepKind (s s' : Conc) : Prop where
  | call (p : Payload) : s'.calls = s.calls ++ [.probing p] → s'.wire = s.wire →
      s'.draws = s.draws → s'.machine.streamId = s.machine.streamId → StepKind s s'
  | fetch (i : Nat) (p : Payload) : s.calls[i]? = some (.probing p) →
      s'.calls = s.calls.set i (.checking p s.machine.streamId.draw.1) → s'.wire = s.wire →
      s'.draws = s.draws + 1 → s'.machine.streamId = s.machine.streamId.draw.2 → StepKind s s'
  | update (i : Nat) (c c' : Call) (ext : List Frame) : s.calls[i]? = some c → running c = true →
      callId c ≠ none → s'.calls = s.calls.set i c' → s'.wire = s.wire ++ ext →
      (∀ sid, callId c' = some sid → callId c = some sid) →
      (∀ sid, callId c ≠ some sid → onWire sid ext = []) →
      s'.draws = s.draws → s'.machine.streamId = s.machine.streamId →
      (∀ w, CallOk s.machine.chunkPayload w c → CallOk s.machine.chunkPayload (w ++ ext) c') →
      (callId c' = callId c ∨ ext = [] ∧ ∃ p sid, c = .checking p sid) →
      StepKind s s'
  | other (ext : List Frame) : s'.calls = s.calls → s'.wire = s.wire ++ ext →
      (∀ sid, onWire sid ext = []) → s'.draws = s.draws →
      s'.machine.streamId = s.machine.streamId → StepKind s s'

theorem onWire_append (sid : U32) (a b : List Frame) :
    onWire sid (a ++ b) = onWire sid a ++ onWire sid b := List.filter_append ..

theorem onWire_other {sid sid' : U32} (h : sid ≠ sid') (b : Bool) (p : Payload) :
    onWire sid [fnfFrame sid' b p] = [] := onWire_append_other (wire := []) h

theorem step_chunk {dbg : Bool} {tr : Transport} {s s' : Conc} (h : ConcStep dbg tr s s') :
    s'.machine.chunkPayload = s.machine.chunkPayload := by cases h <;> rfl

theorem step_kind {dbg : Bool} {tr : Transport} {s s' : Conc} (h : ConcStep dbg tr s s')
    (hlt : ∀ (i : Nat) (c : Call) (sid : U32), s.calls[i]? = some c → callId c = some sid →
      sid.toNat < 2 ^ 31) : StepKind s s' := by
  cases h with
  | call payload => exact .call payload rfl rfl rfl rfl
  | fetch i payload hi => exact .fetch i payload hi rfl rfl rfl rfl
  | checkUsed i payload sid hi hu =>
    exact .update i _ (.probing payload) [] hi rfl nofun rfl (List.append_nil _).symm nofun
      (fun _ _ => rfl) rfl rfl (fun _ _ => trivial) (.inr ⟨rfl, _, _, rfl⟩)
  | checkFree i payload sid hi hu =>
    refine .update i _ (afterId s.machine payload sid) [] hi rfl nofun rfl (List.append_nil _).symm
      ?_ (fun _ _ => rfl) rfl rfl ?_ (.inr ⟨rfl, _, _, rfl⟩)
    · intro x hx
      unfold afterId at hx
      cases hm : s.machine.chunkPayload with
      | none => rw [hm] at hx; exact hx
      | some size =>
        rw [hm] at hx
        rcases Nat.eq_zero_or_pos size with rfl | h0
        · simp only [chunks_zero] at hx
          cases hx
        · simp only [chunks_ok h0] at hx
          exact hx
    · intro w hc
      rw [List.append_nil]
      unfold afterId
      cases hm : s.machine.chunkPayload with
      | none => exact ⟨rfl, hc⟩
      | some size =>
        rcases Nat.eq_zero_or_pos size with rfl | h0
        · simp only [chunks_zero]
          exact rfl
        · simp only [chunks_ok h0]
          exact ⟨size, rfl, h0, rfl, rfl, Nat.zero_le _, hc⟩
  | sendOne i payload sid f hi hf =>
    have e := fnf_new_unique (hlt i _ sid hi rfl) hf
    rw [e]
    generalize tr s.wire (fnfFrame sid false payload) = res
    refine .update i _ (.done payload sid res) _ hi rfl nofun rfl rfl (fun x h => h)
      (fun x hx => onWire_other (fun h => hx (by rw [h]; rfl)) _ _) rfl rfl ?_ (.inl rfl)
    rintro w ⟨h1, h2⟩
    cases res with
    | ok u =>
      refine ⟨(by rw [h1]; exact nofun), ?_⟩
      rw [onWire_append_same, h2, h1]
      rfl
    | error er =>
      refine ⟨(by rw [h1]; exact nofun), 1, Nat.one_pos, ?_, ?_⟩
      · rw [h1]; exact Nat.le_refl _
      · rw [onWire_append_same, h2, h1]
        rfl
  | sendChunk i payload sid idx n chunks chunks' chunked f hi hn hf ha =>
    have e := fnf_new_unique (hlt i _ sid hi rfl) hf
    rw [e]
    refine .update i _ (.sending payload sid (idx + 1) n chunks') _ hi rfl nofun rfl rfl
      (fun x h => h) (fun x hx => onWire_other (fun h => hx (by rw [h]; rfl)) _ _) rfl rfl ?_ (.inl rfl)
    rintro w ⟨size, h1, h2, h3, h4, h5, h6⟩
    have nn : (afterNext idx ⟨size, payload.metadata, payload.data⟩).next.1 =
        if idx < chunkCount size payload then some (chunkAt size payload idx) else none :=
      nth_next (c := ⟨size, payload.metadata, payload.data⟩) h2 idx
    rw [← h3, hn] at nn
    have hlt2 : idx < chunkCount size payload := by
      apply Nat.lt_of_not_le
      intro hle
      rw [if_neg (Nat.not_lt.2 hle)] at nn
      cases nn
    rw [if_pos hlt2] at nn
    cases nn
    refine ⟨size, h1, h2, ?_, h4, hlt2, ?_⟩
    · rw [afterNext_succ, ← h3, hn]
    · rw [onWire_append_same, h6, h1, take_callFrames hlt2, h4]
  | sendChunkErr i payload sid idx n chunks chunks' chunked f er hi hn hf ha =>
    have e := fnf_new_unique (hlt i _ sid hi rfl) hf
    rw [e]
    refine .update i _ (.done payload sid (.error er)) _ hi rfl nofun rfl rfl
      (fun x h => h) (fun x hx => onWire_other (fun h => hx (by rw [h]; rfl)) _ _) rfl rfl ?_ (.inl rfl)
    rintro w ⟨size, h1, h2, h3, h4, h5, h6⟩
    have nn : (afterNext idx ⟨size, payload.metadata, payload.data⟩).next.1 =
        if idx < chunkCount size payload then some (chunkAt size payload idx) else none :=
      nth_next (c := ⟨size, payload.metadata, payload.data⟩) h2 idx
    rw [← h3, hn] at nn
    have hlt2 : idx < chunkCount size payload := by
      apply Nat.lt_of_not_le
      intro hle
      rw [if_neg (Nat.not_lt.2 hle)] at nn
      cases nn
    rw [if_pos hlt2] at nn
    cases nn
    refine ⟨by rw [h1]; intro h; cases h; exact Nat.lt_irrefl _ h2, idx + 1,
      Nat.succ_pos _, ?_, ?_⟩
    · rw [h1, callFrames_some, List.length_map, List.length_range]
      exact hlt2
    · rw [onWire_append_same, h6, h1, take_callFrames hlt2, h4]
  | finish i payload sid idx n chunks chunks' hi hn =>
    refine .update i _ (.done payload sid (.ok ())) [] hi rfl nofun rfl (List.append_nil _).symm
      (fun x h => h) (fun _ _ => rfl) rfl rfl ?_ (.inl rfl)
    rintro w ⟨size, h1, h2, h3, h4, h5, h6⟩
    have nn : (afterNext idx ⟨size, payload.metadata, payload.data⟩).next.1 =
        if idx < chunkCount size payload then some (chunkAt size payload idx) else none :=
      nth_next (c := ⟨size, payload.metadata, payload.data⟩) h2 idx
    rw [← h3, hn] at nn
    have hle : chunkCount size payload ≤ idx := by
      apply Nat.le_of_not_lt
      intro hlt
      rw [if_pos hlt] at nn
      cases nn
    refine ⟨by rw [h1]; intro h; cases h; exact Nat.lt_irrefl _ h2, ?_⟩
    rw [List.append_nil, h6, List.take_of_length_le]
    rw [h1, callFrames_some, List.length_map, List.length_range]
    exact hle
  | push md => exact .other _ rfl rfl (fun sid => rfl) rfl rfl
  | env receivers => exact .other [] rfl (List.append_nil _).symm (fun sid => rfl) rfl rfl

/-- What was sent in the span of a call. -/
def seg (s : Conc) (x : Span) : List Frame := (s.wire.take x.stop).drop x.mark

/-- Invariant of long executions. -/
structure LongInv (m0 : RSocketMachine) (s : Conc) (span : Nat → Span) : Prop where
  chunk : s.machine.chunkPayload = m0.chunkPayload
  word : s.machine.streamId = after m0.streamId s.draws
  ids : ∀ (i : Nat) (c : Call) (sid : U32), s.calls[i]? = some c → callId c = some sid →
    (span i).born < s.draws ∧ sid.toNat = idAt m0.streamId.word.toNat (span i).born
  inj : ∀ (i j : Nat) (c d : Call), s.calls[i]? = some c → s.calls[j]? = some d →
    callId c ≠ none → callId d ≠ none → (span i).born = (span j).born → i = j
  young : ∀ (i : Nat) (c : Call), s.calls[i]? = some c → running c = true → callId c ≠ none →
    s.draws ≤ (span i).born + 2 ^ 30
  ends : ∀ (i : Nat) (c : Call), s.calls[i]? = some c → running c = true → callId c ≠ none →
    (span i).stop = s.wire.length
  le : ∀ (i : Nat) (c : Call), s.calls[i]? = some c → callId c ≠ none →
    (span i).mark ≤ (span i).stop ∧ (span i).stop ≤ s.wire.length
  call : ∀ (i : Nat) c, s.calls[i]? = some c → CallOk m0.chunkPayload (seg s (span i)) c

theorem window_inj {w a b d : Nat} (h : idAt w a = idAt w b) (ha : a < d) (hb : b < d)
    (ha' : d ≤ a + 2 ^ 30) (hb' : d ≤ b + 2 ^ 30) : a = b := by
  unfold idAt at h
  omega

theorem LongInv.uniq {m0 : RSocketMachine} {s : Conc} {span : Nat → Span}
    (inv : LongInv m0 s span) {i j : Nat} {c d : Call} {sid : U32} (hi : s.calls[i]? = some c)
    (hj : s.calls[j]? = some d) (hc : callId c = some sid) (hd : callId d = some sid)
    (hrc : running c = true) (hrd : running d = true) : i = j := by
  have nc : callId c ≠ none := by rw [hc]; nofun
  have nd : callId d ≠ none := by rw [hd]; nofun
  have h1 := inv.ids i c sid hi hc
  have h2 := inv.ids j d sid hj hd
  exact inv.inj i j c d hi hj nc nd (window_inj (h1.2.symm.trans h2.2) h1.1 h2.1
    (inv.young i c hi hrc nc) (inv.young j d hj hrd nd))

theorem seg_grow {s s' : Conc} {x x' : Span} {ext : List Frame} (hw : s'.wire = s.wire ++ ext)
    (hm : x'.mark = x.mark) (hs' : x'.stop = s'.wire.length) (hs : x.stop = s.wire.length)
    (hle : x.mark ≤ s.wire.length) : seg s' x' = seg s x ++ ext := by
  unfold seg
  rw [hs', hs, hm, List.take_length, List.take_length, hw, List.drop_append_of_le_length hle]

theorem seg_stay {s s' : Conc} {x x' : Span} {ext : List Frame} (hw : s'.wire = s.wire ++ ext)
    (hm : x'.mark = x.mark) (hs : x'.stop = x.stop) (hle : x.stop ≤ s.wire.length) :
    seg s' x' = seg s x := by
  unfold seg
  rw [hs, hm, hw, List.take_append_of_le_length hle]

theorem drawnId_some {s : Conc} {i : Nat} {c : Call} (h : s.calls[i]? = some c) :
    drawnId s i = callId c := by rw [drawnId, h]; rfl

theorem inProgress_some {s : Conc} {i : Nat} {c : Call} (h : s.calls[i]? = some c) :
    inProgress s i = running c := by rw [inProgress, h]; rfl

theorem CallOk.panicked {f : Option Nat} {w w' : List Frame} {c : Call} (hr : running c = false)
    (hn : callId c = none) (h : CallOk f w c) : CallOk f w' c := by
  cases c with
  | panicked p => exact h
  | probing p => cases hr
  | _ => cases hn

/-- A call that the step does not touch. -/
theorem long_other {m0 : RSocketMachine} {s s' : Conc} {span span' : Nat → Span}
    (inv : LongInv m0 s span) {ext : List Frame} (hw : s'.wire = s.wire ++ ext) {j : Nat} {d : Call}
    (hj : s.calls[j]? = some d)
    (h2 : ∀ i, drawnId s i ≠ none → (span' i).born = (span i).born ∧ (span' i).mark = (span i).mark)
    (h3 : ∀ i, inProgress s i = true → (span' i).stop = s'.wire.length)
    (h4 : ∀ i, inProgress s i = false → (span' i).stop = (span i).stop)
    (hother : running d = true → ∀ sid, callId d = some sid → onWire sid ext = []) :
    (callId d ≠ none → (span' j).mark ≤ (span' j).stop ∧ (span' j).stop ≤ s'.wire.length) ∧
      CallOk m0.chunkPayload (seg s' (span' j)) d := by
  have hle : s.wire.length ≤ s'.wire.length := by rw [hw, List.length_append]; omega
  cases hid : callId d with
  | none =>
    refine ⟨fun h => absurd rfl h, ?_⟩
    cases hr : running d with
    | false => exact (inv.call j d hj).panicked hr hid
    | true =>
      cases d with
      | probing p => exact trivial
      | panicked p => cases hr
      | _ => cases hid
  | some sid =>
    have hne : callId d ≠ none := by rw [hid]; nofun
    have hb := h2 j (by rw [drawnId_some hj]; exact hne)
    have hl := inv.le j d hj hne
    cases hr : running d with
    | false =>
      have hs := h4 j (by rw [inProgress_some hj]; exact hr)
      refine ⟨fun _ => ?_, ?_⟩
      · rw [hs, hb.2]
        omega
      · rw [seg_stay hw hb.2 hs hl.2]
        exact inv.call j d hj
    | true =>
      have hs := h3 j (by rw [inProgress_some hj]; exact hr)
      have he := inv.ends j d hj hr hne
      refine ⟨fun _ => ?_, ?_⟩
      · rw [hs, hb.2]
        omega
      · rw [seg_grow hw hb.2 hs he (by omega)]
        refine callOk_congr (fun x hx => ?_) (inv.call j d hj)
        rw [onWire_append, hother hr x hx, List.append_nil]

theorem longInv {dbg : Bool} {tr : Transport} {m0 : RSocketMachine} {s : Conc}
    {span : Nat → Span} (h : LongRun dbg tr m0 s span) : LongInv m0 s span := by
  induction h with
  | init =>
    exact ⟨rfl, (after_zero _).symm, fun i c sid hi => by simp [Conc.init] at hi,
      fun i j c d hi => by simp [Conc.init] at hi, fun i c hi => by simp [Conc.init] at hi,
      fun i c hi => by simp [Conc.init] at hi, fun i c hi => by simp [Conc.init] at hi,
      fun i c hi => by simp [Conc.init] at hi⟩
  | @step s s' span span' hrun hs h1 h2 h3 h4 h5 inv =>
    have hchunk := (step_chunk hs).trans inv.chunk
    have young : ∀ (i : Nat) (c : Call), s'.calls[i]? = some c → running c = true →
        callId c ≠ none → s'.draws ≤ (span' i).born + 2 ^ 30 := fun i c hi hr hn =>
      h5 i (by rw [inProgress_some hi]; exact hr) (by rw [drawnId_some hi]; exact hn)
    have born : ∀ {j : Nat} {d : Call}, s.calls[j]? = some d → callId d ≠ none →
        (span' j).born = (span j).born ∧ (span' j).mark = (span j).mark := fun hj hn =>
      h2 _ (by rw [drawnId_some hj]; exact hn)
    have stops : ∀ {j : Nat} {d : Call}, s.calls[j]? = some d → running d = true →
        (span' j).stop = s'.wire.length := fun hj hr =>
      h3 _ (by rw [inProgress_some hj]; exact hr)
    have lt31 : ∀ (i : Nat) (c : Call) (sid : U32), s.calls[i]? = some c → callId c = some sid →
        sid.toNat < 2 ^ 31 := by
      intro i c sid hi hc
      rw [(inv.ids i c sid hi hc).2]
      exact idAt_lt _ _
    cases step_kind hs lt31 with
    | call p hc hw hd hsid =>
      have key : ∀ {j : Nat} {d : Call}, s'.calls[j]? = some d →
          s.calls[j]? = some d ∨ d = .probing p := by
        intro j d hj
        rw [hc] at hj
        by_cases hl : j < s.calls.length
        · rw [List.getElem?_append_left hl] at hj
          exact .inl hj
        · rw [List.getElem?_append_right (by omega)] at hj
          cases hk : j - s.calls.length with
          | zero => rw [hk] at hj; cases hj; exact .inr rfl
          | succ k => rw [hk] at hj; cases hj
      have hw' : s'.wire = s.wire ++ [] := by rw [List.append_nil]; exact hw
      refine ⟨hchunk, by rw [hsid, hd]; exact inv.word, ?_, ?_, young, ?_, ?_, ?_⟩
      · intro i c sid hi hcs
        rcases key hi with hi | rfl
        · rw [(born hi (by rw [hcs]; nofun)).1, hd]
          exact inv.ids i c sid hi hcs
        · cases hcs
      · intro i j c d hi hj hnc hnd e
        rcases key hi with hi | rfl
        · rcases key hj with hj | rfl
          · rw [(born hi hnc).1, (born hj hnd).1] at e
            exact inv.inj i j c d hi hj hnc hnd e
          · exact absurd rfl hnd
        · exact absurd rfl hnc
      · intro i c hi hr hn
        rcases key hi with hi | rfl
        · exact stops hi hr
        · exact absurd rfl hn
      · intro i c hi hn
        rcases key hi with hi | rfl
        · exact (long_other inv hw' hi h2 h3 h4 fun _ _ _ => rfl).1 hn
        · exact absurd rfl hn
      · intro i c hi
        rcases key hi with hi | rfl
        · exact (long_other inv hw' hi h2 h3 h4 fun _ _ _ => rfl).2
        · exact trivial
    | fetch k p hk hc hw hd hsid =>
      have dr := draw_after m0.streamId s.draws
      rw [← inv.word] at dr
      have hw' : s'.wire = s.wire ++ [] := by rw [List.append_nil]; exact hw
      have hk' : s'.calls[k]? = some (.checking p s.machine.streamId.draw.1) := by
        rw [hc]
        exact List.getElem?_set_self' .. |>.trans (by rw [hk]; rfl)
      have new := h1 k (by rw [drawnId_some hk]; rfl) (by rw [drawnId_some hk']; nofun)
      have hstop := stops hk rfl
      refine ⟨hchunk, by rw [hsid, hd]; exact dr.2, ?_, ?_, young, ?_, ?_, ?_⟩
      · intro i c sid hi hcs
        rw [hc] at hi
        rcases getElem?_set_cases hi with ⟨rfl, rfl⟩ | ⟨-, hi⟩
        · cases hcs
          rw [new.1, hd]
          exact ⟨Nat.lt_succ_self _, dr.1⟩
        · rw [(born hi (by rw [hcs]; nofun)).1, hd]
          have := inv.ids i c sid hi hcs
          exact ⟨Nat.lt_succ_of_lt this.1, this.2⟩
      · intro i j c d hi hj hnc hnd e
        rw [hc] at hi hj
        have old : ∀ {j : Nat} {d : Call}, s.calls[j]? = some d → callId d ≠ none →
            (span' j).born < s.draws := by
          intro j d hj hnd
          rw [(born hj hnd).1]
          cases hd' : callId d with
          | none => exact absurd hd' hnd
          | some sid => exact (inv.ids j d sid hj hd').1
        rcases getElem?_set_cases hi with ⟨rfl, rfl⟩ | ⟨-, hi'⟩ <;>
          rcases getElem?_set_cases hj with ⟨rfl, rfl⟩ | ⟨-, hj'⟩
        · rfl
        · have := old hj' hnd
          omega
        · have := old hi' hnc
          omega
        · rw [(born hi' hnc).1, (born hj' hnd).1] at e
          exact inv.inj i j c d hi' hj' hnc hnd e
      · intro i c hi hr hn
        rw [hc] at hi
        rcases getElem?_set_cases hi with ⟨rfl, rfl⟩ | ⟨-, hi⟩
        · exact hstop
        · exact stops hi hr
      · intro i c hi hn
        rw [hc] at hi
        rcases getElem?_set_cases hi with ⟨rfl, rfl⟩ | ⟨-, hi⟩
        · rw [new.2, hstop, hw]
          exact ⟨Nat.le_refl _, Nat.le_refl _⟩
        · exact (long_other inv hw' hi h2 h3 h4 fun _ _ _ => rfl).1 hn
      · intro i c hi
        rw [hc] at hi
        rcases getElem?_set_cases hi with ⟨rfl, rfl⟩ | ⟨-, hi⟩
        · show onWire _ (seg s' (span' i)) = []
          unfold seg
          rw [new.2, hstop, hw, List.take_length, List.drop_length]
          rfl
        · exact (long_other inv hw' hi h2 h3 h4 fun _ _ _ => rfl).2
    | update k b b' ext hk hrb hnb hc hw hsub hext hd hsid hok hsame =>
      have hb := born hk hnb
      have hstop := stops hk hrb
      have hl := inv.le k b hk hnb
      have he := inv.ends k b hk hrb hnb
      have oth : ∀ {j : Nat} {d : Call}, j ≠ k → s.calls[j]? = some d → running d = true →
          ∀ sid, callId d = some sid → onWire sid ext = [] := by
        intro j d hne hj hr sid hds
        refine hext sid fun hbs => hne ?_
        exact inv.uniq hj hk hds hbs hr hrb
      have sub : callId b' ≠ none → callId b ≠ none := fun _ => hnb
      have hle : s.wire.length ≤ s'.wire.length := by rw [hw, List.length_append]; omega
      refine ⟨hchunk, by rw [hsid, hd]; exact inv.word, ?_, ?_, young, ?_, ?_, ?_⟩
      · intro i c sid hi hcs
        rw [hc] at hi
        rcases getElem?_set_cases hi with ⟨rfl, rfl⟩ | ⟨-, hi⟩
        · rw [hb.1, hd]
          exact inv.ids i b sid hk (hsub sid hcs)
        · rw [(born hi (by rw [hcs]; nofun)).1, hd]
          exact inv.ids i c sid hi hcs
      · intro i j c d hi hj hnc hnd e
        rw [hc] at hi hj
        rcases getElem?_set_cases hi with ⟨rfl, rfl⟩ | ⟨-, hi'⟩ <;>
          rcases getElem?_set_cases hj with ⟨rfl, rfl⟩ | ⟨-, hj'⟩
        · rfl
        · rw [hb.1, (born hj' hnd).1] at e
          exact inv.inj _ _ b d hk hj' hnb hnd e
        · rw [hb.1, (born hi' hnc).1] at e
          exact inv.inj _ _ c b hi' hk hnc hnb e
        · rw [(born hi' hnc).1, (born hj' hnd).1] at e
          exact inv.inj i j c d hi' hj' hnc hnd e
      · intro i c hi hr hn
        rw [hc] at hi
        rcases getElem?_set_cases hi with ⟨rfl, rfl⟩ | ⟨-, hi⟩
        · exact hstop
        · exact stops hi hr
      · intro i c hi hn
        rw [hc] at hi
        rcases getElem?_set_cases hi with ⟨rfl, rfl⟩ | ⟨hne, hi⟩
        · rw [hb.2, hstop]
          omega
        · exact (long_other inv hw hi h2 h3 h4 (oth hne hi)).1 hn
      · intro i c hi
        rw [hc] at hi
        rcases getElem?_set_cases hi with ⟨rfl, rfl⟩ | ⟨hne, hi⟩
        · rw [seg_grow hw hb.2 hstop he (by omega), ← inv.chunk]
          apply hok
          rw [inv.chunk]
          exact inv.call i b hk
        · exact (long_other inv hw hi h2 h3 h4 (oth hne hi)).2
    | other ext hc hw hext hd hsid =>
      refine ⟨hchunk, by rw [hsid, hd]; exact inv.word, ?_, ?_, young, ?_, ?_, ?_⟩
      · intro i c sid hi hcs
        rw [hc] at hi
        rw [(born hi (by rw [hcs]; nofun)).1, hd]
        exact inv.ids i c sid hi hcs
      · intro i j c d hi hj hnc hnd e
        rw [hc] at hi hj
        rw [(born hi hnc).1, (born hj hnd).1] at e
        exact inv.inj i j c d hi hj hnc hnd e
      · intro i c hi hr hn
        rw [hc] at hi
        exact stops hi hr
      · intro i c hi hn
        rw [hc] at hi
        exact (long_other inv hw hi h2 h3 h4 fun _ sid _ => hext sid).1 hn
      · intro i c hi
        rw [hc] at hi
        exact (long_other inv hw hi h2 h3 h4 fun _ sid _ => hext sid).2

/-- A step is part of a long execution if every call in progress drew its id in this step or recently. -/
theorem longRun_extend {dbg : Bool} {tr : Transport} {m : RSocketMachine} {s s' : Conc}
    {span : Nat → Span} (h : LongRun dbg tr m s span) (hs : ConcStep dbg tr s s')
    (recent : ∀ i, inProgress s' i = true → drawnId s' i ≠ none →
      s'.draws ≤ (if drawnId s i = none then s.draws else (span i).born) + 2 ^ 30) :
    ∃ span', LongRun dbg tr m s' span' ∧
      ∀ i, (span' i).born = if drawnId s i = none then s.draws else (span i).born :=
  ⟨fun i => ⟨if drawnId s i = none then s.draws else (span i).born,
    if drawnId s i = none then s.wire.length else (span i).mark,
    if inProgress s i = true then s'.wire.length else (span i).stop⟩,
    h.step hs (fun _ h1 _ => ⟨if_pos h1, if_pos h1⟩) (fun _ h1 => ⟨if_neg h1, if_neg h1⟩)
      (fun _ h1 => if_pos h1) (fun _ h1 => if_neg (by rw [h1]; nofun)) recent, fun _ => rfl⟩

theorem step_draws {dbg : Bool} {tr : Transport} {s s' : Conc} (h : ConcStep dbg tr s s') :
    s'.draws ≤ s.draws + 1 := by
  cases h with
  | fetch i p hi => exact Nat.le_refl _
  | _ => exact Nat.le_succ _

/-- A call that has ended stays as it is. -/
theorem step_ended {dbg : Bool} {tr : Transport} {s s' : Conc} (h : ConcStep dbg tr s s') {i : Nat}
    {c : Call} (hi : s.calls[i]? = some c) (hr : running c = false) : s'.calls[i]? = some c := by
  have upd : ∀ {j : Nat} {a b : Call}, s.calls[j]? = some a → running a = true →
      (s.calls.set j b)[i]? = some c := by
    intro j a b hj ha
    by_cases e : j = i
    · subst e
      rw [hi] at hj
      cases hj
      rw [ha] at hr
      cases hr
    · rw [List.getElem?_set_ne e]
      exact hi
  cases h with
  | call payload =>
    show (s.calls ++ [Call.probing payload])[i]? = some c
    have hl : i < s.calls.length := by
      apply Nat.lt_of_not_le
      intro hle
      rw [List.getElem?_eq_none hle] at hi
      cases hi
    rw [List.getElem?_append_left hl]
    exact hi
  | fetch j payload hj => exact upd hj rfl
  | checkUsed j payload sid hj hu => exact upd hj rfl
  | checkFree j payload sid hj hu => exact upd hj rfl
  | sendOne j payload sid f hj hf => exact upd hj rfl
  | sendChunk j payload sid idx n chunks chunks' chunked f hj hn hf ha => exact upd hj rfl
  | sendChunkErr j payload sid idx n chunks chunks' chunked f er hj hn hf ha => exact upd hj rfl
  | finish j payload sid idx n chunks chunks' hj hn => exact upd hj rfl
  | push md => exact hi
  | env r => exact hi

/-- What holds of every reachable state, however many ids were drawn. -/
structure FreeInv (m0 : RSocketMachine) (s : Conc) : Prop where
  chunk : s.machine.chunkPayload = m0.chunkPayload
  ids : ∀ (i : Nat) (c : Call) (sid : U32), s.calls[i]? = some c → callId c = some sid →
    sid.toNat < 2 ^ 31
  call : ∀ (i : Nat) c, s.calls[i]? = some c → ∃ w, CallOk m0.chunkPayload w c
  owner : ∀ sid, onWire sid s.wire ≠ [] → ∃ (i : Nat) (c : Call) (w : List Frame),
    s.calls[i]? = some c ∧ callId c = some sid ∧ CallOk m0.chunkPayload w c ∧ onWire sid w ≠ []

theorem draw_lt (p : StreamIdProvider) : p.draw.1.toNat < 2 ^ 31 := by
  have := (draw_after p 0).1
  rw [after_zero] at this
  rw [this]
  exact idAt_lt _ _

theorem freeInv {dbg : Bool} {tr : Transport} {m0 : RSocketMachine} {s : Conc}
    (h : ConcReachable dbg tr m0 s) : FreeInv m0 s := by
  induction h with
  | init =>
    exact ⟨rfl, fun i c sid hi => by simp [Conc.init] at hi, fun i c hi => by simp [Conc.init] at hi,
      fun sid h => absurd rfl h⟩
  | @step s s' hrun hs inv =>
    have hchunk := (step_chunk hs).trans inv.chunk
    cases step_kind hs inv.ids with
    | call p hc hw hd hsid =>
      have key : ∀ {j : Nat} {d : Call}, s'.calls[j]? = some d →
          s.calls[j]? = some d ∨ d = .probing p := by
        intro j d hj
        rw [hc] at hj
        by_cases hl : j < s.calls.length
        · rw [List.getElem?_append_left hl] at hj
          exact .inl hj
        · rw [List.getElem?_append_right (by omega)] at hj
          cases hk : j - s.calls.length with
          | zero => rw [hk] at hj; cases hj; exact .inr rfl
          | succ k => rw [hk] at hj; cases hj
      refine ⟨hchunk, ?_, ?_, ?_⟩
      · intro i c sid hi hcs
        rcases key hi with hi | rfl
        · exact inv.ids i c sid hi hcs
        · cases hcs
      · intro i c hi
        rcases key hi with hi | rfl
        · exact inv.call i c hi
        · exact ⟨[], trivial⟩
      · intro sid hne
        rw [hw] at hne
        obtain ⟨i, c, w, h1, h2⟩ := inv.owner sid hne
        refine ⟨i, c, w, ?_, h2⟩
        rw [hc, List.getElem?_append_left]
        · exact h1
        · apply Nat.lt_of_not_le
          intro hle
          rw [List.getElem?_eq_none hle] at h1
          cases h1
    | fetch k p hk hc hw hd hsid =>
      refine ⟨hchunk, ?_, ?_, ?_⟩
      · intro i c sid hi hcs
        rw [hc] at hi
        rcases getElem?_set_cases hi with ⟨rfl, rfl⟩ | ⟨-, hi⟩
        · cases hcs
          exact draw_lt _
        · exact inv.ids i c sid hi hcs
      · intro i c hi
        rw [hc] at hi
        rcases getElem?_set_cases hi with ⟨rfl, rfl⟩ | ⟨-, hi⟩
        · exact ⟨[], rfl⟩
        · exact inv.call i c hi
      · intro sid hne
        rw [hw] at hne
        obtain ⟨i, c, w, h1, h2⟩ := inv.owner sid hne
        refine ⟨i, c, w, ?_, h2⟩
        rw [hc, List.getElem?_set_ne]
        · exact h1
        · rintro rfl
          rw [hk] at h1
          cases h1
          cases h2.1
    | update k b b' ext hk hrb hnb hc hw hsub hext hd hsid hok hsame =>
      rw [inv.chunk] at hok
      refine ⟨hchunk, ?_, ?_, ?_⟩
      · intro i c sid hi hcs
        rw [hc] at hi
        rcases getElem?_set_cases hi with ⟨rfl, rfl⟩ | ⟨-, hi⟩
        · exact inv.ids i b sid hk (hsub sid hcs)
        · exact inv.ids i c sid hi hcs
      · intro i c hi
        rw [hc] at hi
        rcases getElem?_set_cases hi with ⟨rfl, rfl⟩ | ⟨-, hi⟩
        · obtain ⟨w, h⟩ := inv.call i b hk
          exact ⟨w ++ ext, hok w h⟩
        · exact inv.call i c hi
      · intro sid hne
        rw [hw, onWire_append] at hne
        have self : s'.calls[k]? = some b' := by
          rw [hc]
          exact List.getElem?_set_self' .. |>.trans (by rw [hk]; rfl)
        by_cases he : onWire sid ext = []
        · rw [he, List.append_nil] at hne
          obtain ⟨i, c, w, h1, h2, h3, h4⟩ := inv.owner sid hne
          by_cases hik : i = k
          · subst hik
            rw [hk] at h1
            cases h1
            rcases hsame with e | ⟨rfl, p, x, rfl⟩
            · exact ⟨i, b', w ++ ext, self, e.trans h2, hok w h3, by
                rw [onWire_append, he, List.append_nil]; exact h4⟩
            · cases h2
              exact absurd h3 h4
          · exact ⟨i, c, w, by rw [hc, List.getElem?_set_ne (Ne.symm hik)]; exact h1, h2, h3, h4⟩
        · obtain ⟨w, h⟩ := inv.call k b hk
          have hid : callId b = some sid := Classical.byContradiction fun h => he (hext sid h)
          rcases hsame with e | ⟨rfl, p, x, rfl⟩
          · refine ⟨k, b', w ++ ext, self, e.trans hid, hok w h, ?_⟩
            rw [onWire_append]
            intro hnil
            exact he (List.append_eq_nil_iff.1 hnil).2
          · exact absurd rfl he
    | other ext hc hw hext hd hsid =>
      refine ⟨hchunk, ?_, ?_, ?_⟩
      · intro i c sid hi hcs
        rw [hc] at hi
        exact inv.ids i c sid hi hcs
      · intro i c hi
        rw [hc] at hi
        exact inv.call i c hi
      · intro sid hne
        rw [hw, onWire_append, hext, List.append_nil] at hne
        obtain ⟨i, c, w, h1, h2⟩ := inv.owner sid hne
        exact ⟨i, c, w, by rw [hc]; exact h1, h2⟩

end Binate
