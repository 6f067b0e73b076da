import Verif.Lemmas.Socket

/-! # Invariant of concurrent `fire_and_forget` calls -/

namespace Binate

open Spec PayloadChunks RSocketMachine

/-- The frames on one stream. -/
def onWire (sid : U32) (wire : List Frame) : List Frame := wire.filter (onStream sid)

theorem onWire_append_same {sid : U32} {wire : List Frame} {b : Bool} {p : Payload} :
    onWire sid (wire ++ [fnfFrame sid b p]) = onWire sid wire ++ [fnfFrame sid b p] := by
  have : onStream sid (fnfFrame sid b p) = true := beq_self_eq_true sid
  rw [onWire, List.filter_append, List.filter_cons_of_pos this]
  rfl

theorem onWire_append_other {sid sid' : U32} (h : sid ≠ sid') {wire : List Frame} {b : Bool}
    {p : Payload} : onWire sid (wire ++ [fnfFrame sid' b p]) = onWire sid wire := by
  have : ¬ (onStream sid (fnfFrame sid' b p) = true) := by
    intro e
    exact h (beq_iff_eq.1 e).symm
  rw [onWire, List.filter_append, List.filter_cons_of_neg this, List.filter_nil, List.append_nil]
  rfl

theorem onWire_append_push {sid : U32} {wire : List Frame} {md : Bytes} :
    onWire sid (wire ++ [Frame.metadataPush (MetadataPushFrame.new md)]) = onWire sid wire := by
  rw [onWire, List.filter_append]
  exact List.append_nil _

/-- What one call has put on the wire so far. -/
def CallOk (fragment : Option Nat) (wire : List Frame) : Call → Prop
  | .probing _ => True
  | .panicked _ => fragment = some 0
  | .checking _ sid => onWire sid wire = []
  | .sendingOne _ sid => fragment = none ∧ onWire sid wire = []
  | .sending p sid idx n chunks => ∃ size, fragment = some size ∧ 0 < size ∧
      chunks = afterNext idx ⟨size, p.metadata, p.data⟩ ∧
      n = PayloadChunks.len ⟨size, p.metadata, p.data⟩ ∧ idx ≤ chunkCount size p ∧
      onWire sid wire = (callFrames sid fragment p).take idx
  | .done p sid (.ok _) => fragment ≠ some 0 ∧ onWire sid wire = callFrames sid fragment p
  | .done p sid (.error _) => fragment ≠ some 0 ∧ ∃ k, 0 < k ∧
      k ≤ (callFrames sid fragment p).length ∧ onWire sid wire = (callFrames sid fragment p).take k

theorem callOk_congr {fragment : Option Nat} {w w' : List Frame} {c : Call}
    (h : ∀ sid, callId c = some sid → onWire sid w' = onWire sid w) (hc : CallOk fragment w c) :
    CallOk fragment w' c := by
  cases c with
  | probing => exact trivial
  | panicked => exact hc
  | checking p sid => rw [CallOk, h sid rfl]; exact hc
  | sendingOne p sid => rw [CallOk, h sid rfl]; exact hc
  | sending p sid idx n chunks => rw [CallOk, h sid rfl]; exact hc
  | done p sid r =>
    cases r with
    | ok u => rw [CallOk, h sid rfl]; exact hc
    | error e => rw [CallOk, h sid rfl]; exact hc

/-- Invariant of all reachable states with at most 2^30 draws. -/
structure ConcInv (m0 : RSocketMachine) (s : Conc) : Prop where
  chunk : s.machine.chunkPayload = m0.chunkPayload
  word : s.machine.streamId = after m0.streamId s.draws
  ids : ∀ (i : Nat) (c : Call) (sid : U32), s.calls[i]? = some c → callId c = some sid →
    ∃ n, n < s.draws ∧ sid.toNat = idAt m0.streamId.word.toNat n
  uniq : ∀ (i j : Nat) (c d : Call) (sid : U32), s.calls[i]? = some c → s.calls[j]? = some d →
    callId c = some sid → callId d = some sid → i = j
  owner : ∀ (sid : U32), onWire sid s.wire ≠ [] →
    ∃ (i : Nat) (c : Call), s.calls[i]? = some c ∧ callId c = some sid
  call : ∀ (i : Nat) c, s.calls[i]? = some c → CallOk m0.chunkPayload s.wire c

theorem ConcInv.old {m0 : RSocketMachine} {s : Conc} (inv : ConcInv m0 s) (sid : U32)
    (h : onWire sid s.wire ≠ []) :
    ∃ n, n < s.draws ∧ sid.toNat = idAt m0.streamId.word.toNat n := by
  obtain ⟨i, c, h1, h2⟩ := inv.owner sid h
  exact inv.ids i c sid h1 h2

theorem getElem?_set_cases {α : Type} {l : List α} {i j : Nat} {a b : α}
    (h : (l.set i a)[j]? = some b) : (j = i ∧ b = a) ∨ (j ≠ i ∧ l[j]? = some b) := by
  rw [List.getElem?_set] at h
  by_cases e : i = j
  · rw [if_pos e] at h
    split at h
    · cases h
      exact .inl ⟨e.symm, rfl⟩
    · cases h
  · rw [if_neg e] at h
    exact .inr ⟨fun h => e h.symm, h⟩

/-- A step that changes only call `i`, keeping its id (or dropping it), and appends at most frames
on that id. -/
theorem concInv_update {m0 : RSocketMachine} {s : Conc} (inv : ConcInv m0 s) {i : Nat}
    {c c' : Call} (hi : s.calls[i]? = some c) (hsid : ∀ sid, callId c' = some sid → callId c = some sid)
    {wire' : List Frame}
    (hkeep : ∀ sid, callId c = some sid → onWire sid wire' ≠ [] → callId c' = some sid)
    (hw : ∀ sid, callId c ≠ some sid → onWire sid wire' = onWire sid s.wire)
    (hc : CallOk m0.chunkPayload wire' c') :
    ConcInv m0 { s with calls := s.calls.set i c', wire := wire' } := by
  refine ⟨inv.chunk, inv.word, ?_, ?_, ?_, ?_⟩
  · intro j d sid hj hd
    rcases getElem?_set_cases hj with ⟨rfl, rfl⟩ | ⟨-, hj⟩
    · exact inv.ids j c sid hi (hsid sid hd)
    · exact inv.ids j d sid hj hd
  · intro j k d e sid hj hk hd he
    rcases getElem?_set_cases hj with ⟨rfl, rfl⟩ | ⟨-, hj'⟩ <;>
      rcases getElem?_set_cases hk with ⟨rfl, rfl⟩ | ⟨-, hk'⟩
    · rfl
    · exact inv.uniq _ _ c e sid hi hk' (hsid sid hd) he
    · exact inv.uniq _ _ d c sid hj' hi hd (hsid sid he)
    · exact inv.uniq _ _ d e sid hj' hk' hd he
  · intro sid hne
    by_cases h : callId c = some sid
    · exact ⟨i, c', List.getElem?_set_self' .. |>.trans (by rw [hi]; rfl), hkeep sid h hne⟩
    · obtain ⟨j, d, hj, hd⟩ := inv.owner sid (by rw [← hw sid h]; exact hne)
      have hij : i ≠ j := by
        rintro rfl
        rw [hi] at hj
        cases hj
        exact h hd
      exact ⟨j, d, by rw [List.getElem?_set_ne hij]; exact hj, hd⟩
  · intro j d hj
    rcases getElem?_set_cases hj with ⟨rfl, rfl⟩ | ⟨hne, hj⟩
    · exact hc
    · refine callOk_congr (fun sid hd => hw sid fun h => hne ?_) (inv.call j d hj)
      exact inv.uniq j i d c sid hj hi hd h

theorem callFrames_some (sid : U32) (size : Nat) (p : Payload) :
    callFrames sid (some size) p = (List.range (chunkCount size p)).map fun i =>
      fnfFrame sid (i + 1 != PayloadChunks.len ⟨size, p.metadata, p.data⟩) (chunkAt size p i) := rfl

theorem take_callFrames {sid : U32} {size idx : Nat} {p : Payload} (h : idx < chunkCount size p) :
    (callFrames sid (some size) p).take (idx + 1) = (callFrames sid (some size) p).take idx ++
      [fnfFrame sid (idx + 1 != PayloadChunks.len ⟨size, p.metadata, p.data⟩) (chunkAt size p idx)] := by
  rw [List.take_add_one, callFrames_some, List.getElem?_map, List.getElem?_range h]
  rfl

theorem afterNext_succ (n : Nat) (c : PayloadChunks) :
    afterNext (n + 1) c = (afterNext n c).next.2 := by
  induction n generalizing c with
  | zero => rfl
  | succ n ih => exact ih c.next.2

theorem sid_lt {m0 : RSocketMachine} {s : Conc} (inv : ConcInv m0 s) {i : Nat} {c : Call}
    (hi : s.calls[i]? = some c) {sid : U32} (h : callId c = some sid) : sid.toNat < 2 ^ 31 := by
  obtain ⟨n, -, e⟩ := inv.ids i c sid hi h
  rw [e]
  exact idAt_lt _ _

theorem concInv {dbg : Bool} {tr : Transport} {m0 : RSocketMachine} {s : Conc}
    (h : ConcReachable dbg tr m0 s)
    (hd : s.draws ≤ 2 ^ 30) : ConcInv m0 s := by
  induction h with
  | init =>
    exact ⟨rfl, (after_zero _).symm, fun i c sid hi => by simp [Conc.init] at hi,
      fun i j c d sid hi => by simp [Conc.init] at hi, fun sid h => absurd rfl h,
      fun i c hi => by simp [Conc.init] at hi⟩
  | @step s s' _ hs ih =>
    cases hs with
    | call payload =>
      have inv := ih hd
      have key : ∀ {j : Nat} {d : Call}, (s.calls ++ [Call.probing payload])[j]? = some d →
          s.calls[j]? = some d ∨ d = .probing payload := by
        intro j d hj
        by_cases hl : j < s.calls.length
        · rw [List.getElem?_append_left hl] at hj
          exact .inl hj
        · rw [List.getElem?_append_right (by omega)] at hj
          cases hk : j - s.calls.length with
          | zero => rw [hk] at hj; cases hj; exact .inr rfl
          | succ k => rw [hk] at hj; cases hj
      refine ⟨inv.chunk, inv.word, ?_, ?_, ?_, ?_⟩
      · intro j d sid hj hd'
        rcases key hj with hj | rfl
        · exact inv.ids j d sid hj hd'
        · cases hd'
      · intro j k d e sid hj hk hd' he
        rcases key hj with hj | rfl
        · rcases key hk with hk | rfl
          · exact inv.uniq j k d e sid hj hk hd' he
          · cases he
        · cases hd'
      · intro sid hne
        obtain ⟨j, d, hj, hd'⟩ := inv.owner sid hne
        refine ⟨j, d, ?_, hd'⟩
        show (s.calls ++ [Call.probing payload])[j]? = some d
        rw [List.getElem?_append_left]
        · exact hj
        · apply Nat.lt_of_not_le
          intro hle
          rw [List.getElem?_eq_none hle] at hj
          cases hj
      · intro j d hj
        rcases key hj with hj | rfl
        · exact inv.call j d hj
        · exact trivial
    | fetch i payload hi =>
      have hd1 : s.draws + 1 ≤ 2 ^ 30 := hd
      have inv := ih (by omega)
      have dr := draw_after m0.streamId s.draws
      rw [← inv.word] at dr
      have fresh : ∀ n, n < s.draws →
          (s.machine.streamId.draw).1.toNat ≠ idAt m0.streamId.word.toNat n := by
        intro n hn e
        rw [dr.1] at e
        have := idAt_inj e (by omega) (by omega)
        omega
      refine ⟨inv.chunk, dr.2, ?_, ?_, ?_, ?_⟩
      · intro j d sid hj hd'
        rcases getElem?_set_cases hj with ⟨rfl, rfl⟩ | ⟨-, hj⟩
        · cases hd'
          exact ⟨s.draws, Nat.lt_succ_self _, dr.1⟩
        · obtain ⟨n, h1, h2⟩ := inv.ids j d sid hj hd'
          exact ⟨n, Nat.lt_succ_of_lt h1, h2⟩
      · intro j k d e sid hj hk hd' he
        rcases getElem?_set_cases hj with ⟨rfl, rfl⟩ | ⟨-, hj'⟩ <;>
          rcases getElem?_set_cases hk with ⟨rfl, rfl⟩ | ⟨-, hk'⟩
        · rfl
        · cases hd'
          obtain ⟨n, h1, h2⟩ := inv.ids _ _ _ hk' he
          exact absurd h2 (fresh n h1)
        · cases he
          obtain ⟨n, h1, h2⟩ := inv.ids _ _ _ hj' hd'
          exact absurd h2 (fresh n h1)
        · exact inv.uniq j k d e sid hj' hk' hd' he
      · intro sid hne
        obtain ⟨j, d, hj, hd'⟩ := inv.owner sid hne
        have hij : i ≠ j := by
          rintro rfl
          rw [hi] at hj
          cases hj
          cases hd'
        refine ⟨j, d, ?_, hd'⟩
        show (s.calls.set i _)[j]? = some d
        rw [List.getElem?_set_ne hij]
        exact hj
      · intro j d hj
        rcases getElem?_set_cases hj with ⟨rfl, rfl⟩ | ⟨-, hj⟩
        · show onWire _ s.wire = []
          apply Classical.byContradiction
          intro hne
          obtain ⟨n, h1, h2⟩ := inv.old _ hne
          exact fresh n h1 h2
        · exact inv.call j d hj
    | checkUsed i payload sid hi hu =>
      have hc := (ih hd).call i _ hi
      refine concInv_update (ih hd) (c' := .probing payload) (wire' := s.wire) hi
        (fun x h => by cases h) (fun x hx hne => ?_) (fun _ _ => rfl) trivial
      cases hx
      exact absurd hc hne
    | checkFree i payload sid hi hu =>
      have inv := ih hd
      have hc := inv.call i _ hi
      refine concInv_update inv (c' := afterId s.machine payload sid) (wire' := s.wire) hi ?_
        (fun x hx hne => ?_) (fun _ _ => rfl) ?_
      rotate_left
      · cases hx
        exact absurd hc hne
      · unfold afterId
        rw [inv.chunk]
        cases hm : m0.chunkPayload with
        | none => exact ⟨rfl, hc⟩
        | some size =>
          rcases Nat.eq_zero_or_pos size with rfl | h0
          · simp only [chunks_zero]
            exact rfl
          · simp only [chunks_ok h0]
            exact ⟨size, rfl, h0, rfl, rfl, Nat.zero_le _, hc⟩
      · intro x hx
        unfold afterId at hx
        cases hm : s.machine.chunkPayload with
        | none => rw [hm] at hx; exact hx
        | some size =>
          rw [hm] at hx
          rcases Nat.eq_zero_or_pos size with rfl | h0
          · simp only [chunks_zero] at hx
            cases hx
          · simp only [chunks_ok h0] at hx
            exact hx
    | sendOne i payload sid f hi hf =>
      have inv := ih hd
      have hc := inv.call i _ hi
      have hlt := sid_lt inv hi (sid := sid) rfl
      have e := fnf_new_unique hlt hf
      rw [e]
      generalize tr s.wire (fnfFrame sid false payload) = res
      refine concInv_update inv (c' := (.done payload sid res)) hi (fun x h => h)
        (fun x h _ => h) (fun x hx => ?_) ?_
      · exact onWire_append_other fun h => hx (by rw [h]; rfl)
      · obtain ⟨h1, h2⟩ := hc
        cases res with
        | ok u =>
          refine ⟨(by rw [h1]; exact nofun), ?_⟩
          rw [onWire_append_same, h2, h1]
          rfl
        | error er =>
          refine ⟨(by rw [h1]; exact nofun), 1, Nat.one_pos, ?_, ?_⟩
          · rw [h1]; exact Nat.le_refl _
          · rw [onWire_append_same, h2, h1]
            rfl
    | sendChunk i payload sid idx n chunks chunks' chunked f hi hn hf ha =>
      have inv := ih hd
      obtain ⟨size, h1, h2, h3, h4, h5, h6⟩ := inv.call i _ hi
      have hlt := sid_lt inv hi (sid := sid) rfl
      have e := fnf_new_unique hlt hf
      have nn : (afterNext idx ⟨size, payload.metadata, payload.data⟩).next.1 =
          if idx < chunkCount size payload then some (chunkAt size payload idx) else none :=
        nth_next (c := ⟨size, payload.metadata, payload.data⟩) h2 idx
      rw [← h3, hn] at nn
      have hlt2 : idx < chunkCount size payload := by
        apply Nat.lt_of_not_le
        intro hle
        rw [if_neg (Nat.not_lt.2 hle)] at nn
        cases nn
      rw [if_pos hlt2] at nn
      cases nn
      rw [e]
      refine concInv_update inv (c' := (.sending payload sid (idx + 1) n chunks')) hi (fun x h => h)
        (fun x h _ => h) (fun x hx => ?_) ?_
      · exact onWire_append_other fun h => hx (by rw [h]; rfl)
      · refine ⟨size, h1, h2, ?_, h4, hlt2, ?_⟩
        · rw [afterNext_succ, ← h3, hn]
        · rw [onWire_append_same, h6, h1, take_callFrames hlt2, h4]
    | sendChunkErr i payload sid idx n chunks chunks' chunked f er hi hn hf ha =>
      have inv := ih hd
      obtain ⟨size, h1, h2, h3, h4, h5, h6⟩ := inv.call i _ hi
      have hlt := sid_lt inv hi (sid := sid) rfl
      have e := fnf_new_unique hlt hf
      have nn : (afterNext idx ⟨size, payload.metadata, payload.data⟩).next.1 =
          if idx < chunkCount size payload then some (chunkAt size payload idx) else none :=
        nth_next (c := ⟨size, payload.metadata, payload.data⟩) h2 idx
      rw [← h3, hn] at nn
      have hlt2 : idx < chunkCount size payload := by
        apply Nat.lt_of_not_le
        intro hle
        rw [if_neg (Nat.not_lt.2 hle)] at nn
        cases nn
      rw [if_pos hlt2] at nn
      cases nn
      rw [e]
      refine concInv_update inv (c' := (.done payload sid (.error er))) hi (fun x h => h)
        (fun x h _ => h) (fun x hx => ?_) ?_
      · exact onWire_append_other fun h => hx (by rw [h]; rfl)
      · refine ⟨by rw [h1]; intro h; cases h; exact Nat.lt_irrefl _ h2, idx + 1,
          Nat.succ_pos _, ?_, ?_⟩
        · rw [h1, callFrames_some, List.length_map, List.length_range]
          exact hlt2
        · rw [onWire_append_same, h6, h1, take_callFrames hlt2, h4]
    | finish i payload sid idx n chunks chunks' hi hn =>
      have inv := ih hd
      obtain ⟨size, h1, h2, h3, h4, h5, h6⟩ := inv.call i _ hi
      have nn : (afterNext idx ⟨size, payload.metadata, payload.data⟩).next.1 =
          if idx < chunkCount size payload then some (chunkAt size payload idx) else none :=
        nth_next (c := ⟨size, payload.metadata, payload.data⟩) h2 idx
      rw [← h3, hn] at nn
      have hle : chunkCount size payload ≤ idx := by
        apply Nat.le_of_not_lt
        intro hlt
        rw [if_pos hlt] at nn
        cases nn
      refine concInv_update inv (c' := .done payload sid (.ok ())) (wire' := s.wire) hi
        (fun x h => h) (fun x h _ => h) (fun _ _ => rfl) ?_
      refine ⟨by rw [h1]; intro h; cases h; exact Nat.lt_irrefl _ h2, ?_⟩
      rw [h6, List.take_of_length_le]
      rw [h1, callFrames_some, List.length_map, List.length_range]
      exact hle
    | push md =>
      have inv := ih hd
      refine ⟨inv.chunk, inv.word, inv.ids, inv.uniq, ?_, ?_⟩
      · intro sid hne
        exact inv.owner sid (by rw [← onWire_append_push (md := md)]; exact hne)
      · intro j d hj
        exact callOk_congr (fun _ _ => onWire_append_push) (inv.call j d hj)
    | env receivers =>
      have inv := ih hd
      exact ⟨inv.chunk, inv.word, inv.ids, inv.uniq, inv.owner, inv.call⟩

theorem answersFrom_append (tr : Transport) (sid : U32) (f : Frame) :
    ∀ (wire past : List Frame), answersFrom tr sid past (wire ++ [f]) =
      answersFrom tr sid past wire ++ if onStream sid f then [tr (past ++ wire) f] else []
  | [], past => by
    rw [List.nil_append, answersFrom, answersFrom, List.append_nil]
    cases onStream sid f <;> rfl
  | g :: wire, past => by
    rw [List.cons_append, answersFrom, answersFrom, answersFrom_append tr sid f wire,
      List.append_assoc, List.singleton_append]
    cases onStream sid g <;> rfl

theorem answers_append (tr : Transport) (sid : U32) (f : Frame) (wire : List Frame) :
    answers tr sid (wire ++ [f]) =
      answers tr sid wire ++ if onStream sid f then [tr wire f] else [] :=
  answersFrom_append tr sid f wire []

theorem answersFrom_none (tr : Transport) (sid : U32) : ∀ (wire past : List Frame),
    wire.filter (onStream sid) = [] → answersFrom tr sid past wire = []
  | [], _, _ => rfl
  | g :: wire, past, h => by
    cases hg : onStream sid g with
    | true => rw [List.filter_cons_of_pos hg] at h; cases h
    | false =>
      rw [List.filter_cons_of_neg (by rw [hg]; nofun)] at h
      rw [answersFrom, hg]
      exact answersFrom_none tr sid wire _ h

/-- What a call's answers look like. -/
def AnsOk (c : Call) (as : List (Except Error Unit)) : Prop :=
  ∃ k, as = List.replicate k (.ok ()) ++
    match callResult c with
    | some (.error e) => [.error e]
    | _ => []

theorem ansInv {dbg : Bool} {tr : Transport} {m0 : RSocketMachine} {s : Conc}
    (h : ConcReachable dbg tr m0 s) (hd : s.draws ≤ 2 ^ 30) :
    ∀ (i : Nat) (c : Call) (sid : U32), s.calls[i]? = some c → callId c = some sid →
      AnsOk c (answers tr sid s.wire) := by
  induction h with
  | init => intro i c sid hi; simp [Conc.init] at hi
  | @step s s' hr hs ih =>
    have inv' := concInv (hr.step hs) hd
    -- a step that changes call `i` only and does not send
    have quiet : ∀ {i : Nat} {c c' : Call}, s.draws ≤ 2 ^ 30 → s.calls[i]? = some c →
        (∀ sid, callId c' = some sid → callId c = some sid) → callResult c = none →
        callResult c' = none ∨ callResult c' = some (.ok ()) →
        ∀ (j : Nat) (d : Call) (sid : U32), (s.calls.set i c')[j]? = some d →
          callId d = some sid → AnsOk d (answers tr sid s.wire) := by
      intro i c c' hd0 hi hid hc hc' j d sid hj hd'
      rcases getElem?_set_cases hj with ⟨rfl, rfl⟩ | ⟨-, hj⟩
      · obtain ⟨k, hk⟩ := ih hd0 j c sid hi (hid sid hd')
        rw [hc] at hk
        refine ⟨k, hk.trans ?_⟩
        rcases hc' with h | h <;> rw [h]
      · exact ih hd0 j d sid hj hd'
    -- a step in which call `i` sends a frame on its stream
    have send : ∀ {i : Nat} {c c' : Call} {sid0 : U32} {f : Frame}, s.draws ≤ 2 ^ 30 →
        s.calls[i]? = some c → callId c = some sid0 → callId c' = some sid0 →
        callResult c = none →
        onStream sid0 f = true → (∀ sid, onStream sid f = true → sid = sid0) →
        (tr s.wire f = .ok () ∧ (callResult c' = none ∨ callResult c' = some (.ok ())) ∨
          ∃ e, tr s.wire f = .error e ∧ callResult c' = some (.error e)) →
        ∀ (j : Nat) (d : Call) (sid : U32), (s.calls.set i c')[j]? = some d →
          callId d = some sid → AnsOk d (answers tr sid (s.wire ++ [f])) := by
      intro i c c' sid0 f hd0 hi hid hid' hc hf hf' hans j d sid hj hd'
      rw [answers_append]
      rcases getElem?_set_cases hj with ⟨rfl, rfl⟩ | ⟨hne, hj⟩
      · rw [hid'] at hd'
        cases hd'
        obtain ⟨k, hk⟩ := ih hd0 j c sid0 hi hid
        rw [hc] at hk
        rw [hk, hf, if_pos rfl]
        rcases hans with ⟨h1, h2⟩ | ⟨e, h1, h2⟩
        · refine ⟨k + 1, ?_⟩
          rw [h1, List.replicate_succ']
          rcases h2 with h | h <;> rw [h] <;> simp
        · refine ⟨k, ?_⟩
          rw [h1, h2]
          simp
      · have hfs : ¬ (onStream sid f = true) := by
          intro e
          have := hf' sid e
          subst this
          exact hne ((concInv hr hd0).uniq j i d c sid hj hi hd' hid)
        rw [if_neg hfs, List.append_nil]
        exact ih hd0 j d sid hj hd'
    cases hs with
    | call payload =>
      intro j d sid hj hd'
      by_cases hl : j < s.calls.length
      · have hj : (s.calls ++ [Call.probing payload])[j]? = some d := hj
        rw [List.getElem?_append_left hl] at hj
        exact ih hd j d sid hj hd'
      · have hj : (s.calls ++ [Call.probing payload])[j]? = some d := hj
        rw [List.getElem?_append_right (by omega)] at hj
        cases hk : j - s.calls.length with
        | zero => rw [hk] at hj; cases hj; cases hd'
        | succ k => rw [hk] at hj; cases hj
    | fetch i payload hi =>
      have hd1 : s.draws + 1 ≤ 2 ^ 30 := hd
      intro j d sid hj hd'
      have hok := inv'.call j d hj
      rcases getElem?_set_cases hj with ⟨rfl, rfl⟩ | ⟨-, hj⟩
      · cases hd'
        exact ⟨0, answersFrom_none _ _ _ _ hok⟩
      · exact ih (by omega) j d sid hj hd'
    | checkUsed i payload sid hi hu => exact quiet hd hi (fun _ h => by cases h) rfl (.inl rfl)
    | checkFree i payload sid hi hu =>
      have ha : callResult (afterId s.machine payload sid) = none := by
        unfold afterId
        cases s.machine.chunkPayload with
        | none => rfl
        | some size => simp only; cases payload.chunks size <;> rfl
      refine quiet hd hi (fun x hx => ?_) rfl (.inl ha)
      unfold afterId at hx
      cases hm : s.machine.chunkPayload with
      | none => rw [hm] at hx; exact hx
      | some size =>
        rw [hm] at hx
        simp only at hx
        cases hp : payload.chunks size <;> rw [hp] at hx
        · exact hx
        · cases hx
        · cases hx
    | sendOne i payload sid f hi hf =>
      have hlt := sid_lt (concInv hr hd) hi (sid := sid) rfl
      have e := fnf_new_unique hlt hf
      refine send hd hi rfl rfl rfl (by rw [e]; exact beq_self_eq_true sid)
        (by rw [e]; intro x hx; exact (beq_iff_eq.1 hx).symm) ?_
      cases ht : tr s.wire (Frame.requestFnf f) with
      | ok u => exact .inl ⟨rfl, .inr rfl⟩
      | error er => exact .inr ⟨er, rfl, rfl⟩
    | sendChunk i payload sid idx n chunks chunks' chunked f hi hn hf ha =>
      have hlt := sid_lt (concInv hr hd) hi (sid := sid) rfl
      have e := fnf_new_unique hlt hf
      exact send hd hi rfl rfl rfl (by rw [e]; exact beq_self_eq_true sid)
        (by rw [e]; intro x hx; exact (beq_iff_eq.1 hx).symm) (.inl ⟨ha, .inl rfl⟩)
    | sendChunkErr i payload sid idx n chunks chunks' chunked f er hi hn hf ha =>
      have hlt := sid_lt (concInv hr hd) hi (sid := sid) rfl
      have e := fnf_new_unique hlt hf
      exact send hd hi rfl rfl rfl (by rw [e]; exact beq_self_eq_true sid)
        (by rw [e]; intro x hx; exact (beq_iff_eq.1 hx).symm) (.inr ⟨er, ha, rfl⟩)
    | finish i payload sid idx n chunks chunks' hi hn =>
      exact quiet hd hi (fun _ h => h) rfl (.inr rfl)
    | push md =>
      intro j d sid hj hd'
      show AnsOk d (answers tr sid (s.wire ++ [_]))
      rw [answers_append, show onStream sid (Frame.metadataPush (MetadataPushFrame.new md)) = false
        from rfl, if_neg Bool.false_ne_true, List.append_nil]
      exact ih hd j d sid hj hd'
    | env receivers => exact ih hd

theorem new_word (role : Role) (t now : Nat) :
    (RSocketMachine.new role t now).streamId.word.toNat = firstId role := by cases role <;> rfl

end Binate
