import Verif.Lemmas.Owner
import Verif.Lemmas.Long

/-! # Concurrent `fire_and_forget` calls

C57. The system is the step relation `ConcStep`: any number of threads call `fire_and_forget` and
`metadata_push` on one machine, every shared access and every send is one step, the transport
is any function of what it was handed before, and the map of receivers may change at any time. -/

namespace Binate

open Spec PayloadChunks RSocketMachine

/-- **C57.** In every reachable state with at most 2^30 ids drawn, what is on the wire for the id
of a call is a prefix of exactly the frames that the same call would send alone: all of them when
it has returned `Ok`, at least one when it has returned an error. For parts of 1..2^24 bytes these
frames are one per chunk, FOLLOWS on all but the last. -/
theorem C57_own_frames {dbg : Bool} {tr : Transport} {m : RSocketMachine} {s : Conc}
    (h : ConcReachable dbg tr m s) (hd : s.draws ≤ 2 ^ 30) (h0 : m.chunkPayload ≠ some 0)
    {i : Nat} {c : Call} (hi : s.calls[i]? = some c) {sid : U32} (hs : callId c = some sid) :
    ∃ frames, fnfSend dbg openTransport m.chunkPayload sid (callPayload c) [] =
        .ok (.ok (), frames) ∧
      s.wire.filter (onStream sid) <+: frames ∧
      (callResult c = some (.ok ()) → s.wire.filter (onStream sid) = frames) ∧
      (∀ e, callResult c = some (.error e) → s.wire.filter (onStream sid) ≠ []) ∧
      (PartOk (callPayload c).metadata → PartOk (callPayload c).data →
        frames = fnfFrames sid m.chunkPayload (callPayload c)) := by
  have inv := concInv h hd
  have hlt := sid_lt inv hi hs
  have hc := inv.call i c hi
  refine ⟨callFrames sid m.chunkPayload (callPayload c), ?_, ?_, ?_, ?_,
    fun h1 h2 => callFrames_exact h0 h1 h2⟩
  · rw [fnfSend_spec hlt h0, deliver_open, List.nil_append]
  · show onWire sid s.wire <+: _
    cases c with
    | probing => cases hs
    | panicked => cases hs
    | checking p x =>
      cases hs
      have : onWire sid s.wire = [] := hc
      rw [this]; exact List.nil_prefix
    | sendingOne p x =>
      cases hs
      have : onWire sid s.wire = [] := hc.2
      rw [this]; exact List.nil_prefix
    | sending p x idx n chunks =>
      cases hs
      obtain ⟨-, -, -, -, -, -, e⟩ := hc
      rw [e]; exact List.take_prefix _ _
    | done p x r =>
      cases hs
      cases r with
      | ok u => rw [hc.2]; exact List.prefix_refl _
      | error e =>
        obtain ⟨-, k, -, -, e'⟩ := hc
        rw [e']; exact List.take_prefix _ _
  · intro hr
    cases c with
    | done p x r => cases hr; cases hs; exact hc.2
    | _ => cases hr
  · intro e hr
    cases c with
    | done p x r =>
      cases hr; cases hs
      obtain ⟨-, k, k0, k1, e'⟩ := hc
      show onWire sid s.wire ≠ []
      rw [e']
      intro hnil
      have := congrArg List.length hnil
      rw [List.length_take, List.length_nil] at this
      have k1' : k ≤ (callFrames sid m.chunkPayload p).length := k1
      have : min k (callFrames sid m.chunkPayload p).length = 0 := this
      omega
    | _ => cases hr

/-- **C57**: two calls never have the same id. -/
theorem C57_distinct_ids {dbg : Bool} {tr : Transport} {m : RSocketMachine} {s : Conc}
    (h : ConcReachable dbg tr m s) (hd : s.draws ≤ 2 ^ 30) {i j : Nat} {c d : Call} {sid : U32}
    (hi : s.calls[i]? = some c) (hj : s.calls[j]? = some d) (hc : callId c = some sid)
    (hd' : callId d = some sid) : i = j :=
  (concInv h hd).uniq i j c d sid hi hj hc hd'

/-- **C57**: every REQUEST_FNF frame on the wire belongs to exactly one of the calls, and has a
31-bit id. -/
theorem C57_no_stray_frame {dbg : Bool} {tr : Transport} {m : RSocketMachine} {s : Conc}
    (h : ConcReachable dbg tr m s) (hd : s.draws ≤ 2 ^ 30) {v : RequestFnfFrame}
    (hv : Frame.requestFnf v ∈ s.wire) :
    v.streamId.toNat < 2 ^ 31 ∧
    ∃ i : Nat, (∃ c, s.calls[i]? = some c ∧ callId c = some v.streamId) ∧
      ∀ j : Nat, (∃ c, s.calls[j]? = some c ∧ callId c = some v.streamId) → j = i := by
  have inv := concInv h hd
  have hne : onWire v.streamId s.wire ≠ [] := by
    intro hnil
    have : Frame.requestFnf v ∈ onWire v.streamId s.wire :=
      List.mem_filter.2 ⟨hv, beq_self_eq_true v.streamId⟩
    rw [hnil] at this
    cases this
  obtain ⟨i, c, h1, h2⟩ := inv.owner _ hne
  exact ⟨sid_lt inv h1 h2, i, ⟨c, h1, h2⟩,
    fun j ⟨d, h3, h4⟩ => inv.uniq j i d c _ h3 h1 h4 h2⟩

/-- **C57**: a call stops at the first refused frame and returns that error, and returns `Ok` only
when every frame was accepted. The transport's answers to its frames are all `Ok`, except for the
last one if the call has returned an error, which is that error. -/
theorem C57_answers {dbg : Bool} {tr : Transport} {m : RSocketMachine} {s : Conc}
    (h : ConcReachable dbg tr m s) (hd : s.draws ≤ 2 ^ 30) {i : Nat} {c : Call}
    (hi : s.calls[i]? = some c) {sid : U32} (hs : callId c = some sid) :
    ∃ k, answers tr sid s.wire = List.replicate k (.ok ()) ++
      match callResult c with
      | some (.error e) => [.error e]
      | _ => [] :=
  ansInv h hd i c sid hi hs

/-- **C57**, however many ids were drawn, so also when the ids of two calls are equal: every frame on the
wire is accounted for by one call of `fire_and_forget` or of `metadata_push`. The METADATA_PUSH frames are
those of the calls of `metadata_push`, in their order, with the metadata that was passed, and each of these
calls returns the answer to its frame. There is one call per payload passed to `fire_and_forget`. What it
has handed over is a prefix of exactly
the frames it would send alone with its id, all of them when it has returned `Ok`; the answers it got are
all `Ok`, except for the last one if the call has returned an error, which is that error. Its id is
below 2^31 and has the parity of the machine's counter. A call without an id has handed over nothing. -/
theorem C57_every_age {dbg : Bool} {tr : Transport} {m : RSocketMachine} {s : Conc}
    (h : ConcReachable dbg tr m s) (h0 : m.chunkPayload ≠ some 0) :
    ∃ log, Accounts tr s.wire log ∧
      (∀ x ∈ log, ∀ i, x.owner = some i → i < s.calls.length) ∧
      s.calls.map callPayload = askedPayloads s.asked ∧
      pushedBy log = (askedPushes s.asked).map (fun p => (.metadataPush ⟨p.1⟩, p.2)) ∧
      ∀ (i : Nat) c, s.calls[i]? = some c →
        (callId c = none → sentBy i log = []) ∧
        ∀ sid, callId c = some sid →
          sid.toNat < 2 ^ 31 ∧ sid.toNat % 2 = m.streamId.word.toNat % 2 ∧
          (∃ frames, fnfSend dbg openTransport m.chunkPayload sid (callPayload c) [] =
              .ok (.ok (), frames) ∧
            (sentBy i log).map Sent.frame <+: frames ∧
            (callResult c = some (.ok ()) → (sentBy i log).map Sent.frame = frames) ∧
            (PartOk (callPayload c).metadata → PartOk (callPayload c).data →
              frames = fnfFrames sid m.chunkPayload (callPayload c))) ∧
          ∃ k, (sentBy i log).map Sent.answer = List.replicate k (.ok ()) ++
            match callResult c with
            | some (.error e) => [.error e]
            | _ => [] := by
  obtain ⟨log, inv⟩ := ownInv h
  refine ⟨log, inv.acc, inv.lt, inv.payloads, inv.pushed, fun i c hi => ?_⟩
  have hc := inv.call i c hi
  refine ⟨?_, fun sid hs => ?_⟩
  · exact own_nil hc
  · obtain ⟨hlt, hp⟩ := inv.ids i c sid hi hs
    refine ⟨hlt, hp, ⟨callFrames sid m.chunkPayload (callPayload c), ?_, ?_, ?_,
      fun h1 h2 => callFrames_exact h0 h1 h2⟩, ?_⟩
    · rw [fnfSend_spec hlt h0, deliver_open, List.nil_append]
    · exact own_prefix hc hs
    · intro hr
      cases c with
      | done p x r => cases hr; cases hs; exact hc.2.1
      | _ => cases hr
    · cases c with
      | probing => cases hs
      | panicked => cases hs
      | checking p x =>
        have : sentBy i log = [] := hc
        exact ⟨0, by rw [this]; rfl⟩
      | sendingOne p x => exact ⟨0, by rw [hc.2]; rfl⟩
      | sending p x idx n chunks =>
        obtain ⟨-, -, -, -, -, -, -, e⟩ := hc
        exact ⟨idx, by rw [e]; exact (List.append_nil _).symm⟩
      | done p x r =>
        cases r with
        | ok u =>
          obtain ⟨-, -, k, e⟩ := hc
          exact ⟨k, by rw [e]; exact (List.append_nil _).symm⟩
        | error e =>
          obtain ⟨-, k, -, e'⟩ := hc
          exact ⟨k, e'⟩

/-- **C57**: both methods can be called at any time, with anything, and change nothing for the calls that
are under way; `metadata_push` hands over its frame at once. -/
theorem C57_can_ask (dbg : Bool) (tr : Transport) (s : Conc) (payload : Payload) (md : Bytes) :
    (∃ s' c, ConcStep dbg tr s s' ∧ s'.asked = s.asked ++ [.fireAndForget payload] ∧
      s'.calls = s.calls ++ [c] ∧ callPayload c = payload ∧ callId c = none ∧ running c = true ∧
      s'.wire = s.wire ∧ s'.machine = s.machine) ∧
    (∃ s', ConcStep dbg tr s s' ∧
      s'.asked = s.asked ++ [.metadataPush md (tr s.wire (.metadataPush ⟨md⟩))] ∧
      s'.wire = s.wire ++ [.metadataPush ⟨md⟩] ∧ s'.calls = s.calls ∧ s'.machine = s.machine) :=
  ⟨⟨_, _, .call s payload, rfl, rfl, rfl, rfl, rfl, rfl, rfl⟩,
    ⟨_, .push s md, rfl, rfl, rfl, rfl⟩⟩

/-- **C57**: with fragment size 0 no request frame is ever sent, and every call that got past its
id has panicked, however many ids were drawn. -/
theorem C57_zero_size {dbg : Bool} {tr : Transport} {m : RSocketMachine} {s : Conc}
    (h : ConcReachable dbg tr m s) (h0 : m.chunkPayload = some 0) :
    (∀ sid, s.wire.filter (onStream sid) = []) ∧
    ∀ (i : Nat) c, s.calls[i]? = some c →
      (∃ p, c = .probing p) ∨ (∃ p sid, c = .checking p sid) ∨ ∃ p, c = .panicked p := by
  have inv := freeInv h
  have key : ∀ {w : List Frame} {c : Call}, CallOk m.chunkPayload w c →
      (∃ p, c = .probing p) ∨ (∃ p sid, c = .checking p sid) ∨ ∃ p, c = .panicked p := by
    intro w c hc
    rw [h0] at hc
    cases c with
    | probing p => exact .inl ⟨p, rfl⟩
    | checking p sid => exact .inr (.inl ⟨p, sid, rfl⟩)
    | panicked p => exact .inr (.inr ⟨p, rfl⟩)
    | sendingOne p sid => exact nomatch hc.1
    | sending p sid idx n chunks =>
      obtain ⟨size, h1, h2, -⟩ := hc
      cases h1
      exact absurd h2 (Nat.lt_irrefl _)
    | done p sid r =>
      cases r with
      | ok u => exact absurd rfl hc.1
      | error e => exact absurd rfl hc.1
  refine ⟨fun sid => ?_, fun i c hi => ?_⟩
  · apply Classical.byContradiction
    intro hne
    obtain ⟨i, c, w, hi, hs, hw, hn⟩ := inv.owner sid hne
    rcases key hw with ⟨p, rfl⟩ | ⟨p, sid', rfl⟩ | ⟨p, rfl⟩
    · cases hs
    · cases hs
      exact hn hw
    · cases hs
  · obtain ⟨w, hw⟩ := inv.call i c hi
    exact key hw

/-- **C57**: a step never changes the payload of a call, never takes a frame off the wire, and
never changes the outcome of a call that has returned or panicked. -/
theorem C57_history {dbg : Bool} {tr : Transport} {s s' : Conc} (h : ConcStep dbg tr s s') :
    s.wire <+: s'.wire ∧
    ∀ (i : Nat) c, s.calls[i]? = some c → ∃ c', s'.calls[i]? = some c' ∧ callPayload c' = callPayload c ∧
      (running c = false → c' = c) := by
  have upd : ∀ {i : Nat} {a b : Call}, s.calls[i]? = some a → running a = true →
      callPayload b = callPayload a → ∀ (j : Nat) c, s.calls[j]? = some c →
      ∃ c', (s.calls.set i b)[j]? = some c' ∧ callPayload c' = callPayload c ∧
        (running c = false → c' = c) := by
    intro i a b hi ha hb j c hj
    by_cases e : i = j
    · subst e
      rw [hi] at hj
      cases hj
      refine ⟨b, List.getElem?_set_self' .. |>.trans (by rw [hi]; rfl), hb, fun hr => ?_⟩
      rw [ha] at hr
      cases hr
    · exact ⟨c, by rw [List.getElem?_set_ne e]; exact hj, rfl, fun _ => rfl⟩
  have aft : ∀ (m : RSocketMachine) p x, callPayload (afterId m p x) = p := by
    intro m p x
    unfold afterId
    cases m.chunkPayload with
    | none => rfl
    | some size => simp only; cases p.chunks size <;> rfl
  cases h with
  | call payload =>
    refine ⟨List.prefix_refl _, fun i c hi => ⟨c, ?_, rfl, fun _ => rfl⟩⟩
    show (s.calls ++ [Call.probing payload])[i]? = some c
    have hl : i < s.calls.length := by
      apply Nat.lt_of_not_le
      intro hle
      rw [List.getElem?_eq_none hle] at hi
      cases hi
    rw [List.getElem?_append_left hl]
    exact hi
  | fetch i payload hi => exact ⟨List.prefix_refl _, upd hi rfl rfl⟩
  | checkUsed i payload sid hi hu => exact ⟨List.prefix_refl _, upd hi rfl rfl⟩
  | checkFree i payload sid hi hu => exact ⟨List.prefix_refl _, upd hi rfl (aft _ _ _)⟩
  | sendOne i payload sid f hi hf => exact ⟨List.prefix_append _ _, upd hi rfl rfl⟩
  | sendChunk i payload sid idx n chunks chunks' chunked f hi hn hf ha =>
    exact ⟨List.prefix_append _ _, upd hi rfl rfl⟩
  | sendChunkErr i payload sid idx n chunks chunks' chunked f er hi hn hf ha =>
    exact ⟨List.prefix_append _ _, upd hi rfl rfl⟩
  | finish i payload sid idx n chunks chunks' hi hn => exact ⟨List.prefix_refl _, upd hi rfl rfl⟩
  | push md => exact ⟨List.prefix_append _ _, fun i c hi => ⟨c, hi, rfl, fun _ => rfl⟩⟩
  | env r => exact ⟨List.prefix_refl _, fun i c hi => ⟨c, hi, rfl, fun _ => rfl⟩⟩

/-- **C57**: no call blocks another. Whatever the others have done, and however many ids were drawn, a
running call can take a step of its own. -/
theorem C57_progress {dbg : Bool} {tr : Transport} {m : RSocketMachine} {s : Conc}
    (h : ConcReachable dbg tr m s) {i : Nat} {c : Call}
    (hi : s.calls[i]? = some c) (hr : running c = true) :
    ∃ s' c', ConcStep dbg tr s s' ∧ s'.calls[i]? = some c' ∧ c' ≠ c := by
  have inv := freeInv h
  have self : ∀ b : Call, (s.calls.set i b)[i]? = some b := fun b =>
    List.getElem?_set_self' .. |>.trans (by rw [hi]; rfl)
  cases c with
  | done => cases hr
  | panicked => cases hr
  | probing p => exact ⟨_, _, .fetch s i p hi, self _, nofun⟩
  | checking p sid =>
    cases hu : s.machine.receivers sid with
    | true => exact ⟨_, _, .checkUsed s i p sid hi hu, self _, nofun⟩
    | false =>
      refine ⟨_, _, .checkFree s i p sid hi hu, self _, ?_⟩
      unfold afterId
      cases s.machine.chunkPayload with
      | none => nofun
      | some size => simp only; cases p.chunks size <;> nofun
  | sendingOne p sid =>
    obtain ⟨v, h1, -⟩ := fnf_new (dbg := dbg) (inv.ids _ _ sid hi rfl) false p
    exact ⟨_, _, .sendOne s i p sid v hi h1, self _, nofun⟩
  | sending p sid idx n chunks =>
    rcases hn : chunks.next with ⟨_ | ch, chunks'⟩
    · exact ⟨_, _, .finish s i p sid idx n chunks chunks' hi hn, self _, nofun⟩
    · obtain ⟨v, h1, -⟩ := fnf_new (dbg := dbg) (inv.ids _ _ sid hi rfl) (idx + 1 != n) ch
      cases ha : tr s.wire (.requestFnf v) with
      | ok u =>
        refine ⟨_, _, .sendChunk s i p sid idx n chunks chunks' ch v hi hn h1 ha, self _, ?_⟩
        intro e
        injection e with _ _ e
        omega
      | error er =>
        exact ⟨_, _, .sendChunkErr s i p sid idx n chunks chunks' ch v er hi hn h1 ha, self _, nofun⟩

/-- **C57**: once it has its id, a call can always run to its end if the others pause: it returns,
and returns `Ok` if the transport accepts everything. -/
theorem C57_completes {dbg : Bool} {tr : Transport} {m : RSocketMachine} {s : Conc}
    (h : ConcReachable dbg tr m s) {i : Nat} {p : Payload} {sid : U32}
    {idx n : Nat} {chunks : PayloadChunks}
    (hi : s.calls[i]? = some (.sending p sid idx n chunks)) :
    ∃ s' r, ConcReachable dbg tr m s' ∧ s'.draws = s.draws ∧
      s'.calls = s.calls.set i (.done p sid r) ∧ ((∀ w f, tr w f = .ok ()) → r = .ok ()) := by
  obtain ⟨w, size, h1, h2, -⟩ := (freeInv h).call i _ hi
  generalize hk : chunkCount size p - idx = k
  induction k generalizing s idx chunks with
  | zero =>
    obtain ⟨w', size', h1', -, h3, -, -, -⟩ := (freeInv h).call i _ hi
    rw [h1] at h1'
    cases h1'
    have nn : (afterNext idx ⟨size, p.metadata, p.data⟩).next.1 =
        if idx < chunkCount size p then some (chunkAt size p idx) else none :=
      nth_next (c := ⟨size, p.metadata, p.data⟩) h2 idx
    rw [← h3, if_neg (by omega)] at nn
    exact ⟨_, _, .step h (.finish s i p sid idx n chunks chunks.next.2 hi (Prod.ext nn rfl)), rfl,
      rfl, fun _ => rfl⟩
  | succ k ih =>
    obtain ⟨w', size', h1', -, h3, -, -, -⟩ := (freeInv h).call i _ hi
    rw [h1] at h1'
    cases h1'
    have nn : (afterNext idx ⟨size, p.metadata, p.data⟩).next.1 =
        if idx < chunkCount size p then some (chunkAt size p idx) else none :=
      nth_next (c := ⟨size, p.metadata, p.data⟩) h2 idx
    rw [← h3, if_pos (by omega)] at nn
    obtain ⟨v, hv, -⟩ := fnf_new (dbg := dbg) ((freeInv h).ids _ _ sid hi rfl)
      (idx + 1 != n) (chunkAt size p idx)
    cases ha : tr s.wire (.requestFnf v) with
    | error e =>
      exact ⟨_, _, .step h (.sendChunkErr s i p sid idx n chunks chunks.next.2 _ v e hi
        (Prod.ext nn rfl) hv ha), rfl, rfl, fun hall => by rw [hall] at ha; cases ha⟩
    | ok u =>
      have st := ConcStep.sendChunk (dbg := dbg) (tr := tr) s i p sid idx n chunks chunks.next.2 _ v
        hi (Prod.ext nn rfl) hv ha
      obtain ⟨s', r, r1, r2, r3, r4⟩ := ih (.step h st) (idx := idx + 1) (chunks := chunks.next.2)
        (List.getElem?_set_self' .. |>.trans (by rw [hi]; rfl)) (by omega)
      refine ⟨s', r, r1, r2, r3.trans ?_, r4⟩
      show (s.calls.set i _).set i _ = _
      rw [List.set_set]

/-- A machine with fragment size 1 and this id counter, for the example. -/
abbrev exampleMachine (w : U32) : RSocketMachine := { fragmenting 1 with streamId := ⟨w⟩ }

/-- Two calls with fragment size 1 whose frames alternate on the wire. -/
theorem exampleTwoCalls : ∃ s, ConcReachable true openTransport (fragmenting 1) s ∧ s.draws = 2 ∧
    s.wire = [fnfFrame 3#32 true ⟨none, some [3#8]⟩, fnfFrame 1#32 true ⟨none, some [1#8]⟩,
      fnfFrame 3#32 false ⟨none, some [4#8]⟩, fnfFrame 1#32 false ⟨none, some [2#8]⟩] ∧
    s.calls.map callResult = [some (.ok ()), none] := by
  let a : Payload := ⟨none, some [1#8, 2#8]⟩
  let b : Payload := ⟨none, some [3#8, 4#8]⟩
  let na := PayloadChunks.len ⟨1, none, some [1#8, 2#8]⟩
  let nb := PayloadChunks.len ⟨1, none, some [3#8, 4#8]⟩
  have ha : na = 2 := len_afterNext (c := ⟨1, none, some [1#8, 2#8]⟩) (by decide) 0
    nofun nofun (by decide) (by decide)
  have hb : nb = 2 := len_afterNext (c := ⟨1, none, some [3#8, 4#8]⟩) (by decide) 0
    nofun nofun (by decide) (by decide)
  let R := ConcReachable true openTransport (fragmenting 1)
  let f (sid : U32) (b : Bool) (x : U8) : Frame := fnfFrame sid b ⟨none, some [x]⟩
  have via : ∀ {s s' s'' : Conc}, R s → ConcStep true openTransport s s' → s' = s'' → R s'' :=
    fun r h e => e ▸ r.step h
  let q : List Asked := [.fireAndForget a, .fireAndForget b]
  have r0 : R ⟨exampleMachine 1#32, [], 0, [], []⟩ := .init
  have r1 : R ⟨exampleMachine 1#32, [.probing a], 0, [], [.fireAndForget a]⟩ := r0.step (.call _ a)
  have r2 : R ⟨exampleMachine 1#32, [.probing a, .probing b], 0, [], q⟩ := r1.step (.call _ b)
  have r3 : R ⟨exampleMachine 3#32, [.checking a 1#32, .probing b], 1, [], q⟩ := via r2 (.fetch _ 0 a rfl) (by simp only [Conc.set]; rfl)
  have r4 : R ⟨exampleMachine 5#32, [.checking a 1#32, .checking b 3#32], 2, [], q⟩ :=
    via r3 (.fetch _ 1 b rfl) (by simp only [Conc.set]; rfl)
  have r5 : R ⟨exampleMachine 5#32, [.checking a 1#32, .sending b 3#32 0 nb ⟨1, none, b.data⟩], 2, [], q⟩ :=
    r4.step (.checkFree _ 1 b 3#32 rfl rfl)
  have r6 : R ⟨exampleMachine 5#32, [.sending a 1#32 0 na ⟨1, none, a.data⟩,
      .sending b 3#32 0 nb ⟨1, none, b.data⟩], 2, [], q⟩ :=
    r5.step (.checkFree _ 0 a 1#32 rfl rfl)
  have r7 : R ⟨exampleMachine 5#32, [.sending a 1#32 0 na ⟨1, none, a.data⟩,
      .sending b 3#32 1 nb ⟨1, none, some [4#8]⟩], 2, [f 3#32 true 3#8], q⟩ :=
    r6.step (.sendChunk _ 1 b 3#32 0 nb _ ⟨1, none, some [4#8]⟩
      ⟨none, some [3#8]⟩ ⟨3#32, ⟨0x40#16⟩, ⟨none, some [3#8]⟩⟩ rfl rfl (by rw [hb]; rfl) rfl)
  have r8 : R ⟨exampleMachine 5#32, [.sending a 1#32 1 na ⟨1, none, some [2#8]⟩,
      .sending b 3#32 1 nb ⟨1, none, some [4#8]⟩], 2, [f 3#32 true 3#8, f 1#32 true 1#8], q⟩ :=
    r7.step (.sendChunk _ 0 a 1#32 0 na _ ⟨1, none, some [2#8]⟩
      ⟨none, some [1#8]⟩ ⟨1#32, ⟨0x40#16⟩, ⟨none, some [1#8]⟩⟩ rfl rfl (by rw [ha]; rfl) rfl)
  have r9 : R ⟨exampleMachine 5#32, [.sending a 1#32 1 na ⟨1, none, some [2#8]⟩,
      .sending b 3#32 2 nb ⟨1, none, none⟩], 2,
      [f 3#32 true 3#8, f 1#32 true 1#8, f 3#32 false 4#8], q⟩ :=
    r8.step (.sendChunk _ 1 b 3#32 1 nb _ ⟨1, none, none⟩
      ⟨none, some [4#8]⟩ ⟨3#32, ⟨0#16⟩, ⟨none, some [4#8]⟩⟩ rfl rfl (by rw [hb]; rfl) rfl)
  have r10 : R ⟨exampleMachine 5#32, [.sending a 1#32 2 na ⟨1, none, none⟩,
      .sending b 3#32 2 nb ⟨1, none, none⟩], 2,
      [f 3#32 true 3#8, f 1#32 true 1#8, f 3#32 false 4#8, f 1#32 false 2#8], q⟩ :=
    r9.step (.sendChunk _ 0 a 1#32 1 na _ ⟨1, none, none⟩
      ⟨none, some [2#8]⟩ ⟨1#32, ⟨0#16⟩, ⟨none, some [2#8]⟩⟩ rfl rfl (by rw [ha]; rfl) rfl)
  exact ⟨_, r10.step (.finish _ 0 a 1#32 2 na _ ⟨1, none, none⟩ rfl rfl), rfl, rfl, rfl⟩

/-- A new server with this id counter, for the example. -/
abbrev exampleServer (w : U32) : RSocketMachine :=
  { RSocketMachine.new .server 60 0 with streamId := ⟨w⟩ }

/-- A transport that refuses everything: the call puts one frame on the wire and returns its
error. -/
example (e : Error) : ∃ s, ConcReachable true (fun _ _ => .error e) (RSocketMachine.new .server 60 0) s ∧
    s.wire = [fnfFrame 2#32 false ⟨none, some [7#8]⟩] ∧
    s.calls.map callResult = [some (.error e)] ∧
    answers (fun _ _ => .error e) 2#32 s.wire = [.error e] := by
  let p : Payload := ⟨none, some [7#8]⟩
  let R := ConcReachable true (fun _ _ => .error e) (RSocketMachine.new .server 60 0)
  have via : ∀ {s s' s'' : Conc}, R s → ConcStep true (fun _ _ => .error e) s s' → s' = s'' → R s'' :=
    fun r h e => e ▸ r.step h
  have r1 : R ⟨exampleServer 2#32, [.probing p], 0, [], [.fireAndForget p]⟩ := ConcReachable.init.step (.call _ p)
  have r2 : R ⟨exampleServer 4#32, [.checking p 2#32], 1, [], [.fireAndForget p]⟩ := via r1 (.fetch _ 0 p rfl) (by simp only [Conc.set]; rfl)
  have r3 : R ⟨exampleServer 4#32, [.sendingOne p 2#32], 1, [], [.fireAndForget p]⟩ := r2.step (.checkFree _ 0 p 2#32 rfl rfl)
  exact ⟨_, r3.step (.sendOne _ 0 p 2#32 ⟨2#32, ⟨0#16⟩, p⟩ rfl rfl), rfl, rfl, rfl⟩

end Binate
