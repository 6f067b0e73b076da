import Verif.Spec.Socket
import Verif.Lemmas.Chunks
import Verif.Lemmas.Ctor
import Verif.Lemmas.StreamId

/-! # Facts about sending -/

namespace Binate

open Spec PayloadChunks RSocketMachine

theorem fnf_new {dbg : Bool} {sid : U32} (h : sid.toNat < 2 ^ 31) (follows : Bool) (p : Payload) :
    ∃ v, RequestFnfFrame.new dbg sid follows p = .ok v ∧
      Frame.requestFnf v = fnfFrame sid follows p := by
  have e : RequestFnfFrame.new dbg sid follows p =
      .ok ⟨sid &&& MAX_U31, if p.hasMetadata then
        (if follows then Flags.empty.union Flags.FOLLOWS else Flags.empty).union Flags.METADATA
      else if follows then Flags.empty.union Flags.FOLLOWS else Flags.empty, p⟩ := by
    unfold RequestFnfFrame.new
    rw [dam31_ok (fun _ => h)]
    rfl
  refine ⟨_, e, ?_⟩
  rw [masked31 h, fnfFrame]
  congr 2
  show (if p.metadata.isSome then _ else _) = _
  generalize p.metadata.isSome = b
  cases follows <;> cases b <;> decide

theorem fnf_new_unique {dbg : Bool} {sid : U32} (h : sid.toNat < 2 ^ 31) {follows : Bool}
    {p : Payload} {v : RequestFnfFrame} (hv : RequestFnfFrame.new dbg sid follows p = .ok v) :
    Frame.requestFnf v = fnfFrame sid follows p := by
  obtain ⟨w, h1, h2⟩ := fnf_new (dbg := dbg) h follows p
  rw [h1] at hv
  cases hv
  exact h2

/-- The frames the loop produces, whatever `len()` said. -/
def loopFrames (sid : U32) (size n : Nat) (p : Payload) : List Frame :=
  (List.range (chunkCount size p)).map fun i => fnfFrame sid (i + 1 != n) (chunkAt size p i)

/-- All frames a call produces. -/
def callFrames (sid : U32) (fragment : Option Nat) (p : Payload) : List Frame :=
  match fragment with
  | none => [fnfFrame sid false p]
  | some size => loopFrames sid size (PayloadChunks.len ⟨size, p.metadata, p.data⟩) p

/-- Handing frames over one by one. -/
def deliver (tr : Transport) : List Frame → List Frame → Except Error Unit × List Frame
  | sent, [] => (.ok (), sent)
  | sent, f :: fs =>
    match tr sent f with
    | .error e => (.error e, sent ++ [f])
    | .ok () => deliver tr (sent ++ [f]) fs

theorem deliver_spec (tr : Transport) (frames : List Frame) (sent : List Frame) :
    Delivered tr sent frames (deliver tr sent frames).1 (deliver tr sent frames).2 := by
  induction frames generalizing sent with
  | nil =>
    refine ⟨0, Nat.le_refl _, by simp [deliver], fun i f h _ => by omega, ?_⟩
    exact ⟨rfl, fun f h => by simp at h⟩
  | cons f fs ih =>
    cases ht : tr sent f with
    | error e =>
      have e1 : deliver tr sent (f :: fs) = (.error e, sent ++ [f]) := by
        rw [deliver]; simp only [ht]
      rw [e1]
      refine ⟨1, by simp, by simp, fun i g h _ => by omega, 0, f, rfl, rfl, ?_⟩
      rw [List.take_zero, List.append_nil]
      exact ht
    | ok u =>
      have e1 : deliver tr sent (f :: fs) = deliver tr (sent ++ [f]) fs := by
        rw [deliver]; simp only [ht]
      rw [e1]
      obtain ⟨k, h1, h2, h3, h4⟩ := ih (sent ++ [f])
      refine ⟨k + 1, by simpa using h1, by rw [h2]; simp, ?_, ?_⟩
      · intro i g hi hg
        cases i with
        | zero =>
          rw [List.take_zero, List.append_nil]
          cases hg
          exact ht
        | succ i =>
          have := h3 i g (by omega) (by simpa using hg)
          simpa using this
      · cases hr : (deliver tr (sent ++ [f]) fs).1 with
        | ok u' =>
          rw [hr] at h4
          obtain ⟨a, b⟩ := h4
          refine ⟨by simp [a], fun g hg => ?_⟩
          cases k with
          | zero =>
            simp at hg
            subst hg
            simpa using ht
          | succ k =>
            have := b g (by simpa using hg)
            simpa using this
        | error e =>
          rw [hr] at h4
          obtain ⟨i, g, a, b, c⟩ := h4
          exact ⟨i + 1, g, by omega, by simpa using b, by simpa using c⟩

theorem deliver_open (frames sent : List Frame) :
    deliver openTransport sent frames = (.ok (), sent ++ frames) := by
  induction frames generalizing sent with
  | nil => simp [deliver]
  | cons f fs ih =>
    show deliver openTransport (sent ++ [f]) fs = _
    rw [ih]; simp

theorem fnfLoop_none {dbg : Bool} {tr : Transport} {sid : U32} {n fuel idx : Nat}
    {c c' : PayloadChunks} {sent : List Frame} (h : c.next = (none, c')) :
    fnfLoop dbg tr sid n fuel idx c sent = .ok (.ok (), sent) := by
  unfold fnfLoop
  simp only [h]

theorem fnfLoop_some {dbg : Bool} {tr : Transport} {sid : U32} {n fuel idx : Nat}
    {c c' : PayloadChunks} {sent : List Frame} {q : Payload} (h : c.next = (some q, c'))
    (hs : sid.toNat < 2 ^ 31) :
    fnfLoop dbg tr sid n (fuel + 1) idx c sent =
      match tr sent (fnfFrame sid (idx + 1 != n) q) with
      | .error e => .ok (.error e, sent ++ [fnfFrame sid (idx + 1 != n) q])
      | .ok () => fnfLoop dbg tr sid n fuel (idx + 1) c' (sent ++ [fnfFrame sid (idx + 1 != n) q]) := by
  obtain ⟨v, h1, h2⟩ := fnf_new (dbg := dbg) hs (idx + 1 != n) q
  conv => lhs; unfold fnfLoop
  simp only [h, h1]
  show (Outcome.bind (.ok v) fun a => _) = _
  simp only [Outcome.bind, h2]
  rfl

theorem fnfLoop_spec {dbg : Bool} {tr : Transport} {sid : U32} {n fuel idx : Nat}
    {c : PayloadChunks} {sent : List Frame} (hs : sid.toNat < 2 ^ 31) (h0 : 0 < c.chunkSize)
    (hf : chunkCount c.chunkSize c.rest ≤ fuel) :
    fnfLoop dbg tr sid n fuel idx c sent =
      .ok (deliver tr sent ((List.range (chunkCount c.chunkSize c.rest)).map fun i =>
        fnfFrame sid (idx + i + 1 != n) (chunkAt c.chunkSize c.rest i))) := by
  induction fuel generalizing idx c sent with
  | zero =>
    have h : chunkCount c.chunkSize c.rest = 0 := by omega
    rw [fnfLoop_none (next_none h), h]
    rfl
  | succ fuel ih =>
    by_cases h : chunkCount c.chunkSize c.rest = 0
    · rw [fnfLoop_none (next_none h), h]
      rfl
    · obtain ⟨n1, n2, n3, n4⟩ := next_some h0 (by omega)
      rcases hn : c.next with ⟨o, c'⟩
      rw [hn] at n1 n2 n3 n4
      simp only at n1 n2 n3 n4
      subst n1
      rw [fnfLoop_some hn hs]
      obtain ⟨k, hk⟩ : ∃ k, chunkCount c.chunkSize c.rest = k + 1 :=
        ⟨chunkCount c.chunkSize c.rest - 1, by omega⟩
      rw [hk, List.range_succ_eq_map, List.map_cons, List.map_map, deliver]
      have e0 : idx + 0 + 1 = idx + 1 := rfl
      rw [e0]
      cases ht : tr sent (fnfFrame sid (idx + 1 != n) (chunkAt c.chunkSize c.rest 0)) with
      | error e => rfl
      | ok u =>
        simp only
        rw [ih (by rw [n2]; exact h0) (by rw [n2, n3]; omega), n2, n3, hk]
        congr 2
        apply List.map_congr_left
        intro i _
        show _ = fnfFrame sid (idx + (i + 1) + 1 != n) (chunkAt c.chunkSize c.rest (i + 1))
        rw [n4, Nat.add_assoc idx 1 i, Nat.add_comm 1 i]

theorem fnfSend_spec {dbg : Bool} {tr : Transport} {fragment : Option Nat} {sid : U32}
    {p : Payload} {sent : List Frame} (hs : sid.toNat < 2 ^ 31) (h0 : fragment ≠ some 0) :
    fnfSend dbg tr fragment sid p sent = .ok (deliver tr sent (callFrames sid fragment p)) := by
  cases fragment with
  | none =>
    obtain ⟨v, h1, h2⟩ := fnf_new (dbg := dbg) hs false p
    unfold fnfSend
    simp only [h1]
    show Outcome.ok (tr sent (Frame.requestFnf v), sent ++ [Frame.requestFnf v]) = _
    rw [h2, callFrames]
    cases ht : tr sent (fnfFrame sid false p) with
    | error e => simp only [deliver, ht]
    | ok u => simp only [deliver, ht]
  | some size =>
    have h0 : 0 < size := by
      apply Nat.pos_of_ne_zero
      rintro rfl
      exact h0 rfl
    unfold fnfSend
    simp only [chunks_ok h0]
    show fnfLoop dbg tr sid _ _ 0 ⟨size, p.metadata, p.data⟩ sent = _
    rw [fnfLoop_spec (c := ⟨size, p.metadata, p.data⟩) hs h0 (count_le_fuel _ h0)]
    simp only [callFrames, loopFrames, Nat.zero_add]
    rfl

theorem fnfSend_zero {dbg : Bool} {tr : Transport} {sid : U32} {p : Payload} {sent : List Frame} :
    fnfSend dbg tr (some 0) sid p sent = .panic "assertion failed: chunk_size != 0" := rfl

theorem next_id_facts {store : Store} {fuel : Nat} {p q : StreamIdProvider} {sid : U32}
    (h : p.nextStreamId store fuel = .ok (sid, q)) : sid.toNat < 2 ^ 31 ∧ store sid = false := by
  have := (nextStreamId_iff store p fuel 0 sid q).1
    (by rw [after_zero]; exact h)
  obtain ⟨k, -, -, h3, h4, -⟩ := this
  exact ⟨by rw [h3]; exact idAt_lt _ _, h4⟩

theorem fireAndForget_eq {dbg : Bool} {fuel : Nat} {tr : Transport} {m : RSocketMachine}
    {p : Payload} {sent : List Frame} {sid : U32} {q : StreamIdProvider}
    (hid : m.streamId.nextStreamId m.receivers fuel = .ok (sid, q))
    (h0 : m.chunkPayload ≠ some 0) :
    m.fireAndForget dbg fuel tr p sent =
      .ok ((deliver tr sent (callFrames sid m.chunkPayload p)).1,
        (deliver tr sent (callFrames sid m.chunkPayload p)).2, { m with streamId := q }) := by
  unfold fireAndForget
  rw [hid]
  show (Outcome.bind (fnfSend dbg tr m.chunkPayload sid p sent) fun a => _) = _
  rw [fnfSend_spec (next_id_facts hid).1 h0]
  rfl

theorem callFrames_get {sid : U32} {size : Nat} {p : Payload} {i : Nat} {f : Frame}
    (h : (callFrames sid (some size) p)[i]? = some f) :
    ∃ b, f = fnfFrame sid b (chunkAt size p i) := by
  have h : (loopFrames _ _ _ _)[i]? = some f := h
  rw [loopFrames, List.getElem?_map, Option.map_eq_some_iff] at h
  obtain ⟨j, h1, h2⟩ := h
  rw [List.getElem?_range] at h1
  · cases h1
    exact ⟨_, h2.symm⟩
  · apply Classical.byContradiction
    intro hn
    rw [List.getElem?_eq_none (by rw [List.length_range]; omega)] at h1
    cases h1

theorem callFrames_exact {sid : U32} {fragment : Option Nat} {p : Payload}
    (h0 : fragment ≠ some 0) (hm : PartOk p.metadata) (hd : PartOk p.data) :
    callFrames sid fragment p = fnfFrames sid fragment p := by
  cases fragment with
  | none => rfl
  | some size =>
    have h0 : 0 < size := by
      apply Nat.pos_of_ne_zero
      rintro rfl
      exact h0 rfl
    have hl := len_afterNext (c := ⟨size, p.metadata, p.data⟩) h0 0 hm.1 hd.1 hm.2 hd.2
    have hl : PayloadChunks.len ⟨size, p.metadata, p.data⟩ = chunkCount size p := hl
    show loopFrames _ _ _ _ = _
    rw [hl]
    apply List.map_congr_left
    intro i hi
    rw [List.mem_range] at hi
    congr 1
    rw [Bool.eq_iff_iff, decide_eq_true_iff, bne_iff_ne]
    omega

end Binate

namespace Binate

open Spec PayloadChunks RSocketMachine

/-! ## Reassembly of fragments -/

theorem fnfFrame_flagsOk (follows hasMeta : Bool) :
    FlagsOk ⟨BitVec.ofNat 16 ((if follows then 2 ^ 6 else 0) + (if hasMeta then 2 ^ 7 else 0))⟩ := by
  cases follows <;> cases hasMeta <;> decide

theorem fnfFrame_wellFormed {sid : U32} (h : sid.toNat < 2 ^ 31) (follows : Bool) {p : Payload}
    (hm : (p.metadata.getD []).length < 2 ^ 24) : WellFormed (fnfFrame sid follows p) :=
  ⟨h, fnfFrame_flagsOk follows _, by
    have : optBytes p.metadata = p.metadata.getD [] := by cases p.metadata <;> rfl
    rw [this]; exact hm⟩

theorem followsOf_fnfFrame (sid : U32) (follows : Bool) (p : Payload) :
    followsOf (fnfFrame sid follows p) = some follows := by
  show some ((BitVec.ofNat 16 ((if follows then 2 ^ 6 else 0) +
    (if p.metadata.isSome then 2 ^ 7 else 0))).toNat.testBit 6) = some follows
  generalize p.metadata.isSome = b
  cases follows <;> cases b <;> decide

theorem putOpt_normOpt (buf : Bytes) (o : Option Bytes) :
    putOpt buf (normOpt o) = buf ++ o.getD [] := by
  rcases o with _ | (_ | ⟨x, b⟩)
  · exact (List.append_nil _).symm
  · exact (List.append_nil _).symm
  · rfl

/-- Lists of fragments of one stream, whatever their FOLLOWS bits. -/
theorem reassemble_fragments {sid : U32} (hs : sid.toNat < 2 ^ 31) (parts : List (Bool × Payload))
    (hm : ∀ e ∈ parts, (e.2.metadata.getD []).length < 2 ^ 24) (M D : Bytes) :
    BufList.reassembleLoop (parts.map fun e => layout 16 (fnfFrame sid e.1 e.2)) M D =
      .ok (.ok (M ++ joinMetadata (parts.map (·.2)), D ++ joinData (parts.map (·.2)))) := by
  induction parts generalizing M D with
  | nil => simp [BufList.reassembleLoop, joinMetadata, joinData]
  | cons e es ih =>
    have hw := fnfFrame_wellFormed hs e.1 (p := e.2) (hm e (List.mem_cons_self ..))
    rw [List.map_cons, BufList.reassembleLoop]
    rw [decode_layout hw]
    show BufList.reassembleLoop _ (putOpt M (normOpt e.2.metadata)) (putOpt D (normOpt e.2.data)) = _
    rw [ih (fun e' he => hm e' (List.mem_cons_of_mem _ he)), putOpt_normOpt, putOpt_normOpt]
    simp [joinMetadata, joinData]

theorem encodeAll_fragments {sid : U32} (hs : sid.toNat < 2 ^ 31) (parts : List (Bool × Payload))
    (hm : ∀ e ∈ parts, (e.2.metadata.getD []).length < 2 ^ 24) :
    encodeAll (parts.map fun e => fnfFrame sid e.1 e.2) =
      .ok (parts.map fun e => layout 16 (fnfFrame sid e.1 e.2)) := by
  induction parts with
  | nil => rfl
  | cons e es ih =>
    have hw := fnfFrame_wellFormed hs e.1 (p := e.2) (hm e (List.mem_cons_self ..))
    rw [List.map_cons, encodeAll, toBytes_wellFormed hw,
      ih (fun e' he => hm e' (List.mem_cons_of_mem _ he))]
    rfl

theorem pushAll_ok (dbg : Bool) (bs : List Bytes) (l : BufList Bytes) (h : ∀ b ∈ bs, 0 < b.length) :
    pushAll dbg bs l = .ok ⟨l.bufs ++ bs⟩ := by
  induction bs generalizing l with
  | nil => rw [pushAll, List.append_nil]
  | cons b bs ih =>
    have : l.push dbg b = .ok ⟨l.bufs ++ [b]⟩ := by
      unfold BufList.push Outcome.debugAssert
      have hb : 0 < BufCore.remaining b := h b (List.mem_cons_self ..)
      simp [hb]
    rw [pushAll, this]
    show pushAll dbg bs _ = _
    rw [ih _ (fun b' hb => h b' (List.mem_cons_of_mem _ hb))]
    simp

theorem layout_pos (f : Frame) : 0 < (layout 16 f).length := by
  obtain ⟨sid, rest, h⟩ := layout_header f
  rw [h, List.length_append]
  have : 0 < (header sid (Spec.typeNumber f) (layoutFlags f)).length := by
    simp [header, be]
  omega

/-- The parts a call sends. -/
theorem callFrames_parts (sid : U32) (fragment : Option Nat) (p : Payload)
    (h0 : fragment ≠ some 0) :
    ∃ parts : List (Bool × Payload), callFrames sid fragment p =
        parts.map (fun e => fnfFrame sid e.1 e.2) ∧
      joinMetadata (parts.map (·.2)) = p.metadata.getD [] ∧
      joinData (parts.map (·.2)) = p.data.getD [] ∧
      ∀ e ∈ parts, (e.2.metadata.getD []).length ≤ (p.metadata.getD []).length ∧
        ∀ size, fragment = some size → (e.2.metadata.getD []).length ≤ size := by
  cases fragment with
  | none =>
    refine ⟨[(false, p)], rfl, by simp [joinMetadata], by simp [joinData], ?_⟩
    intro e he
    rw [List.mem_singleton] at he
    subst he
    exact ⟨Nat.le_refl _, fun size h => (nomatch h)⟩
  | some size =>
    have h0 : 0 < size := by
      apply Nat.pos_of_ne_zero
      rintro rfl
      exact h0 rfl
    refine ⟨(List.range (chunkCount size p)).map fun i =>
      (i + 1 != PayloadChunks.len ⟨size, p.metadata, p.data⟩, chunkAt size p i), ?_, ?_, ?_, ?_⟩
    · rw [List.map_map]; rfl
    · unfold joinMetadata
      simp only [List.map_map]
      exact join_parts h0 _ _ (Nat.le_max_left ..)
    · unfold joinData
      simp only [List.map_map]
      exact join_parts h0 _ _ (Nat.le_max_right ..)
    · intro e he
      rw [List.mem_map] at he
      obtain ⟨i, -, rfl⟩ := he
      show ((partAt size p.metadata i).getD []).length ≤ _ ∧ _
      have : ((partAt size p.metadata i).getD []).length ≤ min size (p.metadata.getD []).length := by
        unfold partAt
        split
        · cases p.metadata with
          | none => exact Nat.zero_le _
          | some b =>
            show ((b.drop _).take size).length ≤ min size b.length
            rw [List.length_take, List.length_drop]
            omega
        · exact Nat.zero_le _
      refine ⟨by omega, fun s hs => ?_⟩
      cases hs
      show ((partAt size p.metadata i).getD []).length ≤ size
      omega

/-- If the metadata does not fit, the first frame of the call cannot be encoded. -/
theorem callFrames_too_big (sid : U32) (fragment : Option Nat) (p : Payload)
    (hm : ¬ ((p.metadata.getD []).length < 2 ^ 24 ∨ ∃ size, fragment = some size ∧ size < 2 ^ 24)) :
    ∃ f fs, callFrames sid fragment p = f :: fs ∧ 2 ^ 24 ≤ metaLen f := by
  rw [not_or] at hm
  obtain ⟨h1, h2⟩ := hm
  have hmeta : ∀ (b : Bool) (p' : Payload), metaLen (fnfFrame sid b p') =
      (p'.metadata.getD []).length := by
    intro b p'
    show (optBytes p'.metadata).length = _
    cases p'.metadata <;> rfl
  cases hc : fragment with
  | none => exact ⟨_, _, rfl, by rw [hmeta]; omega⟩
  | some size =>
    have hs : 2 ^ 24 ≤ size := by
      apply Nat.le_of_not_lt
      exact fun h => h2 ⟨size, hc, h⟩
    cases hp : p.metadata with
    | none => rw [hp] at h1; exact absurd (by decide) h1
    | some b =>
      rw [hp] at h1
      have hb : 2 ^ 24 ≤ b.length := Nat.le_of_not_lt h1
      have hpos : 0 < chunkCount size p := by
        have : 0 < partCount size p.metadata := by rw [hp]; show 0 < max 1 _; omega
        show 0 < max (partCount size p.metadata) (partCount size p.data)
        omega
      obtain ⟨k, hk⟩ : ∃ k, chunkCount size p = k + 1 := ⟨chunkCount size p - 1, by omega⟩
      refine ⟨_, _, by
        show loopFrames sid size _ p = _
        rw [loopFrames, hk, List.range_succ_eq_map, List.map_cons], ?_⟩
      rw [hmeta]
      have e : (chunkAt size p 0).metadata = some (b.take size) := by
        show partAt size p.metadata 0 = _
        have : 0 < partCount size (some b) := by show 0 < max 1 _; omega
        rw [partAt, hp, if_pos this, Option.map_some, Nat.zero_mul, List.drop_zero]
      rw [e]
      show 2 ^ 24 ≤ (b.take size).length
      rw [List.length_take]
      omega

theorem normOpt_getD (o : Option Bytes) :
    (if (o.getD []).isEmpty then none else some (o.getD [])) = normOpt o := by
  rcases o with _ | (_ | ⟨x, b⟩) <;> rfl

/-! ## Odds and ends -/

theorem fireAndForget_inv {dbg : Bool} {fuel : Nat} {m m' : RSocketMachine} {p : Payload}
    {r : Except Error Unit} {frames : List Frame}
    (h : m.fireAndForget dbg fuel openTransport p [] = .ok (r, frames, m')) :
    m.chunkPayload ≠ some 0 ∧ ∃ sid, frames = callFrames sid m.chunkPayload p := by
  rcases nextStreamId_cases m.receivers m.streamId fuel with ⟨⟨sid, q⟩, hid⟩ | hid
  · have h0 : m.chunkPayload ≠ some 0 := by
      intro hc
      unfold fireAndForget at h
      rw [hid, hc] at h
      cases h
    refine ⟨h0, sid, ?_⟩
    rw [fireAndForget_eq hid h0, deliver_open] at h
    cases h
    rfl
  · unfold fireAndForget at h
    rw [hid] at h
    cases h

theorem fragmenting_id (size : Nat) :
    (fragmenting size).streamId.nextStreamId (fragmenting size).receivers 1 =
      .ok (1#32, ⟨3#32⟩) := by
  show StreamIdProvider.nextStreamId (fun _ => false) 1 ⟨1#32⟩ = _
  decide

theorem watchdog_eq (m : RSocketMachine) (ws : List Nat) : m.watchdog ws =
    if ∃ w ∈ ws, w - m.keepaliveLastReceived > m.keepaliveTimeout then
      ([.logError "connection keepalive timed out", .close], true) else ([], false) := by
  induction ws with
  | nil => rfl
  | cons w ws ih =>
    rw [watchdog]
    by_cases h : w - m.keepaliveLastReceived > m.keepaliveTimeout
    · rw [if_pos h, if_pos ⟨w, List.mem_cons_self .., h⟩]
      rfl
    · rw [if_neg h, ih]
      by_cases h' : ∃ w' ∈ ws, w' - m.keepaliveLastReceived > m.keepaliveTimeout
      · obtain ⟨w', a, b⟩ := h'
        rw [if_pos ⟨w', a, b⟩, if_pos ⟨w', List.mem_cons_of_mem _ a, b⟩]
      · rw [if_neg h', if_neg]
        rintro ⟨w', a, b⟩
        rcases List.mem_cons.1 a with rfl | a
        · exact h b
        · exact h' ⟨w', a, b⟩

end Binate
