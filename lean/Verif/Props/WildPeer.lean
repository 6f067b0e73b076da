import Verif.Lemmas.WildPeer
import Verif.Props.WildConc
import Verif.Props.Storms
import Verif.Lemmas.StormLive

/-! # What the peers get, whatever goes wrong

C124. -/

namespace Binate

open Spec RSocketMachine

section
variable {dbg dbg' : Bool} {tr : WildTransport} {m : RSocketMachine} {w : WildConc}

/-- **C124**: C70 over a connection that panics. The peer sorts what it gets by stream id and reassembles each
stream. For every call that has returned `Ok` it gets that call's payload; for every other call that has an id
it gets a beginning of each part. -/
theorem C124_end_to_end (h : WildReachable dbg tr m w) (hd : w.draws ≤ 2 ^ 30)
    {bs : List Bytes} (hb : encodeAll w.wire = .ok bs)
    {i : Nat} {c : Call} (hi : w.calls[i]? = some c) {sid : U32} (hs : callId c = some sid) :
    ∃ q, reassembled dbg' (streamBuffers sid.toNat bs) = .ok (.ok q) ∧
      q.metadata.getD [] <+: (callPayload c).metadata.getD [] ∧
      q.data.getD [] <+: (callPayload c).data.getD [] ∧
      (callResult c = some (.ok ()) → q = normPayload (callPayload c)) := by
  obtain ⟨s, hr, ha⟩ := wild_reaches (e := ⟨.io, none⟩) h
  exact C70_end_to_end hr (by rw [← ha.draws]; exact hd) (by rw [← ha.wire]; exact hb)
    (alike_get ha hi (by rintro p rfl; cases hs)) hs

/-- **C124**: of a call that has panicked the peer gets something, on a stream of its own, and of each part a
beginning. -/
theorem C124_panicked (h : WildReachable dbg tr m w) (hd : w.draws ≤ 2 ^ 30) (h0 : m.chunkPayload ≠ some 0)
    {bs : List Bytes} (hb : encodeAll w.wire = .ok bs)
    {i : Nat} {p : Payload} (hi : w.calls[i]? = some (.panicked p)) :
    ∃ (sid : U32) (q : Payload), PanickedOn tr w.wire sid ∧ streamBuffers sid.toNat bs ≠ [] ∧
      (∀ (j : Nat) c, w.calls[j]? = some c → callId c ≠ some sid) ∧
      reassembled dbg' (streamBuffers sid.toNat bs) = .ok (.ok q) ∧
      q.metadata.getD [] <+: p.metadata.getD [] ∧ q.data.getD [] <+: p.data.getD [] := by
  obtain ⟨s, hr, ha⟩ := wild_reaches (e := ⟨.io, none⟩) h
  have hd' : s.draws ≤ 2 ^ 30 := by rw [← ha.draws]; exact hd
  have hb' : encodeAll s.wire = .ok bs := by rw [← ha.wire]; exact hb
  obtain ⟨d, hj, same⟩ := alike_some ha hi
  rcases same with rfl | ⟨p', sid, hp, rfl, hon⟩
  · exact absurd ((concInv hr hd').call i _ hj) h0
  · cases hp
    obtain ⟨q, h1, h2, h3, -⟩ := C70_end_to_end (dbg' := dbg') hr hd' hb' hj rfl
    refine ⟨sid, q, by rw [ha.wire]; exact hon, ?_, fun j c hc e => ?_, h1, h2, h3⟩
    · have hsent := wire_sent hr
      obtain ⟨before, f, after, msg, e1, e2, -⟩ := hon
      rw [encodeAll_eq hsent hb', filter_layout hsent, e1]
      intro hn
      have : f ∈ onWire sid (before ++ f :: after) :=
        List.mem_filter.2 ⟨List.mem_append_right _ List.mem_cons_self, e2⟩
      rw [List.map_eq_nil_iff.1 hn] at this
      cases this
    · have hj' := alike_get ha hc (by rintro q rfl; cases e)
      have := C57_distinct_ids hr hd' hj hj' rfl e
      subst this
      rw [hi] at hc
      cases hc
      cases e

/-- **C124**: buffers on a stream that belongs to no call do not exist. -/
theorem C124_no_other_stream (h : WildReachable dbg tr m w)
    {bs : List Bytes} (hb : encodeAll w.wire = .ok bs) {n : Nat} (hn : streamBuffers n bs ≠ []) :
    ∃ (i : Nat) (c : Call) (sid : U32), w.calls[i]? = some c ∧ sid.toNat = n ∧
      (callId c = some sid ∨ (∃ p, c = .panicked p) ∧ PanickedOn tr w.wire sid) := by
  obtain ⟨s, hr, ha⟩ := wild_reaches (e := ⟨.io, none⟩) h
  obtain ⟨i, d, sid, h1, h2, h3⟩ := C70_no_other_stream hr (by rw [← ha.wire]; exact hb) hn
  obtain ⟨c, hc, same⟩ := alike_some_back ha h1
  refine ⟨i, c, sid, hc, h3, ?_⟩
  rcases same with rfl | ⟨p, sid', rfl, rfl, hon⟩
  · exact .inl h2
  · cases h2
    exact .inr ⟨⟨p, rfl⟩, by rw [ha.wire]; exact hon⟩

/-- **C124**: a request that is not fragmented is all or nothing for the peer, however it ended. If the call
has returned, with `Ok` or with an error, or has panicked, the peer gets the payload. -/
theorem C124_whole (h : WildReachable dbg tr m w) (hd : w.draws ≤ 2 ^ 30) (h0 : m.chunkPayload = none)
    {bs : List Bytes} (hb : encodeAll w.wire = .ok bs) {i : Nat} {c : Call} (hi : w.calls[i]? = some c) :
    (∀ sid, callId c = some sid → streamBuffers sid.toNat bs = [] ∧ callResult c = none ∨
      reassembled dbg' (streamBuffers sid.toNat bs) = .ok (.ok (normPayload (callPayload c)))) ∧
    (∀ p, c = .panicked p → ∃ sid, PanickedOn tr w.wire sid ∧
      reassembled dbg' (streamBuffers sid.toNat bs) = .ok (.ok (normPayload p))) := by
  obtain ⟨s, hr, ha⟩ := wild_reaches (e := ⟨.io, none⟩) h
  have hd' : s.draws ≤ 2 ^ 30 := by rw [← ha.draws]; exact hd
  have hb' : encodeAll s.wire = .ok bs := by rw [← ha.wire]; exact hb
  obtain ⟨d, hj, same⟩ := alike_some ha hi
  rcases same with rfl | ⟨p, sid, rfl, rfl, hon⟩
  · refine ⟨fun sid hs => whole_or_nothing hr hd' h0 hb' hj hs, ?_⟩
    rintro p rfl
    exact absurd ((concInv hr hd').call i _ hj) (by rw [h0]; nofun)
  · refine ⟨nofun, ?_⟩
    rintro _ ⟨⟩
    refine ⟨sid, by rw [ha.wire]; exact hon, ?_⟩
    rcases whole_or_nothing (dbg' := dbg') hr hd' h0 hb' hj rfl with ⟨-, hn⟩ | h1
    · cases hn
    · exact h1

/-- **C124**, pushes: the METADATA_PUSH buffers that the peer gets are, in this order, those of the calls of
`metadata_push`, whether these returned or panicked. -/
theorem C124_pushes (h : WildReachable dbg tr m w)
    {bs : List Bytes} (hb : encodeAll w.wire = .ok bs) :
    (bs.filter fun b => typeOf b == 12).map decode =
      (wildPushes w.asked).map fun e => .ok (.metadataPush ⟨e.1⟩) [] := by
  obtain ⟨s, hr, ha⟩ := wild_reaches (e := ⟨.io, none⟩) h
  have hsent : ∀ f ∈ w.wire, OnTheWire f := ha.wire ▸ wire_sent hr
  rw [C113_pushes h, encodeAll_eq hsent hb]
  exact push_buffers hsent

/-- **C124**: all this if the frames can be encoded, which they can if the metadata is not too long. -/
theorem C124_encodes (h : WildReachable dbg tr m w)
    (hfit : ∀ c ∈ w.calls, FitsFragments m.chunkPayload (callPayload c)) :
    ∃ bs, encodeAll w.wire = .ok bs := by
  obtain ⟨s, hr, ha⟩ := wild_reaches (e := ⟨.io, none⟩) h
  obtain ⟨bs, hb, -⟩ := C70_encodes hr fun d hd => by
    obtain ⟨i, hi, rfl⟩ := List.mem_iff_getElem.1 hd
    obtain ⟨c, hc, same⟩ := alike_some_back ha (List.getElem?_eq_getElem hi)
    have := hfit c (List.mem_of_getElem? hc)
    rcases same with e | ⟨p, sid, rfl, e, -⟩
    · rw [← e]
      exact this
    · rw [e]
      exact this
  exact ⟨bs, by rw [ha.wire]; exact hb⟩

end

/-! ## Any number of sockets -/

section
variable {dbg dbg' : Bool} {trs : Nat → WildTransport} {t : Storms} {g : Handle} {bs : List Bytes}

/-- **C124**, any number of sockets, whatever goes wrong: the peer of each gets the payload of every request on
that socket that has returned or panicked. -/
theorem C124_sockets (ht : Storms.Reachable dbg trs t) (hg : g ∈ t.world.made)
    (hd : t.world.memory.draws g.streamId ≤ 2 ^ 30)
    (hb : encodeAll (t.world.memory.wire g.connection) = .ok bs)
    {h : Handle} {c : Call} (hc : (h, c) ∈ t.world.calls) (hh : h.connection = g.connection) :
    (∀ sid, callId c = some sid → streamBuffers sid.toNat bs = [] ∧ callResult c = none ∨
      reassembled dbg' (streamBuffers sid.toNat bs) = .ok (.ok (normPayload (callPayload c)))) ∧
    (∀ p, c = .panicked p → ∃ sid, PanickedOn (trs g.connection) (t.world.memory.wire g.connection) sid ∧
      reassembled dbg' (streamBuffers sid.toNat bs) = .ok (.ok (normPayload p))) := by
  have hm : c ∈ (wildSocketOf t.world g).calls := List.mem_filterMap.2 ⟨(h, c), hc, if_pos hh⟩
  obtain ⟨i, hi⟩ := List.getElem?_of_mem hm
  exact C124_whole (C122_requests ht hg).1 hd rfl hb hi

/-- **C124**, any number of sockets: what the peer of one gets belongs to requests on that socket, each on its
own stream, and to none on another. -/
theorem C124_no_other_socket (ht : Storms.Reachable dbg trs t) (hg : g ∈ t.world.made)
    (hb : encodeAll (t.world.memory.wire g.connection) = .ok bs) {n : Nat} (hn : streamBuffers n bs ≠ []) :
    ∃ (h : Handle) (c : Call) (sid : U32), (h, c) ∈ t.world.calls ∧ h.connection = g.connection ∧
      sid.toNat = n ∧ (callId c = some sid ∨
        (∃ p, c = .panicked p) ∧ PanickedOn (trs g.connection) (t.world.memory.wire g.connection) sid) := by
  obtain ⟨i, c, sid, h1, h2, h3⟩ := C124_no_other_stream (C122_requests ht hg).1 hb hn
  obtain ⟨x, hx, e⟩ := List.mem_filterMap.1 (List.mem_of_getElem? h1)
  split at e
  · next hx' =>
    cases e
    exact ⟨x.1, x.2, sid, hx, hx', h2, h3⟩
  · cases e

/-- **C124**, any number of sockets: the pushes that the peer of one gets are those on that socket. -/
theorem C124_pushes_apart (ht : Storms.Reachable dbg trs t) (hg : g ∈ t.world.made)
    (hb : encodeAll (t.world.memory.wire g.connection) = .ok bs) :
    (bs.filter fun b => typeOf b == 12).map decode =
      (wildPushes ((t.world.asked.filter fun a => a.1.connection = g.connection).map (·.2))).map
        fun e => .ok (.metadataPush ⟨e.1⟩) [] := by
  refine (C124_pushes (C122_requests ht hg).1 hb).trans ?_
  congr 2
  show t.world.asked.filterMap _ = _
  induction t.world.asked with
  | nil => rfl
  | cons a l ih =>
    by_cases e : a.1.connection = g.connection
    · simp only [List.filterMap_cons, List.filter_cons, if_pos e, decide_eq_true e, List.map_cons, ih,
        if_true]
    · simp only [List.filterMap_cons, List.filter_cons, if_neg e, decide_eq_false e, ih]
      rfl

end

/-- Two sockets. The connection of the first panics at whatever it is handed; its peer has got the request and
the push all the same. The peer of the second gets what was sent on the second. -/
example : ∃ t g k bs bs', Storms.Reachable false (fun a _ _ => if a = 1 then .panic "no" else .ok (.ok ())) t ∧
    t.world.made = [g, k] ∧ encodeAll (t.world.memory.wire g.connection) = .ok bs ∧
    encodeAll (t.world.memory.wire k.connection) = .ok bs' ∧
    (t.world.memory.draws g.streamId ≤ 2 ^ 30 ∧ t.world.memory.draws k.streamId ≤ 2 ^ 30) ∧
    (∃ sid, t.world.calls.map (·.2) =
      [.panicked ⟨none, some [1#8]⟩, .done ⟨some [], some [2#8]⟩ sid (.ok ())]) ∧
    bs.map streamIdOf = [1, 0] ∧ bs'.map streamIdOf = [1] ∧
    reassembled true (streamBuffers 1 bs) = .ok (.ok ⟨none, some [1#8]⟩) ∧
    reassembled true (streamBuffers 1 bs') = .ok (.ok ⟨none, some [2#8]⟩) := by
  let g : Handle := ⟨.client, 0, 1, 2, 3, none, 60, 0⟩
  let k : Handle := ⟨.client, 4, 5, 6, 7, none, 60, 0⟩
  let p : Payload := ⟨none, some [1#8]⟩
  let q : Payload := ⟨some [], some [2#8]⟩
  let tr : Nat → WildTransport := fun a _ _ => if a = 1 then .panic "no" else .ok (.ok ())
  have r0 : Storms.Reachable false tr _ := .init 0
  have r1 := r0.step (.new _ .client 60 0 0 (by decide))
  have r2 := r1.step (.new _ .client 60 0 0 (by decide))
  have r3 := r2.step (.request _ _ (.call _ 0 g p rfl))
  have r4 := r3.step (.request _ _ (.call _ 1 k q rfl))
  have r5 := r4.step (.request _ _ (.fetch _ 0 g p rfl))
  have r6 := r5.step (.request _ _ (.checkFree _ 0 g p _ rfl (by decide +kernel)))
  have r7 := r6.step (.request _ _ (.fetch _ 1 k q rfl))
  have r8 := r7.step (.request _ _ (.checkFree _ 1 k q _ rfl (by decide +kernel)))
  have r9 := r8.step (.request _ _ (.sendOnePanic _ 0 g p _ ⟨_, ⟨0#16⟩, p⟩ "no" rfl rfl rfl))
  have r10 := r9.step (.request _ _ (.pushPanic _ 0 g [9#8] "no" rfl rfl))
  have r11 := r10.step (.request _ _ (.sendOne _ 1 k q _ ⟨_, ⟨0x80#16⟩, q⟩ (.ok ()) rfl rfl rfl))
  exact ⟨_, g, k, [[0#8, 0, 0, 1, 0x14, 0, 0, 0, 0, 1], [0#8, 0, 0, 0, 0x30, 0x80, 9]],
    [[0#8, 0, 0, 1, 0x14, 0x80, 0, 0, 0, 2]], r11, rfl, by decide +kernel,
    by decide +kernel, by decide, ⟨_, rfl⟩, by decide, by decide, by rfl, by rfl⟩

end Binate
