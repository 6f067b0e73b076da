import Verif.Props.RsocketFnf
import Verif.Props.RsocketPush
import Verif.Props.WildPeer
import Verif.Lemmas.RsocketSockets

/-! # Peers that follow the RSocket protocol, whatever goes wrong

C133 and C134, over connections that panic and for any number of sockets. -/

namespace Binate

open Spec RSocketMachine

/-- **C133** over a connection that panics: such a peer reads each request frame as in
`C133_calls_partial`, also those at which the connection panicked. -/
theorem C133_panics_partial {dbg : Bool} {tr : WildTransport} {role : Role} {t now : Nat} {w : WildConc}
    (h : WildReachable dbg tr (RSocketMachine.new role t now) w)
    {f : Frame} (hf : f ∈ w.wire) (hr : followsOf f ≠ none) (hm : metaLen f < 2 ^ 24) :
    ∃ (i : Nat) (c : Call) (sid : U32) (b : Bytes), w.calls[i]? = some c ∧
      (callId c = some sid ∨ (∃ p, c = .panicked p) ∧ PanickedOn tr w.wire sid) ∧
      f.toBytes = .ok b ∧
      readFnf b = some (sid.toNat, (callPayload c).metadata.isSome,
        ⟨none, some (payloadBytes (callPayload c))⟩) := by
  obtain ⟨s, hs, ha⟩ := wild_reaches (e := ⟨.io, none⟩) h
  obtain ⟨i, d, sid, b, hi, hid, hb, hread⟩ := C133_calls_partial hs (ha.wire ▸ hf) hr hm
  obtain ⟨c, hc, same⟩ := alike_some_back ha hi
  refine ⟨i, c, sid, b, hc, ?_, hb, ?_⟩
  · rcases same with rfl | ⟨p, x, rfl, rfl, hp⟩
    · exact .inl hid
    · cases hid
      exact .inr ⟨⟨p, rfl⟩, ha.wire ▸ hp⟩
  · rcases same with rfl | ⟨p, x, rfl, rfl, -⟩ <;> exact hread

/-- **C134** over a connection that panics: such a peer finds the metadata of all calls of
`metadata_push`, also of those that panicked, and never the flag. -/
theorem C134_panics_partial {dbg : Bool} {tr : WildTransport} {m : RSocketMachine} {w : WildConc}
    (h : WildReachable dbg tr m w) {bs : List Bytes} (hb : encodeAll w.wire = .ok bs) :
    bs.filterMap readPush = (wildPushes w.asked).map fun e => (false, e.1) := by
  obtain ⟨s, hs, ha⟩ := wild_reaches (e := ⟨.io, none⟩) h
  have hw : ∀ f ∈ w.wire, OnTheWire f := ha.wire ▸ wire_sent hs
  rw [C113_pushes h, encodeAll_eq hw hb]
  exact readPush_buffers hw

section
variable {dbg : Bool} {trs : Nat → WildTransport} {t : Storms} {g : Handle}

/-- **C133**, any number of sockets: the requests that the peer of one reads in this way are those on
that socket. -/
theorem C133_sockets_partial (ht : Storms.Reachable dbg trs t) (hg : g ∈ t.world.made)
    {f : Frame} (hf : f ∈ t.world.memory.wire g.connection) (hr : followsOf f ≠ none)
    (hm : metaLen f < 2 ^ 24) :
    ∃ (h : Handle) (c : Call) (sid : U32) (b : Bytes), (h, c) ∈ t.world.calls ∧
      h.connection = g.connection ∧
      (callId c = some sid ∨
        (∃ p, c = .panicked p) ∧ PanickedOn (trs g.connection) (t.world.memory.wire g.connection) sid) ∧
      f.toBytes = .ok b ∧
      readFnf b = some (sid.toNat, (callPayload c).metadata.isSome,
        ⟨none, some (payloadBytes (callPayload c))⟩) := by
  obtain ⟨i, c, sid, b, h1, h2, h3, h4⟩ := C133_panics_partial (C122_requests ht hg).1 hf hr hm
  obtain ⟨x, hx, e⟩ := List.mem_filterMap.1 (List.mem_of_getElem? h1)
  split at e
  · next hx' =>
    cases e
    exact ⟨x.1, x.2, sid, b, hx, hx', h2, h3, h4⟩
  · cases e

/-- **C134**, any number of sockets: the peer of one finds what was pushed on that socket. -/
theorem C134_sockets_partial (ht : Storms.Reachable dbg trs t) (hg : g ∈ t.world.made)
    {bs : List Bytes} (hb : encodeAll (t.world.memory.wire g.connection) = .ok bs) :
    bs.filterMap readPush =
      (wildPushes ((t.world.asked.filter fun a => a.1.connection = g.connection).map (·.2))).map
        fun e => (false, e.1) := by
  refine (C134_panics_partial (C122_requests ht hg).1 hb).trans ?_
  congr 2
  show t.world.asked.filterMap _ = _
  induction t.world.asked with
  | nil => rfl
  | cons a l ih =>
    by_cases e : a.1.connection = g.connection
    · simp only [List.filterMap_cons, List.filter_cons, if_pos e, decide_eq_true e, List.map_cons, ih,
        if_true]
    · simp only [List.filterMap_cons, List.filter_cons, if_neg e, decide_eq_false e, ih]
      rfl

end

/-- Two sockets. The connection of the first panics at whatever it is handed; its peer reads the
request and the push as it would have otherwise. The peer of the second gets nothing. -/
example : ∃ t g k bs, Storms.Reachable false
      (fun a _ _ => if a = 1 then .panic "no" else .ok (.ok ())) t ∧
    t.world.made = [g, k] ∧ encodeAll (t.world.memory.wire g.connection) = .ok bs ∧
    t.world.memory.wire k.connection = [] ∧
    t.world.calls.map (·.2) = [.panicked ⟨some [5#8], some [1#8]⟩] ∧
    bs.map readFnf = [some (1, true, ⟨none, some [0#8, 0#8, 1#8, 5#8, 1#8]⟩), none] ∧
    bs.filterMap readPush = [(false, [9#8])] := by
  let g : Handle := ⟨.client, 0, 1, 2, 3, none, 60, 0⟩
  let k : Handle := ⟨.client, 4, 5, 6, 7, none, 60, 0⟩
  let p : Payload := ⟨some [5#8], some [1#8]⟩
  let tr : Nat → WildTransport := fun a _ _ => if a = 1 then .panic "no" else .ok (.ok ())
  have r0 : Storms.Reachable false tr _ := .init 0
  have r1 := r0.step (.new _ .client 60 0 0 (by decide))
  have r2 := r1.step (.new _ .client 60 0 0 (by decide))
  have r3 := r2.step (.request _ _ (.call _ 0 g p rfl))
  have r4 := r3.step (.request _ _ (.fetch _ 0 g p rfl))
  have r5 := r4.step (.request _ _ (.checkFree _ 0 g p _ rfl (by decide +kernel)))
  have r6 := r5.step (.request _ _ (.sendOnePanic _ 0 g p _ ⟨_, ⟨0x80#16⟩, p⟩ "no" rfl rfl rfl))
  have r7 := r6.step (.request _ _ (.pushPanic _ 0 g [9#8] "no" rfl rfl))
  exact ⟨_, g, k, [[0#8, 0, 0, 1, 0x14, 0x80, 0, 0, 1, 5, 1], [0#8, 0, 0, 0, 0x30, 0x80, 9]],
    r7, rfl, by decide +kernel, rfl, rfl, by decide, by decide⟩

end Binate
