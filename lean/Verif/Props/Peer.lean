import Verif.Lemmas.Peer
import Verif.Props.Conc

/-! # What the peer receives

C70. Concurrent calls on one side, header inspection and reassembly on the other. -/

namespace Binate

open Spec PayloadChunks RSocketMachine

/-! ## C70 -/

/-- **C70**: in every reachable state in which all payloads fit, however many ids were drawn, every frame
on the wire can be encoded, and decoding the buffers gives the frames back, in order. -/
theorem C70_encodes {dbg : Bool} {tr : Transport} {m : RSocketMachine} {s : Conc}
    (h : ConcReachable dbg tr m s)
    (hfit : ∀ c ∈ s.calls, FitsFragments m.chunkPayload (callPayload c)) :
    ∃ bs, encodeAll s.wire = .ok bs ∧
      bs.map decode = s.wire.map fun f => .ok (normalize f) [] := by
  have hw := wire_wellFormed h hfit
  refine ⟨s.wire.map (layout 16), encodeAll_map fun f hf => toBytes_wellFormed (hw f hf), ?_⟩
  rw [List.map_map]
  apply List.map_congr_left
  intro f hf
  exact decode_layout (hw f hf)

/-- **C70.** Concurrent calls share one connection. The peer gets all the buffers, mixed. It sorts
them by stream id and reassembles each stream. For every call that has returned `Ok` it gets that
call's payload (empty parts turned into absent ones). For every other call that has an id it gets
a payload whose parts are beginnings of that call's parts. -/
theorem C70_end_to_end {dbg dbg' : Bool} {tr : Transport} {m : RSocketMachine} {s : Conc}
    (h : ConcReachable dbg tr m s) (hd : s.draws ≤ 2 ^ 30)
    {bs : List Bytes} (hb : encodeAll s.wire = .ok bs)
    {i : Nat} {c : Call} (hi : s.calls[i]? = some c) {sid : U32} (hs : callId c = some sid) :
    ∃ q, reassembled dbg' (streamBuffers sid.toNat bs) = .ok (.ok q) ∧
      q.metadata.getD [] <+: (callPayload c).metadata.getD [] ∧
      q.data.getD [] <+: (callPayload c).data.getD [] ∧
      (callResult c = some (.ok ()) → q = normPayload (callPayload c)) := by
  have inv := concInv h hd
  have hlt := sid_lt inv hi hs
  have hc := inv.call i c hi
  have hsent := wire_sent h
  have hlen := encodeAll_small hsent hb
  have hbs := encodeAll_eq hsent hb
  subst hbs
  rw [filter_layout hsent]
  by_cases h0 : m.chunkPayload = some 0
  · rw [h0] at hc
    obtain ⟨e, e'⟩ := size_zero hc hs
    rw [e, e']
    exact ⟨_, reassembled_parts dbg' hlt [] nofun, List.nil_prefix, List.nil_prefix, nofun⟩
  obtain ⟨parts, e1, e2, e3, -⟩ := callFrames_parts sid m.chunkPayload (callPayload c) h0
  have hpre := onWire_prefix hc hs
  rw [e1] at hpre
  have htake : onWire sid s.wire =
      (parts.take (onWire sid s.wire).length).map fun e => fnfFrame sid e.1 e.2 := by
    rw [List.map_take]
    exact List.prefix_iff_eq_take.1 hpre
  generalize (onWire sid s.wire).length = k at htake
  have hfit : ∀ e ∈ parts.take k, (e.2.metadata.getD []).length < 2 ^ 24 := by
    intro e he
    have hw : fnfFrame sid e.1 e.2 ∈ onWire sid s.wire := htake ▸ List.mem_map.2 ⟨e, he, rfl⟩
    have := hlen _ (List.mem_of_mem_filter hw)
    rwa [metaLen_fnfFrame] at this
  rw [htake, reassembled_parts dbg' hlt _ hfit]
  have hn : ∀ b : Bytes, (normOpt (some b)).getD [] = b := by intro b; cases b <;> rfl
  refine ⟨_, rfl, ?_, ?_, ?_⟩
  · show (normOpt (some _)).getD [] <+: _
    rw [hn, ← e2]
    exact flatten_prefix ((List.take_prefix k parts).map _ |>.map _)
  · show (normOpt (some _)).getD [] <+: _
    rw [hn, ← e3]
    exact flatten_prefix ((List.take_prefix k parts).map _ |>.map _)
  · intro hr
    have hall : onWire sid s.wire = callFrames sid m.chunkPayload (callPayload c) := by
      cases c with
      | done p x r => cases hr; cases hs; exact hc.2
      | _ => cases hr
    have hk : parts.take k = parts := by
      rw [hall, e1] at htake
      have hl := congrArg List.length htake
      rw [List.length_map, List.length_map, List.length_take] at hl
      exact List.take_of_length_le (by omega)
    rw [hk, e2, e3]
    unfold normPayload
    have hg : ∀ o : Option Bytes, normOpt (some (o.getD [])) = normOpt o := by
      intro o
      rcases o with _ | _ | _ <;> rfl
    rw [hg, hg]

/-- **C70**: buffers on a stream that belongs to no call do not exist. -/
theorem C70_no_other_stream {dbg : Bool} {tr : Transport} {m : RSocketMachine} {s : Conc}
    (h : ConcReachable dbg tr m s)
    {bs : List Bytes} (hb : encodeAll s.wire = .ok bs) {n : Nat} (hn : streamBuffers n bs ≠ []) :
    ∃ (i : Nat) (c : Call) (sid : U32), s.calls[i]? = some c ∧ callId c = some sid ∧
      sid.toNat = n := by
  have hsent := wire_sent h
  have hbs := encodeAll_eq hsent hb
  subst hbs
  obtain ⟨b, hb⟩ := List.exists_mem_of_ne_nil _ hn
  obtain ⟨h1, h2⟩ := List.mem_filter.1 hb
  obtain ⟨f, hf, rfl⟩ := List.mem_map.1 h1
  rw [Bool.and_eq_true, beq_iff_eq, beq_iff_eq] at h2
  rcases wire_origin h hf with ⟨i, c, sid, fo, p, h3, h4, h5, rfl, -⟩ | ⟨md, rfl⟩
  · refine ⟨i, c, sid, h3, h4, ?_⟩
    obtain ⟨fl, rest, -, e⟩ := fnfFrame_layout sid fo p
    rw [e, streamIdOf_header rest h5] at h2
    exact h2.2
  · exfalso
    have : typeOf (header 0 12 (flagsValue 16 false true false false false) ++ md) = 5 := h2.1
    rw [typeOf_header md (by decide) (by decide)] at this
    cases this

/-- **C70**, the size condition is sharp: a completed call whose payload does not fit left a frame
on the wire whose encoding panics. -/
theorem C70_too_big {dbg : Bool} {tr : Transport} {m : RSocketMachine} {s : Conc}
    (h : ConcReachable dbg tr m s)
    {i : Nat} {c : Call} (hi : s.calls[i]? = some c) (hr : (callResult c).isSome)
    (hfit : ¬ FitsFragments m.chunkPayload (callPayload c)) :
    ∃ msg, encodeAll s.wire = .panic msg := by
  obtain ⟨log, inv⟩ := ownInv h
  have hc := inv.call i c hi
  apply encodeAll_panics (wire_sent h)
  cases c with
  | done p sid r =>
    obtain ⟨f, fs, e, hl⟩ := callFrames_too_big sid m.chunkPayload p hfit
    refine ⟨f, own_subset inv i ?_, hl⟩
    cases r with
    | ok u =>
      rw [hc.2.1, e]
      exact List.mem_cons_self ..
    | error err =>
      obtain ⟨-, k, e', -⟩ := hc
      rw [e', e]
      exact List.mem_cons_self ..
  | _ => cases hr

/-- The theorems apply to two calls whose frames alternate on the wire: the peer gets both
payloads, the first one from a call that has returned. -/
example : ∃ s bs, ConcReachable true openTransport (fragmenting 1) s ∧ encodeAll s.wire = .ok bs ∧
    bs.map streamIdOf = [3, 1, 3, 1] ∧
    reassembled true (streamBuffers 1 bs) = .ok (.ok ⟨none, some [1#8, 2#8]⟩) ∧
    reassembled true (streamBuffers 3 bs) = .ok (.ok ⟨none, some [3#8, 4#8]⟩) ∧
    s.calls.map callResult = [some (.ok ()), none] := by
  obtain ⟨s, h1, -, h3, h4⟩ := exampleTwoCalls
  exact ⟨s, _, h1, by rw [h3]; rfl, by decide, by rfl, by rfl, h4⟩

end Binate
