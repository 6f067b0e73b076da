import Verif.Props.Peer
import Verif.Props.Conc
import Verif.Lemmas.WildConc

/-! # What a peer gets of requests that are not fragmented, and of pushes -/

namespace Binate

open Spec RSocketMachine

variable {dbg dbg' : Bool} {m : RSocketMachine}

/-- What a peer gets of a call that does not fragment: all or nothing. -/
theorem whole_or_nothing {tr : Transport} {s : Conc} (h : ConcReachable dbg tr m s) (hd : s.draws ≤ 2 ^ 30)
    (h0 : m.chunkPayload = none) {bs : List Bytes} (hb : encodeAll s.wire = .ok bs)
    {i : Nat} {c : Call} (hi : s.calls[i]? = some c) {sid : U32} (hs : callId c = some sid) :
    streamBuffers sid.toNat bs = [] ∧ callResult c = none ∨
      reassembled dbg' (streamBuffers sid.toNat bs) = .ok (.ok (normPayload (callPayload c))) := by
  have h0' : m.chunkPayload ≠ some 0 := by rw [h0]; nofun
  have inv := concInv h hd
  have hsent := wire_sent h
  have hlen := encodeAll_small hsent hb
  obtain ⟨_, -, -, -, herr, -⟩ := C57_own_frames h hd h0' hi hs
  have hpre := onWire_prefix (inv.call i c hi) hs
  rw [encodeAll_eq hsent hb, filter_layout hsent]
  rw [h0] at hpre
  change onWire sid s.wire <+: [fnfFrame sid false (callPayload c)] at hpre
  rcases List.prefix_cons_iff.1 hpre with hn | ⟨t, ht, ht'⟩
  · left
    rw [hn]
    refine ⟨rfl, ?_⟩
    have hc := inv.call i c hi
    cases c with
    | done p x r =>
      cases hs
      cases r with
      | ok u =>
        have hc := hc.2
        rw [hn, h0] at hc
        cases hc
      | error e => exact absurd hn (herr e rfl)
    | _ => rfl
  · right
    rw [List.prefix_nil.1 ht'] at ht
    have := hlen _ (List.mem_of_mem_filter (ht ▸ List.mem_cons_self : _ ∈ onWire sid s.wire))
    rw [metaLen_fnfFrame] at this
    rw [ht]
    have key := reassembled_parts dbg' (sid_lt inv hi hs) [(false, callPayload c)] (by
      intro e he
      cases List.mem_singleton.1 he
      exact this)
    refine key.trans ?_
    generalize callPayload c = p
    obtain ⟨a, b⟩ := p
    have hg : ∀ o : Option Bytes, normOpt (some ([o.getD []].flatten)) = normOpt o := by
      intro o
      rcases o with _ | _ | _
      · rfl
      · rfl
      · simp [normOpt]
    show Outcome.ok (Except.ok (Payload.mk (normOpt (some [a.getD []].flatten))
      (normOpt (some [b.getD []].flatten)))) = _
    rw [hg, hg]
    rfl

/-- What a peer gets of the pushes. -/
theorem push_buffers {tr : WildTransport} {past fs : List Frame} (hw : ∀ f ∈ fs, OnTheWire f) :
    ((fs.map (layout 16)).filter fun b => typeOf b == 12).map decode =
      (pushedFrom tr past fs).map fun e => .ok (.metadataPush ⟨e.1⟩) [] := by
  induction fs generalizing past with
  | nil => rfl
  | cons f fs ih =>
    have ih := fun p => ih (past := p) fun g hg => hw g (List.mem_cons_of_mem _ hg)
    cases hw f List.mem_cons_self with
    | fnf x fo p hx =>
      obtain ⟨fl, rest, h1, h2⟩ := fnfFrame_layout x fo p
      rw [List.map_cons, List.filter_cons_of_neg]
      · exact ih _
      · rw [h2, typeOf_header rest (by decide) h1]
        decide
    | push md =>
      rw [List.map_cons, List.filter_cons_of_pos]
      · exact congrArg₂ List.cons (decode_layout (push_wellFormed md)) (ih (past ++ [.metadataPush ⟨md⟩]))
      · have : typeOf (header 0 12 (flagsValue 16 false true false false false) ++ md) = 12 :=
          typeOf_header md (by decide) (by decide)
        exact beq_iff_eq.2 this

end Binate
