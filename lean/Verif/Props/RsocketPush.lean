import Verif.Props.Rsocket
import Verif.Props.Peer
import Verif.Props.Direct
import Verif.Lemmas.Owner
import Verif.Lemmas.RsocketPush

/-! # METADATA_PUSH and a peer that follows the RSocket protocol

C134. `readPush` is that reader. -/

namespace Binate

open Spec RSocketMachine

/-- **C134**, the reader is right: what the protocol has for METADATA_PUSH is read as such, with the
flag. -/
theorem C134_reader (md : Bytes) :
    readPush (protocolLayout (.metadataPush ⟨md⟩)) = some (true, md) := by
  show readPush (header 0 12 256 ++ md) = _
  exact readPush_header (by decide)

/-- **C134**, one frame: the metadata is all there, but the flag is not. -/
theorem C134_frame (md : Bytes) :
    ∃ b, (Frame.metadataPush ⟨md⟩).toBytes = .ok b ∧ readPush b = some (false, md) := by
  refine ⟨layout 16 (.metadataPush ⟨md⟩), C08_layout_partial (by intro fl h; cases h)
    (show 0 < 2 ^ 24 by decide), ?_⟩
  show readPush (header 0 12 128 ++ md) = _
  exact readPush_header (by decide)

/-- **C134** is false of every call: the METADATA flag is never where the protocol has it, so that a
peer that insists on it takes none. -/
theorem C134_flag_false {dbg : Bool} {tr : Transport} {m : RSocketMachine} {s : Conc}
    (h : ConcReachable dbg tr m s) {bs : List Bytes} (hb : encodeAll s.wire = .ok bs) :
    ∀ b ∈ bs, ∀ md, readPush b ≠ some (true, md) := by
  rw [encodeAll_eq (wire_sent h) hb]
  intro b hm md hr
  obtain ⟨f, hf, rfl⟩ := List.mem_map.1 hm
  rw [readPush_wire (wire_sent h f hf)] at hr
  cases f <;> cases hr

/-- **C134**, what holds: in every execution with any number of concurrent callers, whatever else is on
the wire, the METADATA_PUSH frames that such a peer finds are those of the calls of `metadata_push`, in
their order and with all of their metadata. Missing: the flag. -/
theorem C134_pushes_partial {dbg : Bool} {tr : Transport} {m : RSocketMachine} {s : Conc}
    (h : ConcReachable dbg tr m s) {bs : List Bytes} (hb : encodeAll s.wire = .ok bs) :
    bs.filterMap readPush = (askedPushes s.asked).map fun p => (false, p.1) := by
  obtain ⟨log, inv⟩ := ownInv h
  have hw := wire_sent h
  rw [encodeAll_eq hw hb]
  rw [← inv.acc.frames] at hw ⊢
  have e := readPush_log (fun x hx => hw _ (List.mem_map_of_mem hx)) inv.acc.pushes
  rw [e, inv.pushed, List.filterMap_map]
  exact congrFun (List.filterMap_eq_map (f := fun p : Bytes × Except Error Unit => (false, p.1))) _

/-- **C134**, the other direction: METADATA_PUSH of such a peer is read with all of its metadata,
whatever its flags are. -/
theorem C134_received (md : Bytes) {fl : Nat} (hf : fl < 1024) :
    decode (header 0 12 fl ++ md) = .ok (.metadataPush ⟨md⟩) [] := by
  have hl : 6 ≤ (header 0 12 fl ++ md).length := by
    rw [List.length_append]
    exact Nat.le_add_right 6 md.length
  have ht : typeOf (header 0 12 fl ++ md) = protocolNumber .METADATA_PUSH :=
    header_typeOf (by decide) hf
  rw [C67_frame_decode hl ht (by decide) fun _ => header_streamId (by decide)]
  have hd : (header 0 12 fl ++ md).drop 6 = md := rfl
  rw [hd]
  exact directDecode_push _ _ md

-- two calls, before and after a request that is on its way
example : ∃ s bs, ConcReachable true openTransport (RSocketMachine.new .client 60 0) s ∧
    encodeAll s.wire = .ok bs ∧ bs.filterMap readPush = [(false, [1#8]), (false, [])] := by
  refine ⟨_, _, .step (.step .init (.push _ [1#8])) (.push _ []), rfl, ?_⟩
  decide

end Binate
