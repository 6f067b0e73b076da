import Verif.Lemmas.Rsocket
import Verif.Lemmas.Peer
import Verif.Lemmas.Wire
import Verif.Spec.Direct
import Verif.Spec.Owner

namespace Binate

open Spec RSocketMachine

theorem readPush_header {fl : Nat} {md : Bytes} (hf : fl < 1024) :
    readPush (header 0 12 fl ++ md) = some ((fl / 32).testBit 3, md) := by
  unfold readPush
  rw [header_typeOf (by decide) hf, header_streamId (by decide), header_diagram (by decide) hf]
  have hl : ¬ (header 0 12 fl ++ md).length < 6 := by
    rw [List.length_append]
    have : (header 0 12 fl).length = 6 := rfl
    omega
  rw [if_neg (fun h => h.elim hl fun h => h.elim (fun h => h rfl) fun h => h rfl)]
  rfl

/-- The metadata of a METADATA_PUSH frame. -/
def pushedOf : Frame → Option Bytes
  | .metadataPush f => some f.metadata
  | _ => none

theorem readPush_wire {f : Frame} (h : OnTheWire f) :
    readPush (layout 16 f) = (pushedOf f).map fun md => (false, md) := by
  cases h with
  | fnf sid follows p _ =>
    obtain ⟨fl, rest, hfl, e⟩ := fnfFrame_layout sid follows p
    unfold readPush
    rw [e, header_typeOf (by decide) hfl, if_pos (.inr (.inl (by decide)))]
    rfl
  | push md => exact readPush_header (fl := 128) (by decide)

theorem readPush_log {log : List Sent} (hw : ∀ x ∈ log, OnTheWire x.frame)
    (hp : ∀ x ∈ log, x.owner = none ↔ ∃ md, x.frame = .metadataPush ⟨md⟩) :
    ((log.map Sent.frame).map (layout 16)).filterMap readPush =
      (pushedBy log).filterMap fun p => (pushedOf p.1).map fun md => (false, md) := by
  induction log with
  | nil => rfl
  | cons x log ih =>
    have ih := ih (fun y hy => hw y (List.mem_cons_of_mem _ hy))
      fun y hy => hp y (List.mem_cons_of_mem _ hy)
    have hx := readPush_wire (hw x (List.mem_cons_self ..))
    have ho := hp x (List.mem_cons_self ..)
    unfold pushedBy at ih ⊢
    rw [List.map_cons, List.map_cons, List.filterMap_cons, hx, ih, List.filter_cons]
    cases hq : x.owner with
    | none =>
      obtain ⟨md, e⟩ := ho.1 hq
      rw [e]
      simp [pushedOf, e]
    | some i =>
      have hn : pushedOf x.frame = none := by
        cases hf : x.frame with
        | metadataPush v => exact absurd (ho.2 ⟨v.metadata, hf⟩) (by rw [hq]; nofun)
        | _ => rfl
      rw [hn]
      rfl

theorem directDecode_push (sid : U32) (fl : Flags) (md : Bytes) :
    (directDecode .METADATA_PUSH sid fl : Dec Bytes Frame) md = .ok (.metadataPush ⟨md⟩) [] := by
  have he : (eatBytes md.length : Dec Bytes Bytes) md = .ok md [] :=
    eatBytes_iff.2 ⟨(List.append_nil md).symm, rfl⟩
  show (do return Frame.metadataPush (← MetadataPushFrame.decode sid fl) : Dec Bytes Frame) md = _
  have hd : (MetadataPushFrame.decode sid fl : Dec Bytes MetadataPushFrame) md = .ok ⟨md⟩ [] := by
    show (eatBytes md.length >>= fun m => pure ⟨m⟩ : Dec Bytes MetadataPushFrame) md = _
    rw [Dec.bind_apply, he]
    rfl
  rw [Dec.bind_apply, hd]
  rfl

end Binate
