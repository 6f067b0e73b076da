import Verif.Props.Canonical
import Verif.Lemmas.Interop

/-! # Exchanging frames with a peer that follows the diagrams

C131. `layout 32 f` are the bytes of `f` with the flags where the diagrams of
binate/src/frame/codec/*.rs have them. -/

namespace Binate

open Spec

/-- A KEEPALIVE that asks for an answer. -/
def pingFrame : Frame := .keepalive { respond := true, lastReceivedPosition := 0#64, data := none }

/-- A SETUP frame that asks for leases and not for resumption. -/
def leaseSetup : SetupFrame :=
  { flags := Flags.LEASE
    version := ⟨1#16, 0#16⟩, keepaliveInterval := 5#32, keepaliveTimeout := 7#32
    resumeToken := none, metadataMimetype := [97#8], dataMimetype := [98#8]
    payload := ⟨none, none⟩ }

theorem leaseSetup_wellFormed : WellFormed (.setup leaseSetup) := by
  refine ⟨by decide, by decide, by decide, by decide, ?_, by decide, by decide, by decide⟩
  intro t ht; cases ht

/-- The last element of a response: NEXT and COMPLETE. -/
def lastPayload : Frame :=
  .payload { streamId := 1#32, flags := Flags.NEXT.union Flags.COMPLETE
             payload := ⟨none, some [7#8]⟩ }

/-- **C131** is false: there are frames that the diagrams lay out differently and that are read
differently when they arrive as in the diagrams. -/
theorem C131_interop_false : ¬ ∀ f : Frame, WellFormed f →
    f.toBytes = .ok (layout 32 f) ∧ decode (layout 32 f) = .ok (normalize f) [] := by
  intro h
  have := (h pingFrame (by decide : (0#64).toNat < 2 ^ 63)).2
  revert this
  decide

/-- **C131**, exactly which frames are sent as in the diagrams: those without flags. -/
theorem C131_sent_partial {f : Frame} (hf : FrameFlagsOk f) (hm : metaLen f < 2 ^ 24) :
    f.toBytes = .ok (layout 32 f) ↔ flagNumber f = 0 := by
  rw [C08_layout_partial hf hm]
  have hn := flagNumber_lt f
  constructor
  · intro h
    have e : layout 16 f = layout 32 f := by injection h
    have : u16At (layout 16 f) 4 = u16At (layout 32 f) 4 := by rw [e]
    rw [layout_split 16, layout_split 32, header_word (typeNumber_lt_all f) (by omega),
      header_word (typeNumber_lt_all f) (by omega)] at this
    omega
  · intro h
    rw [layout_split 16, layout_split 32, h]

/-- **C131**, what a peer that follows the diagrams takes the flags of a frame sent to it for: every
flag is taken for the next lower one, and NEXT is lost. The type is read correctly. -/
theorem C131_flags_seen {f : Frame} {b : Bytes} (hf : FrameFlagsOk f) (hm : metaLen f < 2 ^ 24)
    (h : f.toBytes = .ok b) : typeOf b = typeNumber f ∧ diagramFlags b = flagNumber f / 2 := by
  rw [C08_layout_partial hf hm] at h
  cases h
  have hn := flagNumber_lt f
  rw [layout_split 16]
  refine ⟨header_typeOf (typeNumber_lt_all f) (by omega), ?_⟩
  unfold diagramFlags
  rw [header_word (typeNumber_lt_all f) (by omega)]
  omega

/-- **C131**, exactly which frames of a peer that follows the diagrams are read as it meant them:
those without a flag that this side keeps (it does not look at those of LEASE and METADATA_PUSH). -/
theorem C131_read_partial {f : Frame} (h : WellFormed f) :
    decode (layout 32 f) = .ok (normalize f) [] ↔ Unflagged f := by
  have hd := decode_layout h
  constructor
  · intro h'
    exact (layouts_agree_iff f).1 ((C78_same_frame_iff hd h').1 ⟨rfl, rfl⟩)
  · intro hu
    exact C78_ignored hd ((layouts_agree_iff f).2 hu)

/-- **C131**, what the other frames of such a peer are taken for: every flag is taken for the next
higher one, IGNORE is lost, and KEEPALIVE never asks for an answer. The one exception is a SETUP
frame that asks for just one of resumption and leases. -/
theorem C131_flags_read {f : Frame} (h : WellFormed f) (hl : TokenLegible f) :
    decode (layout 32 f) = .ok (normalize (asRead f)) [] :=
  C78_ignored (decode_layout (asRead_wellFormed h hl)) (asRead_agree f)

/-- **C131**, the exception: if the frame of such a peer is accepted at all, the request for leases
is taken for the presence of a resume token. -/
theorem C131_token {v : SetupFrame} {g : Frame} {rest : Bytes}
    (h : decode (layout 32 (.setup v)) = .ok g rest) :
    ∃ s, g = .setup s ∧ s.flags = raised v.flags ∧
      s.resumeToken.isSome = v.flags.bits.getLsbD 5 := by
  obtain ⟨hd, body, sid, fl, e, hh, hb⟩ := decode_iff.1 h
  obtain ⟨s, w, rfl, hs, hw, -, hty, hfl⟩ := hh
  have hv := flagsOf_lt v.flags
  rw [layout_split 32] at e
  have ew : w = be 2 (1 * 1024 + 32 * flagsOf 1 v.flags) := by
    have e1 : be 4 0 ++ (be 2 (1 * 1024 + 32 * flagsOf 1 v.flags) ++
        (layout 0 (.setup v)).drop 6) = s ++ (w ++ body) := by
      rw [← List.append_assoc, ← List.append_assoc]; exact e
    have e2 := (List.append_inj e1 (by rw [hs]; rfl)).2
    exact ((List.append_inj e2 (by rw [hw]; rfl)).1).symm
  have hval : beVal w = 1024 + 32 * flagsOf 1 v.flags := by
    rw [ew]
    have key : ∀ n < 32, beVal (be 2 (1 * 1024 + 32 * n)) = 1024 + 32 * n := by decide +kernel
    exact key _ hv
  have hty1 : typeNumber g = 1 := by rw [hty, hval]; omega
  have hfl1 : fl = 16 * (2 * flagsOf 1 v.flags % 32) := by rw [hfl, hval]; omega
  cases hb with
  | @setup _ _ _ _ _ _ _ _ f h1 _ _ _ htok _ _ _ =>
    have hfe : f.flags = raised v.flags := by
      have : f.flags.bits = (raised v.flags).bits := by
        apply BitVec.eq_of_toNat_eq
        rw [h1, hfl1]
        show _ = (BitVec.ofNat 16 _).toNat
        rw [BitVec.toNat_ofNat]
        omega
      cases hfv : f.flags with
      | mk bits => rw [hfv] at this; cases this; rfl
    refine ⟨f, rfl, hfe, ?_⟩
    have hbit : fl.testBit 6 = v.flags.bits.getLsbD 5 := by
      rw [← raised_resume, ← hfe, h1]
    rw [hbit] at htok
    unfold Token at htok
    split at htok
    · next hc => obtain ⟨t, ht, -⟩ := htok; rw [ht, hc]; rfl
    · next hc => rw [htok.1, Bool.eq_false_iff.2 hc]; rfl
  | _ => cases hty1

/-- **C131**, so a SETUP frame that asks for just one of the two never gets its resume token
across. -/
theorem C131_token_wrong {v : SetupFrame} {s : SetupFrame} {rest : Bytes}
    (hw : WellFormed (.setup v)) (hl : ¬ TokenLegible (.setup v))
    (h : decode (layout 32 (.setup v)) = .ok (.setup s) rest) :
    s.resumeToken.isSome ≠ v.resumeToken.isSome := by
  obtain ⟨s', e, -, ht⟩ := C131_token h
  cases e
  rw [ht, hw.2.2.2.1]
  exact hl

/-- **C131**, in particular a peer's KEEPALIVE is never recognised as asking for an answer, and one
sent never asks such a peer for an answer. -/
theorem C131_keepalive (k : KeepaliveFrame) :
    (∀ g rest, decode (layout 32 (.keepalive k)) = .ok g rest →
      ∃ k', g = .keepalive k' ∧ k'.respond = false) ∧
    (∀ b, (Frame.keepalive k).toBytes = .ok b → (diagramFlags b).testBit 2 = false) := by
  constructor
  · intro g rest h
    obtain ⟨hd, body, sid, fl, e, hh, hb⟩ := decode_iff.1 h
    obtain ⟨s, w, rfl, hs, hw, -, hty, hfl⟩ := hh
    rw [layout_split 32] at e
    have hk : flagNumber (.keepalive k) = 0 ∨ flagNumber (.keepalive k) = 4 := by
      cases k with
      | mk r p d => cases r with
        | false => exact .inl rfl
        | true => exact .inr rfl
    have ew : w = be 2 (3 * 1024 + 32 * flagNumber (.keepalive k)) := by
      have e1 : be 4 0 ++ (be 2 (3 * 1024 + 32 * flagNumber (.keepalive k)) ++
          (layout 0 (.keepalive k)).drop 6) = s ++ (w ++ body) := by
        rw [← List.append_assoc, ← List.append_assoc]; exact e
      have e2 := (List.append_inj e1 (by rw [hs]; rfl)).2
      exact ((List.append_inj e2 (by rw [hw]; rfl)).1).symm
    have hval : beVal w = 3 * 1024 + 32 * flagNumber (.keepalive k) := by
      rw [ew]; rcases hk with hk | hk <;> rw [hk] <;> decide
    have hty1 : typeNumber g = 3 := by rw [hty, hval]; omega
    have hbit : fl.testBit 6 = false := by
      rw [hfl, hval]; rcases hk with hk | hk <;> rw [hk] <;> decide
    cases hb with
    | @keepalive _ _ _ f hr _ _ => exact ⟨f, rfl, hr.trans hbit⟩
    | _ => cases hty1
  · intro b h
    have := (C131_flags_seen (f := .keepalive k) (by intro fl h; cases h)
      (Nat.two_pow_pos 24) h).2
    rw [this]
    cases k with
    | mk r p d => cases r with
      | false => exact (by decide : (0 / 2).testBit 2 = false)
      | true => exact (by decide : (4 / 2).testBit 2 = false)

/-- The last element of a response reaches such a peer with NEXT and without COMPLETE: the stream
stays open. The same element from such a peer is read as FOLLOWS and COMPLETE, without NEXT. -/
example : (∃ b, lastPayload.toBytes = .ok b ∧ diagramFlags b = 1 ∧ flagNumber lastPayload = 3) ∧
    decode (layout 32 lastPayload) = .ok (.payload
      { streamId := 1#32, flags := Flags.COMPLETE.union Flags.FOLLOWS
        payload := ⟨none, some [7#8]⟩ }) [] :=
  ⟨⟨_, rfl, by decide, by decide⟩, by decide⟩

/-- A SETUP frame of such a peer that asks for leases only is refused: the lengths of the mime types
are taken for the length of a token. -/
example : ¬ TokenLegible (.setup leaseSetup) ∧
    ¬ ∃ g rest, decode (layout 32 (.setup leaseSetup)) = .ok g rest := by
  refine ⟨by unfold TokenLegible; decide, ?_⟩
  rintro ⟨g, rest, h⟩
  have e : (match decode (layout 32 (.setup leaseSetup)) with | .ok _ _ => true | _ => false)
      = false := by decide
  rw [h] at e
  cases e

/-- One that asks for resumption only may be accepted with the token taken for a mime type. -/
example : decode (layout 32 (.setup { leaseSetup with
      flags := Flags.RESUME, resumeToken := some [1#8, 2#8]
      metadataMimetype := [], dataMimetype := [] })) = .ok (.setup { leaseSetup with
      flags := Flags.METADATA, resumeToken := none
      metadataMimetype := [], dataMimetype := [1#8, 2#8], payload := ⟨none, some [0#8, 0#8]⟩ }) [] := by
  decide

example : WellFormed (.setup sampleSetup) ∧ ¬ TokenLegible (.setup sampleSetup) ∧
    TokenLegible lastPayload ∧ Unflagged (.cancel { streamId := 1#32 }) ∧
    ¬ Unflagged pingFrame ∧ FrameFlagsOk lastPayload :=
  ⟨sampleSetup_wellFormed, by unfold TokenLegible; decide, trivial, rfl,
    fun h => absurd (show 4 = 0 from h) (by decide), by intro fl h; cases h; decide⟩

end Binate
