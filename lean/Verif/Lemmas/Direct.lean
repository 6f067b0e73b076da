import Verif.Lemmas.Segments
import Verif.Lemmas.Outcomes
import Verif.Spec.Direct

/-! # Decoders of single frame types called directly -/

namespace Binate

open Spec

theorem direct_body {t : FrameType} (h : t ≠ .EXT) (sid : U32) (fl : Flags) :
    (directDecode t sid fl : Dec Bytes Frame) = bodyDec t sid fl := by
  cases t <;> first | rfl | exact absurd rfl h

/-- The decoders that ignore the stream id. -/
def ignoresId : FrameType → Bool
  | .SETUP | .METADATA_PUSH | .RESUME | .RESUME_OK => true
  | _ => false

theorem direct_ignores {t : FrameType} (h : ignoresId t = true) (sid : U32) (fl : Flags) :
    (directDecode t sid fl : Dec Bytes Frame) = directDecode t 0#32 fl := by
  cases t <;> first | rfl | cases h

theorem direct_zero {t : FrameType} (h : ChecksId t) {sid : U32} (hs : sid ≠ 0#32) (fl : Flags)
    (r : Bytes) : (directDecode t sid fl : Dec Bytes Frame) r = .err (.invalidStreamId "0" sid) r := by
  cases t with
  | LEASE =>
    show ((do return Frame.lease (← LeaseFrame.decode sid fl)) : Dec Bytes Frame) r = _
    rw [Dec.bind_err (e := .invalidStreamId "0" sid) (s' := r)]
    rw [LeaseFrame.decode, if_pos hs]; rfl
  | KEEPALIVE =>
    show ((do return Frame.keepalive (← KeepaliveFrame.decode sid fl)) : Dec Bytes Frame) r = _
    rw [Dec.bind_err (e := .invalidStreamId "0" sid) (s' := r)]
    rw [KeepaliveFrame.decode, if_pos hs]; rfl
  | _ => exact h.elim

/-- Every case of a direct call on contiguous bytes. -/
theorem direct_cases {t : FrameType} (h : t ≠ .EXT) (sid : U32) (fl : Flags) (r : Bytes) :
    (∃ f s, (directDecode t sid fl : Dec Bytes Frame) r = .ok f s ∧ s <:+ r) ∨
    ∃ e s, (directDecode t sid fl : Dec Bytes Frame) r = .err e s ∧ s <:+ r ∧
      (e = .inComplete ∨ ∃ x, e = .invalidStreamId x sid) := by
  by_cases hc : ChecksId t ∧ sid ≠ 0#32
  · exact .inr ⟨_, r, direct_zero hc.1 hc.2 fl r, List.suffix_refl _, .inr ⟨_, rfl⟩⟩
  by_cases he : t = .ERROR
  · subst he
    rw [direct_body h]
    by_cases h4 : r.length < 4
    · exact .inr ⟨_, r, errorBody_short sid fl h4, List.suffix_refl _, .inl rfl⟩
    · obtain ⟨c0, c1, c2, c3, s, rfl⟩ := exists_four (Nat.not_lt.1 h4)
      rw [errorBody]
      have suf : s <:+ c0 :: c1 :: c2 :: c3 :: s := ⟨[c0, c1, c2, c3], rfl⟩
      cases hv : ErrorFrame.validateStreamId sid (c0 ++ c1 ++ c2 ++ c3) with
      | none => exact .inl ⟨_, _, rfl, List.nil_suffix⟩
      | some e =>
        refine .inr ⟨e, s, rfl, suf, .inr ?_⟩
        unfold ErrorFrame.validateStreamId at hv
        split at hv
        · split at hv <;> cases hv; exact ⟨_, rfl⟩
        · split at hv
          · split at hv <;> cases hv; exact ⟨_, rfl⟩
          · cases hv
  have main : ∀ sid' : U32, (connLevel t = true → sid' = 0#32) →
      (∃ f s, (directDecode t sid' fl : Dec Bytes Frame) r = .ok f s ∧ s <:+ r) ∨
      ∃ s, (directDecode t sid' fl : Dec Bytes Frame) r = .err .inComplete s ∧ s <:+ r := by
    intro sid' h0
    rw [direct_body h]
    have hb := body_needs (fl := fl) r h0 he h
    unfold NeedsAt at hb
    split at hb
    · exact .inr hb
    · exact .inl hb
  by_cases hi : ignoresId t = true
  · rw [direct_ignores hi]
    rcases main 0#32 (fun _ => rfl) with h1 | ⟨s, h1, h2⟩
    · exact .inl h1
    · exact .inr ⟨_, s, h1, h2, .inl rfl⟩
  · have h0 : connLevel t = true → sid = 0#32 := by
      intro h1
      by_cases hz : sid = 0#32
      · exact hz
      · exfalso
        cases t <;> first | exact hc ⟨trivial, hz⟩ | exact hi rfl | cases h1
    rcases main sid h0 with h1 | ⟨s, h1, h2⟩
    · exact .inl h1
    · exact .inr ⟨_, s, h1, h2, .inl rfl⟩

variable {T : Type} [Buf T] [LawfulBuf T]

theorem sim_direct (t : FrameType) (sid : U32) (fl : Flags) :
    Sim (directDecode t sid fl : Dec T Frame) (directDecode t sid fl) := by
  cases t with
  | SETUP => exact (sim_setup sid fl).bind fun _ => Sim.pure _
  | ERROR => exact (sim_error sid fl).bind fun _ => Sim.pure _
  | LEASE =>
    refine Sim.bind (Sim.ite (Sim.fail _) ?_) fun _ => Sim.pure _
    exact sim_eatU31.bind fun _ => sim_eatU31.bind fun _ => sim_eatRest.bind fun _ => Sim.pure _
  | KEEPALIVE =>
    refine Sim.bind (Sim.ite (Sim.fail _) ?_) fun _ => Sim.pure _
    exact sim_eatU63.bind fun _ => sim_eatRest.bind fun _ => Sim.pure _
  | REQUEST_RESPONSE =>
    exact Sim.bind ((sim_eatPayload true).bind fun _ => Sim.pure _) fun _ => Sim.pure _
  | REQUEST_FNF =>
    exact Sim.bind ((sim_eatPayload true).bind fun _ => Sim.pure _) fun _ => Sim.pure _
  | REQUEST_STREAM =>
    exact Sim.bind (sim_eatU31.bind fun _ => (sim_eatPayload true).bind fun _ => Sim.pure _)
      fun _ => Sim.pure _
  | REQUEST_CHANNEL =>
    exact Sim.bind (sim_eatU31.bind fun _ => (sim_eatPayload true).bind fun _ => Sim.pure _)
      fun _ => Sim.pure _
  | REQUEST_N => exact Sim.bind (sim_eatU31.bind fun _ => Sim.pure _) fun _ => Sim.pure _
  | CANCEL => exact Sim.bind (Sim.pure _) fun _ => Sim.pure _
  | PAYLOAD =>
    exact Sim.bind ((sim_eatPayload true).bind fun _ => Sim.pure _) fun _ => Sim.pure _
  | METADATA_PUSH =>
    exact Sim.bind (sim_remaining.bind fun _ => (sim_eatBytes _).bind fun _ => Sim.pure _)
      fun _ => Sim.pure _
  | RESUME =>
    exact Sim.bind (sim_eatVersion.bind fun _ => sim_eatU16.bind fun _ => (sim_eatBytes _).bind
      fun _ => sim_eatU63.bind fun _ => sim_eatU63.bind fun _ => Sim.pure _) fun _ => Sim.pure _
  | RESUME_OK => exact Sim.bind (sim_eatU63.bind fun _ => Sim.pure _) fun _ => Sim.pure _
  | EXT => exact Sim.panic _

end Binate
