import Verif.Lemmas.BufList

/-! # Decoding does not depend on how the bytes are cut into segments -/

namespace Binate

open Spec

variable {β : Type} [Buf β] [LawfulBuf β] {α γ : Type}

/-- Results agree and the buffer that is left is valid. -/
def SimRes : Res β α → Res Bytes α → Prop
  | .ok a s, .ok a' s' => a = a' ∧ Valid s ∧ bytes s = s'
  | .err e s, .err e' s' => e = e' ∧ Valid s ∧ bytes s = s'
  | .panic m, .panic m' => m = m'
  | _, _ => False

/-- A decoder does the same on a valid buffer as on its bytes. -/
def Sim (d : Dec β α) (d' : Dec Bytes α) : Prop := ∀ b, Valid b → SimRes (d b) (d' (bytes b))

theorem Sim.bind {d : Dec β α} {d' : Dec Bytes α} {f : α → Dec β γ} {f' : α → Dec Bytes γ}
    (h : Sim d d') (hf : ∀ a, Sim (f a) (f' a)) : Sim (d >>= f) (d' >>= f') := by
  intro b hb
  have := h b hb
  rw [Dec.bind_apply, Dec.bind_apply]
  cases hd : d b with
  | ok a s =>
    rw [hd] at this
    cases hd' : d' (bytes b) with
    | ok a' s' =>
      rw [hd'] at this
      obtain ⟨rfl, h1, rfl⟩ := this
      exact hf a s h1
    | err => rw [hd'] at this; exact this.elim
    | panic => rw [hd'] at this; exact this.elim
    | diverge => rw [hd'] at this; exact this.elim
  | err e s =>
    rw [hd] at this
    cases hd' : d' (bytes b) with
    | err => rw [hd'] at this; exact this
    | ok => rw [hd'] at this; exact this.elim
    | panic => rw [hd'] at this; exact this.elim
    | diverge => rw [hd'] at this; exact this.elim
  | panic m =>
    rw [hd] at this
    cases hd' : d' (bytes b) with
    | panic => rw [hd'] at this; exact this
    | ok => rw [hd'] at this; exact this.elim
    | err => rw [hd'] at this; exact this.elim
    | diverge => rw [hd'] at this; exact this.elim
  | diverge => rw [hd] at this; exact this.elim

theorem Sim.pure (a : α) : Sim (pure a : Dec β α) (pure a) := fun _ hb => ⟨rfl, hb, rfl⟩
theorem Sim.fail (e : DecodeError) : Sim (Dec.fail e : Dec β α) (Dec.fail e) :=
  fun _ hb => ⟨rfl, hb, rfl⟩
theorem Sim.panic (m : String) : Sim (Dec.panic m : Dec β α) (Dec.panic m) := fun _ _ => rfl

theorem Sim.ite {c : Prop} [Decidable c] {d e : Dec β α} {d' e' : Dec Bytes α} (h : Sim d d')
    (h' : Sim e e') : Sim (if c then d else e) (if c then d' else e') := by
  split
  · exact h
  · exact h'

theorem sim_remaining : Sim (remainingD : Dec β Nat) remainingD :=
  fun _ hb => ⟨LawfulCore.remaining_eq hb, hb, rfl⟩

theorem sim_incomplete (n : Nat) :
    Sim (incompleteIfLessThan n : Dec β Unit) (incompleteIfLessThan n) := by
  intro b hb
  unfold incompleteIfLessThan
  rw [LawfulCore.remaining_eq hb, flat_remaining]
  split
  · exact ⟨rfl, hb, rfl⟩
  · exact ⟨rfl, hb, rfl⟩

theorem sim_lift_array (n : Nat) (g : Bytes → α) :
    Sim (Dec.lift fun b : β => BufCore.getArray n b >>= fun x => .ok (g x.1, x.2))
      (Dec.lift fun b : Bytes => BufCore.getArray n b >>= fun x => .ok (g x.1, x.2)) := by
  intro b hb
  unfold Dec.lift
  by_cases h : n ≤ (bytes b).length
  · obtain ⟨b', e1, e2, e3⟩ := getArray_ok hb h
    simp only [e1, flat_getArray h]
    exact ⟨rfl, e2, e3⟩
  · simp only [getArray_over hb (Nat.not_le.1 h),
      getArray_over (β := Bytes) (b := bytes b) trivial (Nat.not_le.1 h)]
    rfl

theorem sim_getU16 : Sim (Dec.lift (BufCore.getU16 : β → _)) (Dec.lift BufCore.getU16) :=
  sim_lift_array 2 BufCore.beU16
theorem sim_getU32 : Sim (Dec.lift (BufCore.getU32 : β → _)) (Dec.lift BufCore.getU32) :=
  sim_lift_array 4 BufCore.beU32
theorem sim_getU64 : Sim (Dec.lift (BufCore.getU64 : β → _)) (Dec.lift BufCore.getU64) :=
  sim_lift_array 8 BufCore.beU64

theorem sim_getU8 : Sim (Dec.lift (BufCore.getU8 : β → _)) (Dec.lift BufCore.getU8) := by
  intro b hb
  unfold Dec.lift
  cases h : bytes b with
  | nil =>
    rw [getU8_over hb h, getU8_over (β := Bytes) (b := []) trivial rfl]
    rfl
  | cons x r =>
    obtain ⟨b', e1, e2, e3⟩ := getU8_ok hb h
    rw [e1, flat_getU8]
    exact ⟨rfl, e2, e3⟩

theorem sim_eatStreamId : Sim (eatStreamId : Dec β U32) eatStreamId :=
  (sim_incomplete 4).bind fun _ => sim_getU32.bind fun _ => Sim.pure _

theorem sim_eatFlags : Sim (eatFlags : Dec β (FrameType × Flags)) eatFlags := by
  refine (sim_incomplete 2).bind fun _ => sim_getU16.bind fun flags => ?_
  simp only
  cases FrameType.fromBits flags with
  | none => exact Sim.fail _
  | some t => exact Sim.pure _

theorem sim_eatVersion : Sim (eatVersion : Dec β Version) eatVersion :=
  (sim_incomplete 4).bind fun _ => sim_getU16.bind fun _ => sim_getU16.bind fun _ => Sim.pure _

theorem sim_eatU8 : Sim (eatU8 : Dec β U8) eatU8 := (sim_incomplete 2).bind fun _ => sim_getU8
theorem sim_eatU16 : Sim (eatU16 : Dec β U16) eatU16 := (sim_incomplete 2).bind fun _ => sim_getU16
theorem sim_eatU24 : Sim (eatU24 : Dec β U24) eatU24 :=
  sim_eatU8.bind fun _ => sim_eatU16.bind fun _ => Sim.pure _
theorem sim_eatU31 : Sim (eatU31 : Dec β U32) eatU31 :=
  (sim_incomplete 4).bind fun _ => sim_getU32.bind fun _ => Sim.pure _
theorem sim_eatU32 : Sim (eatU32 : Dec β U32) eatU32 := (sim_incomplete 4).bind fun _ => sim_getU32
theorem sim_eatU63 : Sim (eatU63 : Dec β U64) eatU63 :=
  (sim_incomplete 8).bind fun _ => sim_getU64.bind fun _ => Sim.pure _

theorem sim_eatBytes (n : Nat) : Sim (eatBytes n : Dec β Bytes) (eatBytes n) := by
  intro b hb
  unfold eatBytes
  rw [Dec.bind_apply, Dec.bind_apply]
  unfold incompleteIfLessThan
  rw [LawfulCore.remaining_eq hb, flat_remaining]
  by_cases h : (bytes b).length < n
  · rw [if_pos h, if_pos h]
    exact ⟨rfl, hb, rfl⟩
  · rw [if_neg h, if_neg h]
    obtain ⟨b', e1, e2, e3⟩ := LawfulBuf.copy_ok hb (n := n) (by omega)
    simp only [Dec.lift, e1]
    rw [flat_copyToBytes (Nat.not_lt.1 h)]
    exact ⟨rfl, e2, e3⟩

theorem sim_eatRest : Sim (eatRest : Dec β (Option Bytes)) eatRest := by
  refine sim_remaining.bind fun n => ?_
  cases n with
  | zero => exact Sim.pure _
  | succ n => exact (sim_eatBytes _).bind fun _ => Sim.pure _

theorem sim_eatMetadataLen (c : Bool) : Sim (eatMetadataLen c : Dec β Nat) (eatMetadataLen c) :=
  Sim.ite (sim_eatU24.bind fun _ => Sim.pure _) (Sim.pure _)

theorem sim_eatMetadata (n : Nat) : Sim (eatMetadata n : Dec β (Option Bytes)) (eatMetadata n) :=
  Sim.ite ((sim_eatBytes _).bind fun _ => Sim.pure _) (Sim.pure _)

theorem sim_eatPayload (c : Bool) : Sim (eatPayload c : Dec β Payload) (eatPayload c) :=
  (sim_eatMetadataLen c).bind fun _ => (sim_eatMetadata _).bind fun _ =>
    sim_eatRest.bind fun _ => Sim.pure _

theorem sim_eatResumeToken (fl : Flags) :
    Sim (eatResumeToken fl : Dec β (Option Bytes)) (eatResumeToken fl) :=
  Sim.ite (sim_eatU16.bind fun _ => (sim_eatBytes _).bind fun _ => Sim.pure _) (Sim.pure _)

theorem sim_error (sid : U32) (fl : Flags) :
    Sim (ErrorFrame.decode sid fl : Dec β ErrorFrame) (ErrorFrame.decode sid fl) := by
  refine sim_eatU32.bind fun code => ?_
  cases ErrorFrame.validateStreamId sid code with
  | some e => exact Sim.fail _
  | none => exact sim_eatRest.bind fun _ => Sim.pure _

theorem sim_setup (sid : U32) (fl : Flags) :
    Sim (SetupFrame.decode sid fl : Dec β SetupFrame) (SetupFrame.decode sid fl) :=
  sim_eatVersion.bind fun _ => sim_eatU31.bind fun _ => sim_eatU31.bind fun _ =>
    (sim_eatResumeToken fl).bind fun _ => sim_eatU8.bind fun _ => (sim_eatBytes _).bind fun _ =>
    sim_eatU8.bind fun _ => (sim_eatBytes _).bind fun _ => (sim_eatPayload true).bind fun _ =>
    Sim.pure _

theorem sim_decode : Sim (Frame.decode : Dec β Frame) Frame.decode := by
  refine sim_remaining.bind fun rem => Sim.ite (Sim.fail _) ?_
  refine sim_eatStreamId.bind fun sid => sim_eatFlags.bind fun ⟨t, fl⟩ => ?_
  refine Sim.ite (Sim.fail _) ?_
  cases t with
  | SETUP => exact (sim_setup sid fl).bind fun _ => Sim.pure _
  | ERROR => exact (sim_error sid fl).bind fun _ => Sim.pure _
  | LEASE =>
    refine Sim.bind (Sim.ite (Sim.fail _) ?_) fun _ => Sim.pure _
    exact sim_eatU31.bind fun _ => sim_eatU31.bind fun _ => sim_eatRest.bind fun _ => Sim.pure _
  | KEEPALIVE =>
    refine Sim.bind (Sim.ite (Sim.fail _) ?_) fun _ => Sim.pure _
    exact sim_eatU63.bind fun _ => sim_eatRest.bind fun _ => Sim.pure _
  | REQUEST_RESPONSE =>
    exact Sim.bind ((sim_eatPayload true).bind fun _ => Sim.pure _) fun _ => Sim.pure _
  | REQUEST_FNF =>
    exact Sim.bind ((sim_eatPayload true).bind fun _ => Sim.pure _) fun _ => Sim.pure _
  | REQUEST_STREAM =>
    exact Sim.bind (sim_eatU31.bind fun _ => (sim_eatPayload true).bind fun _ => Sim.pure _)
      fun _ => Sim.pure _
  | REQUEST_CHANNEL =>
    exact Sim.bind (sim_eatU31.bind fun _ => (sim_eatPayload true).bind fun _ => Sim.pure _)
      fun _ => Sim.pure _
  | REQUEST_N => exact Sim.bind (sim_eatU31.bind fun _ => Sim.pure _) fun _ => Sim.pure _
  | CANCEL => exact Sim.bind (Sim.pure _) fun _ => Sim.pure _
  | PAYLOAD =>
    exact Sim.bind ((sim_eatPayload true).bind fun _ => Sim.pure _) fun _ => Sim.pure _
  | METADATA_PUSH =>
    exact Sim.bind (sim_remaining.bind fun _ => (sim_eatBytes _).bind fun _ => Sim.pure _)
      fun _ => Sim.pure _
  | RESUME =>
    exact Sim.bind (sim_eatVersion.bind fun _ => sim_eatU16.bind fun _ => (sim_eatBytes _).bind
      fun _ => sim_eatU63.bind fun _ => sim_eatU63.bind fun _ => Sim.pure _) fun _ => Sim.pure _
  | RESUME_OK => exact Sim.bind (sim_eatU63.bind fun _ => Sim.pure _) fun _ => Sim.pure _
  | EXT => exact Sim.panic _

end Binate
