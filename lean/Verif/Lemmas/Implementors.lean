import Verif.Spec.Encode
import Verif.Lemmas.Encode

/-! # Lemmas on everything that implements `Encode` -/

namespace Binate

open Spec

theorem encode_no_diverge (f : Frame) : f.encode [] ≠ .diverge := by
  have key : ∀ (p : Payload) (x : Bytes), encodePayloadWithLen p x ≠ .diverge := by
    intro p x
    by_cases hm : (optBytes p.metadata).length < 2 ^ 24
    · rw [encodePayloadWithLen_ok hm]
      exact fun h => (nomatch h)
    · obtain ⟨m, h1⟩ := encodePayloadWithLen_panic (Nat.not_lt.1 hm) x
      rw [h1]
      exact fun h => (nomatch h)
  have no : ∀ b : Bytes, Outcome.ok b ≠ .diverge := fun b h => (nomatch h)
  cases f with
  | setup v => exact key _ _
  | requestResponse v => exact key _ _
  | requestFnf v => exact key _ _
  | requestStream v => exact key _ _
  | requestChannel v => exact key _ _
  | payload v => exact key _ _
  | error v => exact no _
  | lease v => exact no _
  | keepalive v => exact no _
  | requestN v => exact no _
  | cancel v => exact no _
  | metadataPush v => exact no _
  | resume v => exact no _
  | resumeOk v => exact no _

theorem version_encode_eq (v : Version) (buf : Bytes) :
    v.encode buf = buf ++ (be 2 v.major.toNat ++ be 2 v.minor.toNat) := by
  rw [Version.encode, putU16_eq, putU16_eq, List.append_assoc]

theorem payload_appends (p : Payload) (buf : Bytes) :
    p.encode buf = buf ++ (p.metadata.getD [] ++ p.data.getD []) := by
  obtain ⟨m, d⟩ := p
  cases m <;> cases d <;> simp [Payload.encode, putSlice]

end Binate
