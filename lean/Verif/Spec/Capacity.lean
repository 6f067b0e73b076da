import Verif.Model.Capacity

/-! # What `to_bytes` promises about its buffer -/

namespace Binate.Spec

/-- In whatever pieces the encoder writes, the buffer never has to grow. -/
def NeverGrows (α : Type) [Encode α] : Prop :=
  ∀ (v : α) (pieces : List Bytes), Encode.toBytes v = .ok pieces.flatten →
    (Encode.written v pieces).allocated = (BytesMut.withCapacity (Encode.len v)).allocated ∧
    (Encode.written v pieces).capacity = Encode.len v ∧
    (Encode.written v pieces).bytes = pieces.flatten

/-- There is one allocation, or none if there is nothing to write, and it is filled completely. -/
def Fills {α : Type} [Encode α] (v : α) : Prop :=
  ∀ pieces : List Bytes, Encode.toBytes v = .ok pieces.flatten →
    (Encode.written v pieces).allocations = (if pieces.flatten = [] then 0 else 1) ∧
    (Encode.written v pieces).bytes.length = Encode.len v

/-- There are two allocations, and the first one had room for two more bytes. -/
def LeavesTwo {α : Type} [Encode α] (v : α) : Prop :=
  ∀ pieces : List Bytes, Encode.toBytes v = .ok pieces.flatten →
    (Encode.written v pieces).allocations = 2 ∧
    (Encode.written v pieces).bytes.length + 2 = Encode.len v

end Binate.Spec
