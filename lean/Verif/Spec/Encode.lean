import Verif.Model.Encode
import Verif.Spec.Wire

/-! # What an implementation of `Encode` has to do -/

namespace Binate.Spec

/-- Whatever is in the buffer stays there and has no influence: the value appends the bytes that
`to_bytes` gives, or it panics where `to_bytes` panics. -/
def AppendsOnly (α : Type) [Encode α] : Prop :=
  ∀ (v : α) (buf : Bytes),
    (∃ b, Encode.toBytes v = .ok b ∧ Encode.encode v buf = .ok (buf ++ b)) ∨
    (∃ m, Encode.toBytes v = .panic m ∧ Encode.encode v buf = .panic m)

/-- A frame type does by itself what it does as a `Frame`, and no value of it is empty. -/
def LikeFrame {α : Type} [Encode α] (frame : α → Frame) : Prop :=
  ∀ v : α, Encode.toBytes v = (frame v).toBytes ∧ Encode.len v = (frame v).len ∧
    Encode.isEmpty v = false

/-- Always these bytes, and `len` and `is_empty` are right about them. -/
def Writes {α : Type} [Encode α] (v : α) (b : Bytes) : Prop :=
  Encode.toBytes v = .ok b ∧ Encode.len v = b.length ∧ (Encode.isEmpty v = true ↔ b = [])

end Binate.Spec
