import Verif.Spec.Text
import Verif.Spec.Builder
import Verif.Spec.Api
import Verif.Model.Chunks

/-! # Texts of versions and errors, MIME types over the wire, documented value constraints -/

namespace Binate.Spec

/-- The bytes of a string (`Bytes::from(String)`). -/
def strBytes (s : String) : Bytes := (utf8 s).map (BitVec.ofNat 8)

/-- A decimal numeral without superfluous zeros. -/
def Numeral (ds : List Char) (n : Nat) : Prop :=
  ds ≠ [] ∧ readNumber 10 ds 0 = some n ∧ (ds.head? = some '0' → ds = ['0'])

/-- `SOME_NAME` in the style `SomeName`; the flag says that the next letter is a capital. -/
def camel : Bool → List Char → List Char
  | _, [] => []
  | up, c :: cs => if c = '_' then camel true cs else (if up then c else c.toLower) :: camel false cs

/-- Names of the kinds of errors: for protocol errors the protocol's name of the code. -/
def kindName (k : Kind) : List Char :=
  match protocolCode k, k with
  | some (name, _), _ => camel true name.toList
  | none, .io => "Io".toList
  | none, _ => "Decode".toList

/-- The numbers that the documentation requires to be positive (request_n.rs:34-35,
request_stream.rs:38, request_channel.rs:40, setup.rs:271, setup.rs:285). -/
def mustBePositive : Frame → List Nat
  | .requestN f => [f.requestN.toNat]
  | .requestStream f => [f.initialRequestN.toNat]
  | .requestChannel f => [f.initialRequestN.toNat]
  | .setup f => [f.keepaliveInterval.toNat, f.keepaliveTimeout.toNat]
  | _ => []

/-- The documented constraints on values: positive numbers, and a PAYLOAD frame has COMPLETE
(bit 5) or NEXT (bit 4) (payload.rs:40). -/
def Documented (f : Frame) : Prop :=
  (∀ n ∈ mustBePositive f, 0 < n) ∧
    ∀ p, f = .payload p → p.flags.bits.toNat.testBit 5 = true ∨ p.flags.bits.toNat.testBit 4 = true

/-- The number of items that a fresh iterator yields. -/
def Yields (c : PayloadChunks) (n : Nat) : Prop := ∃ fuel l, c.collect fuel = some l ∧ l.length = n

/-- The contract of `size_hint` for an iterator that yields `n` items. -/
def HintOk (hint : Nat × Option Nat) (n : Nat) : Prop :=
  hint.1 ≤ n ∧ ∀ u, hint.2 = some u → n ≤ u

/-- The contract for an `ExactSizeIterator`: both bounds are the exact number. -/
def HintExact (hint : Nat × Option Nat) (n : Nat) : Prop := hint = (n, some n)

end Binate.Spec
