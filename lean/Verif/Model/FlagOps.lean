import Verif.Model.Flags

/-! # The rest of what `bitflags!` generates for `Flags` (binate/src/frame/flags.rs:154-174)

bitflags 1.2.1: queries, operations in place, the derived order, `FromIterator` and `Extend`. -/

namespace Binate

namespace Flags

/-- bitflags `is_empty`. Generated at flags.rs:154-174. -/
def isEmpty (a : Flags) : Bool := a.bits == empty.bits

/-- bitflags `is_all`. Generated at flags.rs:154-174. -/
def isAll (a : Flags) : Bool := a.bits == all.bits

/-- bitflags `intersects`: `!Self{ bits: self.bits & other.bits }.is_empty()`. Generated at
flags.rs:154-174. -/
def intersects (a b : Flags) : Bool := !(isEmpty ⟨a.bits &&& b.bits⟩)

/-- bitflags `insert`: `self.bits |= other.bits`. Generated at flags.rs:154-174. -/
def insert (a b : Flags) : Flags := ⟨a.bits ||| b.bits⟩

/-- bitflags `remove`: `self.bits &= !other.bits`. Generated at flags.rs:154-174. -/
def remove (a b : Flags) : Flags := ⟨a.bits &&& ~~~ b.bits⟩

/-- bitflags `toggle`: `self.bits ^= other.bits`. Generated at flags.rs:154-174. -/
def toggle (a b : Flags) : Flags := ⟨a.bits ^^^ b.bits⟩

/-- bitflags `set`. Generated at flags.rs:154-174. -/
def set (a b : Flags) (value : Bool) : Flags := if value then a.insert b else a.remove b

/-- bitflags `Extend::extend`: insert one after the other. Generated at flags.rs:154-174. -/
def extend (a : Flags) (l : List Flags) : Flags := l.foldl insert a

/-- bitflags `FromIterator::from_iter`: `Self::empty()` extended. Generated at flags.rs:154-174. -/
def fromIter (l : List Flags) : Flags := extend empty l

/-- The derived `Ord::cmp` compares the bits as numbers. Generated at flags.rs:154-174. -/
def cmp (a b : Flags) : Ordering := compare a.bits.toNat b.bits.toNat

/-- The derived `Hash::hash` hands the bits to the hasher, whose `write_u16` is `write`. Generated at
flags.rs:154-174. -/
def hash {σ : Type} (write : U16 → σ → σ) (a : Flags) (hasher : σ) : σ := write a.bits hasher

/-- `u16`'s digits to base `radix`, as the standard library writes them for `{:b}`, `{:o}`, `{:x}` and
`{:X}`. Used at flags.rs:154-174. -/
def radixChars (radix : Nat) (upper : Bool) (w : U16) : List Char :=
  (Nat.toDigits radix w.toNat).map fun c => if upper then c.toUpper else c

/-- bitflags `fmt::Binary`, `fmt::Octal`, `fmt::LowerHex` and `fmt::UpperHex`: those of the bits.
Generated at flags.rs:154-174. -/
def binary (a : Flags) : List Char := radixChars 2 false a.bits
/-- see `binary`. Generated at flags.rs:154-174. -/
def octal (a : Flags) : List Char := radixChars 8 false a.bits
/-- see `binary`. Generated at flags.rs:154-174. -/
def lowerHex (a : Flags) : List Char := radixChars 16 false a.bits
/-- see `binary`. Generated at flags.rs:154-174. -/
def upperHex (a : Flags) : List Char := radixChars 16 true a.bits

/-- An operation on a variable of type `Flags`. Generated at flags.rs:154-174. -/
inductive Op where
  | insert (g : Flags)
  | remove (g : Flags)
  | toggle (g : Flags)
  | set (g : Flags) (value : Bool)
  | extend (l : List Flags)
  /-- `|=` -/
  | orAssign (g : Flags)
  /-- `&=` -/
  | andAssign (g : Flags)
  /-- `^=` -/
  | xorAssign (g : Flags)
  /-- `-=` -/
  | subAssign (g : Flags)
  /-- `x = !x` -/
  | complement

/-- What the operation makes of the variable. Generated at flags.rs:154-174. -/
def Op.apply (a : Flags) : Op → Flags
  | .insert g => a.insert g
  | .remove g => a.remove g
  | .toggle g => a.toggle g
  | .set g v => a.set g v
  | .extend l => a.extend l
  | .orAssign g => a.union g
  | .andAssign g => a.inter g
  | .xorAssign g => a.symmDiff g
  | .subAssign g => a.diff g
  | .complement => a.compl

end Flags

end Binate
