import Verif.Model.Flags

/-! # U24, Version and Payload -/

namespace Binate

/-- binate/src/frame/u24.rs:7 `U24(u8, u16)`. -/
structure U24 where
  hi : U8
  lo : U16
deriving DecidableEq, Repr

namespace U24

/-- u24.rs:11 `U24::MAX = u32::MAX >> 8`. -/
def MAX : U32 := 0xFFFFFFFF#32 >>> 8

/-- u24.rs:14 -/
def MIN : U32 := 0#32

/-- u24.rs:17-19 -/
def new (h : U8) (l : U16) : U24 := ⟨h, l⟩

/-- u24.rs:26-29 `from_u32`: asserts, then `(val >> 16) as u8, val as u16`. -/
def fromU32 (val : U32) : Outcome U24 := do
  Outcome.assert (val ≤ MAX) "assertion failed: val <= U24::MAX"
  .ok ⟨(val >>> 16).setWidth 8, val.setWidth 16⟩

/-- u24.rs:36-39 `from_usize`: asserts, then casts to `u32` and splits. The `usize` argument is
a natural number. -/
def fromUsize (val : Nat) : Outcome U24 := do
  Outcome.assert (val ≤ MAX.toNat) "assertion failed: val <= U24::MAX as usize"
  .ok ⟨((BitVec.ofNat 32 val) >>> 16).setWidth 8, (BitVec.ofNat 32 val).setWidth 16⟩

/-- u24.rs:42-44 `into_u32`. -/
def intoU32 (u : U24) : U32 := ((u.hi.setWidth 32) <<< 16) ||| u.lo.setWidth 32

/-- u24.rs:47-49 `into_usize` (64-bit `usize`). -/
def intoUsize (u : U24) : Nat := (((u.hi.setWidth 64) <<< 16) ||| (u.lo.setWidth 64 : U64)).toNat

/-- u24.rs:57-60 `encode`. -/
def encode (u : U24) (buf : Bytes) : Bytes := putU16 (putU8 buf u.hi) u.lo

/-- u24.rs:53-55 `len`. -/
def len (_ : U24) : Nat := 3

end U24

/-- binate/src/frame/version.rs:8-11 `Version`. -/
structure Version where
  major : U16
  minor : U16
deriving DecidableEq, Repr

namespace Version

/-- version.rs:15-17 -/
def new (major minor : U16) : Version := ⟨major, minor⟩

/-- version.rs:31-34 `encode`. -/
def encode (v : Version) (buf : Bytes) : Bytes := putU16 (putU16 buf v.major) v.minor

/-- version.rs:36-38 `len`. -/
def len (_ : Version) : Nat := 4

/-- `u16::cmp`. Used at version.rs:43-47. -/
def cmpU16 (a b : U16) : Ordering := compare a.toNat b.toNat

/-- version.rs:42-48 `Ord::cmp`: compare majors, if not equal return that, else minors. -/
def cmp (a b : Version) : Ordering :=
  let cmpMajor := cmpU16 a.major b.major
  if cmpMajor ≠ Ordering.eq then cmpMajor else cmpU16 a.minor b.minor

/-- version.rs:52-54 `partial_cmp`. -/
def partialCmp (a b : Version) : Option Ordering := some (cmp a b)

/-- version.rs:58-60 `Display`: `"{}.{}"`. -/
def display (v : Version) : String := toString v.major.toNat ++ "." ++ toString v.minor.toNat

/-- version.rs:64-66 `Default`. -/
def default : Version := new 1#16 0#16

end Version

/-- binate/src/payload.rs:28-31 `Payload`. -/
structure Payload where
  metadata : Option Bytes
  data : Option Bytes
deriving DecidableEq, Repr

namespace Payload

/-- payload.rs:35-37 `Payload::new`. -/
def new (metadata data : Option Bytes) : Payload := ⟨metadata, data⟩

/-- `#[derive(Default)]` at payload.rs:27. -/
def default : Payload := ⟨none, none⟩

/-- payload.rs:45-54 (and the identical `Encode::len` at 177-186). -/
def len (p : Payload) : Nat :=
  let len := 0
  let len := match p.metadata with
    | some m => len + m.length
    | none => len
  match p.data with
    | some d => len + d.length
    | none => len

/-- payload.rs:57-59 -/
def isEmpty (p : Payload) : Bool := p.len == 0

/-- payload.rs:90-92 -/
def hasData (p : Payload) : Bool := p.data.isSome

/-- payload.rs:95-97 -/
def hasMetadata (p : Payload) : Bool := p.metadata.isSome

/-- payload.rs:100-102 `split`. -/
def split (p : Payload) : Option Bytes × Option Bytes := (p.metadata, p.data)

/-- payload.rs:167-175 `Encode::encode`: metadata first, then data. -/
def encode (p : Payload) (buf : Bytes) : Bytes :=
  let buf := match p.metadata with
    | some m => putSlice buf m
    | none => buf
  match p.data with
    | some d => putSlice buf d
    | none => buf

/-- The expression `payload.metadata().map(|v| v.len()).unwrap_or_default()` used by all
payload-carrying codecs. For example request_fnf.rs:79. -/
def metadataLen (p : Payload) : Nat := (p.metadata.map List.length).getD 0

end Payload

/-- payload.rs:131-164 `PayloadBuilder`, as the sequence of calls made on it. `set_data` and
`set_metadata` take `Into<Bytes>`; the conversion is not modelled. -/
inductive PayloadBuilderCall where
  | setData (d : Bytes)
  | setMetadata (m : Bytes)
deriving DecidableEq, Repr

/-- payload.rs:143-158: one builder call. -/
def PayloadBuilderCall.apply (p : Payload) : PayloadBuilderCall → Payload
  | .setData d => { p with data := some d }
  | .setMetadata m => { p with metadata := some m }

/-- payload.rs:137-163: `PayloadBuilder::new()`, the calls in order, then `build()`. -/
def PayloadBuilder.build (calls : List PayloadBuilderCall) : Payload :=
  calls.foldl PayloadBuilderCall.apply Payload.default

end Binate
