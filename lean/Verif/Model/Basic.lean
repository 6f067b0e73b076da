/-!
# Basic vocabulary of the model

Rust integers are bit vectors, byte buffers are lists of bytes, `Result` stays data and a panic
or a non-terminating loop is an explicit outcome.
-/

namespace Binate

/-- Rust `u8`. As in u24.rs:7. -/
abbrev U8 := BitVec 8
/-- Rust `u16`. As in u24.rs:7. -/
abbrev U16 := BitVec 16
/-- Rust `u32`. As in cancel.rs:21. -/
abbrev U32 := BitVec 32
/-- Rust `u64`. As in keepalive.rs:27. -/
abbrev U64 := BitVec 64
/-- `bytes::Bytes` / `bytes::BytesMut` / `&[u8]`: the bytes they hold. Sharing, reference counts
and capacities are not modelled. As in payload.rs:28-31, encode.rs:20-24. -/
abbrev Bytes := List U8

/-- Outcome of a Rust computation that has no `Err` case: it returns, panics or never returns. Panics:
payload.rs:114, codec/mod.rs:5-21; no return: mimetype.rs:120-128. -/
inductive Outcome (α : Type) where
  | ok (a : α)
  | panic (msg : String)
  | diverge
deriving DecidableEq, Repr

namespace Outcome

/-- Sequencing: a panic or divergence ends the computation. Used wherever a function of the crate runs
one statement after another, as in lease.rs:43-50. -/
protected def bind {α β : Type} : Outcome α → (α → Outcome β) → Outcome β
  | .ok a, f => f a
  | .panic m, _ => .panic m
  | .diverge, _ => .diverge

/-- Statements in order, as in lease.rs:43-50. -/
instance : Monad Outcome where
  pure := .ok
  bind := Outcome.bind

/-- Rust `assert!(c, msg)`. As in payload.rs:114, setup.rs:298, 320, 341. -/
def assert (c : Bool) (msg : String) : Outcome Unit :=
  if c then .ok () else .panic msg

/-- Rust `debug_assert!(c, msg)`: only checked when the build profile `dbg` has debug
assertions enabled. As in codec/mod.rs:5-21, buf.rs:23. -/
def debugAssert (dbg : Bool) (c : Bool) (msg : String) : Outcome Unit :=
  if dbg && !c then .panic msg else .ok ()

end Outcome

/-- binate/src/frame/decode.rs:19-34 `DecodeError`. -/
inductive DecodeError where
  | inComplete
  | unrecognizedFrameType (v : U16)
  | invalidStreamId (expected : String) (found : U32)
deriving DecidableEq, Repr

/-- Outcome of a decoder running on a mutable buffer of type `σ`: on `Ok` and on `Err` the caller
still owns the (partially consumed) buffer. As in decode.rs:8-17, frame/mod.rs:107-177. -/
inductive Res (σ α : Type) where
  | ok (a : α) (s : σ)
  | err (e : DecodeError) (s : σ)
  | panic (msg : String)
  | diverge
deriving DecidableEq, Repr

/-- A Rust function `fn(&mut σ) -> Result<α, DecodeError>`. As in visit.rs:14-99. -/
def Dec (σ α : Type) := σ → Res σ α

namespace Dec

/-- The `?`-sequencing of decoders. As in visit.rs:55-59. -/
protected def bind {σ α β : Type} (d : Dec σ α) (f : α → Dec σ β) : Dec σ β := fun s =>
  match d s with
  | .ok a s' => f a s'
  | .err e s' => .err e s'
  | .panic m => .panic m
  | .diverge => .diverge

/-- `Ok(a)`. As in visit.rs:18. -/
protected def pure {σ α : Type} (a : α) : Dec σ α := fun s => .ok a s

/-- Statements in order with `?`, as in visit.rs:55-59. -/
instance {σ : Type} : Monad (Dec σ) where
  pure := Dec.pure
  bind := Dec.bind

/-- `return Err(e)`. As in visit.rs:9, 28. -/
def fail {σ α : Type} (e : DecodeError) : Dec σ α := fun s => .err e s

/-- A panic inside a decoder. As in frame/mod.rs:174. -/
def panic {σ α : Type} (m : String) : Dec σ α := fun _ => .panic m

/-- Lift a buffer method that cannot return `Err`. As in visit.rs:17. -/
def lift {σ α : Type} (f : σ → Outcome (α × σ)) : Dec σ α := fun s =>
  match f s with
  | .ok (a, s') => .ok a s'
  | .panic m => .panic m
  | .diverge => .diverge

end Dec

/-- `BufMut::put_u8` (bytes 1.0.1): append one byte. Used at request_fnf.rs:81. -/
def putU8 (buf : Bytes) (x : U8) : Bytes := buf ++ [x]

/-- `BufMut::put_u16` (bytes 1.0.1): append the two big-endian bytes of `x`. Used at
request_fnf.rs:77. -/
def putU16 (buf : Bytes) (x : U16) : Bytes :=
  buf ++ [x.extractLsb' 8 8, x.extractLsb' 0 8]

/-- `BufMut::put_u32` (bytes 1.0.1): append the four big-endian bytes of `x`. Used at
request_fnf.rs:76. -/
def putU32 (buf : Bytes) (x : U32) : Bytes :=
  buf ++ [x.extractLsb' 24 8, x.extractLsb' 16 8, x.extractLsb' 8 8, x.extractLsb' 0 8]

/-- `BufMut::put_u64` (bytes 1.0.1): append the eight big-endian bytes of `x`. Used at
keepalive.rs:78. -/
def putU64 (buf : Bytes) (x : U64) : Bytes :=
  buf ++ [x.extractLsb' 56 8, x.extractLsb' 48 8, x.extractLsb' 40 8, x.extractLsb' 32 8,
          x.extractLsb' 24 8, x.extractLsb' 16 8, x.extractLsb' 8 8, x.extractLsb' 0 8]

/-- `BufMut::put_slice` (bytes 1.0.1). Used at metadata_push.rs:50. -/
def putSlice (buf : Bytes) (s : Bytes) : Bytes := buf ++ s

/-- binate/src/frame/mod.rs:24 `MAX_U31`. -/
def MAX_U31 : U32 := 0x7FFFFFFF#32

/-- binate/src/frame/mod.rs:27 `MAX_U63`. -/
def MAX_U63 : U64 := 0x7FFFFFFFFFFFFFFF#64

end Binate
