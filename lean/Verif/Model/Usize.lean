import Verif.Model.BufList

/-! # Lengths in machine arithmetic

The other modules compute lengths with natural numbers. The code adds `usize` values (64 bits): a sum
that does not fit panics in a build with overflow checks (`dbg`) and wraps in one without. Here are
the same functions with this addition. -/

namespace Binate

/-- `a + b` on `usize`. As in metadata_push.rs:57, payload.rs:48, 51, setup.rs:175, 182, 186. -/
def addUsize (dbg : Bool) (a b : Nat) : Outcome Nat :=
  if a + b < 2 ^ 64 then .ok (a + b)
  else if dbg then .panic "attempt to add with overflow"
  else .ok ((a + b) % 2 ^ 64)

/-- `if let Some(b) = o { len += b.len() }`. As in payload.rs:47-52, setup.rs:174-176, lease.rs:91-93,
keepalive.rs:91-93, codec/error.rs:162-164. -/
def addOpt (dbg : Bool) (len : Nat) : Option Bytes → Outcome Nat
  | some b => addUsize dbg len b.length
  | none => .ok len

/-- payload.rs:45-54 (and the identical `Encode::len` at 177-186), in `usize`. -/
def Payload.lenUsize (dbg : Bool) (p : Payload) : Outcome Nat := do
  let len ← addOpt dbg 0 p.metadata
  addOpt dbg len p.data

/-- setup.rs:164-189 `len`, in `usize`. -/
def SetupFrame.lenUsize (dbg : Bool) (f : SetupFrame) : Outcome Nat := do
  let len ← addOpt dbg 20 f.resumeToken
  let mime ← addUsize dbg 1 f.metadataMimetype.length
  let mime ← addUsize dbg mime 1
  let mime ← addUsize dbg mime f.dataMimetype.length
  let len ← addUsize dbg len mime
  let payload ← f.payload.lenUsize dbg
  let payload ← addUsize dbg 3 payload
  addUsize dbg len payload

/-- `n + self.payload.len()`. As in request_response.rs:91, request_fnf.rs:91, request_stream.rs:109,
request_channel.rs:120, codec/payload.rs:107. -/
def payloadLenUsize (dbg : Bool) (n : Nat) (p : Payload) : Outcome Nat := do
  let payload ← p.lenUsize dbg
  addUsize dbg n payload

/-- resume.rs:101-110 `len`, in `usize`. -/
def ResumeFrame.lenUsize (dbg : Bool) (f : ResumeFrame) : Outcome Nat := do
  let len ← addUsize dbg 12 f.resumeToken.length
  addUsize dbg len 16

/-- frame/mod.rs:85-102 `Encode::len` and the `len` of the fourteen frame types (lease.rs:83-95,
keepalive.rs:84-95, request_response.rs:86-92, request_fnf.rs:86-92, request_stream.rs:103-110,
request_channel.rs:114-121, request_n.rs:62-67, cancel.rs:49-53, codec/payload.rs:102-108,
codec/error.rs:155-167, metadata_push.rs:53-58, resume_ok.rs:55-60), in `usize`. -/
def Frame.lenUsize (dbg : Bool) : Frame → Outcome Nat
  | .setup v => v.lenUsize dbg
  | .error v => addOpt dbg 10 v.data
  | .lease v => addOpt dbg 14 v.metadata
  | .keepalive v => addOpt dbg 14 v.data
  | .requestResponse v => payloadLenUsize dbg 9 v.payload
  | .requestFnf v => payloadLenUsize dbg 9 v.payload
  | .requestStream v => payloadLenUsize dbg 13 v.payload
  | .requestChannel v => payloadLenUsize dbg 13 v.payload
  | .requestN _ => .ok 10
  | .cancel _ => .ok 6
  | .payload v => payloadLenUsize dbg 9 v.payload
  | .metadataPush v => addUsize dbg 6 v.metadata.length
  | .resume v => v.lenUsize dbg
  | .resumeOk _ => .ok 14

namespace BufList

variable {T : Type} [Buf T]

/-- `Iterator::sum` of `usize` values (core), which checks for overflow if the caller does. Used at
buf.rs:67. -/
def sumUsize (dbg : Bool) : List Nat → Nat → Outcome Nat
  | [], acc => .ok acc
  | n :: ns, acc => do
    let acc ← addUsize dbg acc n
    sumUsize dbg ns acc

/-- buf.rs:66-68 `remaining`, in `usize`. -/
def remainingUsize (dbg : Bool) (l : BufList T) : Outcome Nat :=
  sumUsize dbg (l.bufs.map BufCore.remaining) 0

end BufList

/-- A `BufList` in a build without overflow checks: `remaining` wraps. As `BufList` at buf.rs:12-14. -/
structure WrapList (T : Type) where
  list : BufList T
deriving DecidableEq, Repr

namespace WrapList

variable {T : Type} [Buf T]

/-- buf.rs:64-89 `impl Buf for BufList`, the required methods; `remaining` is `sum` on `usize` without
overflow checks. -/
instance : BufCore (WrapList T) where
  remaining l := l.list.remaining % 2 ^ 64
  chunk l := l.list.chunk
  advance l cnt := do
    let list ← l.list.advance cnt
    .ok ⟨list⟩

/-- buf.rs:118-126: the last arm of `copy_to_bytes`, which asks `remaining`. -/
def copySlow (l : WrapList T) (len : Nat) : Outcome (Bytes × WrapList T) := do
  Outcome.assert (len ≤ BufCore.remaining l) "`len` greater than remaining"
  BufCore.putTake len len l []

/-- buf.rs:108-128 `copy_to_bytes`. -/
def copyToBytes (l : WrapList T) (len : Nat) : Outcome (Bytes × WrapList T) :=
  match l.list.bufs with
  | front :: rest =>
    if BufCore.remaining front = len then do
      let (bytes, _) ← Buf.copyToBytes front len
      .ok (bytes, ⟨⟨rest⟩⟩)
    else if BufCore.remaining front > len then do
      let (bytes, front') ← Buf.copyToBytes front len
      .ok (bytes, ⟨⟨front' :: rest⟩⟩)
    else copySlow l len
  | [] => copySlow l len

/-- buf.rs:91-128 `impl Buf for BufList`, the provided methods that it overrides. -/
instance : Buf (WrapList T) where
  copyToBytes := copyToBytes
  chunksVectored l n := l.list.chunksVectored n

end WrapList

/-- frame/mod.rs:107-110 on a `BufList`: the first thing that `Frame::decode` does is to ask for
`remaining`, which panics if the sum is checked and does not fit. If it fits it goes on fitting,
because `decode` only takes bytes away; so the rest is `Frame.decode` either way. -/
def BufList.decodeUsize {T : Type} [Buf T] (dbg : Bool) (l : BufList T) : Res (WrapList T) Frame :=
  match l.remainingUsize dbg with
  | .ok _ => Frame.decode (⟨l⟩ : WrapList T)
  | .panic m => .panic m
  | .diverge => .diverge

end Binate
