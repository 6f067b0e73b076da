import Verif.Model.BufList
import Verif.Spec.WellFormed

/-! # What a `bytes::Buf` is supposed to do

The contract in the documentation of the trait: a value stands for a sequence of bytes. -/

namespace Binate.Spec

/-- The contract of `remaining`, `chunk` and `advance` for values that satisfy `Valid`. -/
class LawfulCore (β : Type) [BufCore β] where
  /-- values the contract is about -/
  Valid : β → Prop
  /-- the bytes still to be read -/
  bytes : β → Bytes
  remaining_eq : ∀ {b}, Valid b → BufCore.remaining b = (bytes b).length
  chunk_prefix : ∀ {b}, Valid b → BufCore.chunk b <+: bytes b
  chunk_ne : ∀ {b}, Valid b → bytes b ≠ [] → BufCore.chunk b ≠ []
  advance_ok : ∀ {b n}, Valid b → n ≤ (bytes b).length →
    ∃ b', BufCore.advance b n = .ok b' ∧ Valid b' ∧ bytes b' = (bytes b).drop n
  advance_over : ∀ {b n}, Valid b → (bytes b).length < n → ∃ m, BufCore.advance b n = .panic m

/-- The contract of `copy_to_bytes` in addition. -/
class LawfulBuf (β : Type) [Buf β] extends LawfulCore β where
  copy_ok : ∀ {b n}, Valid b → n ≤ (bytes b).length →
    ∃ b', Buf.copyToBytes b n = .ok ((bytes b).take n, b') ∧ Valid b' ∧ bytes b' = (bytes b).drop n
  copy_over : ∀ {b n}, Valid b → (bytes b).length < n → ∃ m, Buf.copyToBytes b n = .panic m

export LawfulCore (Valid bytes)

/-- What one would like `chunks_vectored` to do: fill slots with consecutive pieces from the front,
and expose everything unless every slot is filled. The documentation does not ask for the latter. -/
class LawfulVectored (β : Type) [Buf β] [LawfulBuf β] : Prop where
  vectored : ∀ {b : β} n, Valid b → ∃ vs, Buf.chunksVectored b n = .ok vs ∧ vs.length ≤ n ∧
    vs.flatten <+: bytes b ∧ (vs.length < n → vs.flatten = bytes b)

/-- The bytes of several buffers, one after the other. -/
def concat {T : Type} [BufCore T] [LawfulCore T] (bufs : List T) : Bytes := bufs.flatMap bytes

/-- Some buffer at or before the byte number `n` is empty. -/
def EmptyBefore {T : Type} [BufCore T] [LawfulCore T] (bufs : List T) (n : Nat) : Prop :=
  ∃ k b, bufs[k]? = some b ∧ bytes b = [] ∧ (concat (bufs.take k)).length < n

/-- Two decoder results agree: same outcome, same value or error, and the same bytes left. -/
def SameDecode {β α : Type} [BufCore β] [LawfulCore β] : Res β α → Res Bytes α → Prop
  | .ok a s, .ok a' s' => a = a' ∧ bytes s = s'
  | .err e s, .err e' s' => e = e' ∧ bytes s = s'
  | .panic m, .panic m' => m = m'
  | _, _ => False

/-- The operations on a list of buffers. -/
inductive Op (T : Type) where
  | push (b : T)
  | advance (n : Nat)
  | copy (n : Nat)

/-- Running operations on a `BufList`: what the copies returned, and the list afterwards. -/
def runList {T : Type} [Buf T] (dbg : Bool) :
    List (Op T) → BufList T → List Bytes → Outcome (List Bytes × BufList T)
  | [], l, out => .ok (out, l)
  | .push b :: ops, l, out =>
    match l.push dbg b with
    | .ok l' => runList dbg ops l' out
    | .panic m => .panic m
    | .diverge => .diverge
  | .advance n :: ops, l, out =>
    match BufCore.advance l n with
    | .ok l' => runList dbg ops l' out
    | .panic m => .panic m
    | .diverge => .diverge
  | .copy n :: ops, l, out =>
    match Buf.copyToBytes l n with
    | .ok (bs, l') => runList dbg ops l' (out ++ [bs])
    | .panic m => .panic m
    | .diverge => .diverge

/-- The same on one byte sequence: `none` is a read past the end. -/
def runBytes {T : Type} [Buf T] [LawfulBuf T] :
    List (Op T) → Bytes → List Bytes → Option (List Bytes × Bytes)
  | [], s, out => some (out, s)
  | .push b :: ops, s, out => runBytes ops (s ++ bytes b) out
  | .advance n :: ops, s, out => if n ≤ s.length then runBytes ops (s.drop n) out else none
  | .copy n :: ops, s, out =>
    if n ≤ s.length then runBytes ops (s.drop n) (out ++ [s.take n]) else none

/-- What is left of pieces of bytes after the first `n` bytes: pieces used up are gone. -/
def leftOver : List Bytes → Nat → List Bytes
  | [], _ => []
  | s :: rest, n => if s.length ≤ n then leftOver rest (n - s.length) else s.drop n :: rest

/-- The pieces pushed, in order. -/
def pushed {T : Type} [Buf T] [LawfulBuf T] : List (Op T) → List Bytes
  | [] => []
  | .push b :: ops => bytes b :: pushed ops
  | .advance _ :: ops => pushed ops
  | .copy _ :: ops => pushed ops

/-- How many bytes were taken. -/
def taken {T : Type} : List (Op T) → Nat
  | [] => 0
  | .push _ :: ops => taken ops
  | .advance n :: ops => n + taken ops
  | .copy n :: ops => n + taken ops

/-! ## Reassembly -/

/-- The payload a frame carries, for the five kinds that take part in reassembly. -/
def carried : Frame → Payload
  | .requestResponse v => v.payload
  | .requestFnf v => v.payload
  | .requestStream v => v.payload
  | .requestChannel v => v.payload
  | .payload v => v.payload
  | _ => ⟨none, none⟩

/-- The frame in a byte string, if it decodes. -/
def frameOf (b : Bytes) : Option Frame :=
  match (Frame.decode : Dec Bytes Frame) b with
  | .ok f _ => some f
  | _ => none

/-- All metadata, all data. -/
def joined (fs : List Frame) : Payload :=
  normPayload ⟨some (fs.flatMap fun f => (carried f).metadata.getD []),
    some (fs.flatMap fun f => (carried f).data.getD [])⟩

end Binate.Spec
