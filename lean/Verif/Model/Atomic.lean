import Verif.Model.Counter
import Verif.Model.StreamId

/-! # Executions under the memory model

`RequestCounter` and `StreamIdProvider` are one `AtomicI32` each. Elsewhere an execution is a
sequence of atomic steps. Here it is what the Rust memory model (that of C++20) says: a graph of
events with a reads-from relation, a modification order and a happens-before relation, with no
global order of steps. The memory orderings (`SeqCst` in counter.rs, `Relaxed` in stream_id.rs:32)
only contribute edges to happens-before, so nothing is assumed about which edges there are. -/

namespace Binate

namespace Atomic

/-- What one operation does to the `AtomicI32`. Used at counter.rs:11-33 and stream_id.rs:32. -/
inductive Access where
  | load
  | fetchAdd (n : U32)
  | fetchSub (n : U32)
deriving DecidableEq, Repr

/-- The operation modifies the location. Used at counter.rs:11-33 and stream_id.rs:32. -/
def Access.modifies : Access → Bool
  | .load => false
  | _ => true

/-- The value after the operation, if `v` was there before; wraps. Used at counter.rs:17, 27 and
stream_id.rs:32. -/
def Access.apply (v : U32) : Access → U32
  | .load => v
  | .fetchAdd n => v + n
  | .fetchSub n => v - n

/-- An execution as far as one atomic location is concerned. `ι` are the events of the whole
program; `access e = none` for an event that does not touch the location. The location is the field at
counter.rs:7 or stream_id.rs:13. -/
structure Graph (ι : Type) where
  /-- all events -/
  events : List ι
  access : ι → Option Access
  /-- the value that the event finds in the location -/
  read : ι → U32
  /-- the event that wrote this value, `none` for the initialisation -/
  rf : ι → Option ι
  /-- the modification order of the location, without the initialisation -/
  mo : List ι
  /-- happens-before, on all events -/
  hb : ι → ι → Prop

namespace Graph

variable {ι : Type}

/-- The event modifies the location. See counter.rs:17, 27 and stream_id.rs:32. -/
def Modifies (g : Graph ι) (e : ι) : Prop := ∃ a, g.access e = some a ∧ a.modifies = true

/-- The event reads the location: all three operations do. See counter.rs:17, 22, 27, 32 and
stream_id.rs:32. -/
def Reads (g : Graph ι) (e : ι) : Prop := ∃ a, g.access e = some a

/-- Order of two modifications; the initialisation is the first one. The initialisation is at
counter.rs:12, stream_id.rs:18 and 24. -/
def Before (g : Graph ι) (x y : Option ι) : Prop :=
  ∃ i j : Nat, i < j ∧ (none :: g.mo.map some)[i]? = some x ∧ (none :: g.mo.map some)[j]? = some y

/-- The value that a modification leaves. See counter.rs:17, 27 and stream_id.rs:32. -/
def written (g : Graph ι) (init : U32) : Option ι → U32
  | none => init
  | some w => match g.access w with
    | some a => a.apply (g.read w)
    | none => g.read w

/-- The executions that the memory model allows (C++20 [intro.races] and [atomics.order]). The
orderings of the code are at counter.rs:17-32 (SeqCst) and stream_id.rs:32 (Relaxed). -/
structure Consistent (g : Graph ι) (init : U32) : Prop where
  nodup : g.events.Nodup
  complete : ∀ e, e ∈ g.events
  /-- happens-before is a strict partial order -/
  hb_irrefl : ∀ a, ¬ g.hb a a
  hb_trans : ∀ a b c, g.hb a b → g.hb b c → g.hb a c
  /-- the modification order orders all modifications -/
  mo_nodup : g.mo.Nodup
  mo_mem : ∀ e, e ∈ g.mo ↔ g.Modifies e
  /-- every value read was written by the event that `rf` says -/
  rf_mem : ∀ e w, g.Reads e → g.rf e = some w → w ∈ g.mo
  value : ∀ e, g.Reads e → g.read e = g.written init (g.rf e)
  /-- a read-modify-write reads the modification just before its own -/
  atomic : ∀ (k : Nat) (e : ι), g.mo[k]? = some e → (none :: g.mo.map some)[k]? = some (g.rf e)
  /-- write-write coherence -/
  coWW : ∀ a b, g.hb a b → g.Modifies a → g.Modifies b → g.Before (some a) (some b)
  /-- read-write coherence -/
  coRW : ∀ a b, g.hb a b → g.Reads a → g.Modifies b → g.Before (g.rf a) (some b)
  /-- write-read coherence -/
  coWR : ∀ a b, g.hb a b → g.Modifies a → g.Reads b →
    g.rf b = some a ∨ g.Before (some a) (g.rf b)
  /-- read-read coherence -/
  coRR : ∀ a b, g.hb a b → g.Reads a → g.Reads b → g.rf b = g.rf a ∨ g.Before (g.rf a) (g.rf b)

end Graph

end Atomic

namespace RequestCounter

open Atomic

/-- What the methods of `RequestCounter` do to its `AtomicI32`: counter.rs:16-18, 21-23, 26-28,
31-33. -/
def Op.access : Op → Access
  | .dec => .fetchSub 1#32
  | .add n => .fetchAdd n
  | .load => .load
  | .isZero => .load

/-- What they make of the value that was read (the same lines). That is counter.rs:16-33. -/
def Op.result (v : U32) : Op → Ret
  | .dec => .int v.toInt
  | .add _ => .unit
  | .load => .int v.toInt
  | .isZero => .bool (v == 0#32)

/-- An execution of calls on one counter: event `e` is the call `op e`. The calls are those of
counter.rs:16-33. -/
structure Execution (ι : Type) extends Graph ι where
  op : ι → Op
  access_eq : ∀ e, access e = some (op e).access

end RequestCounter

namespace StreamIdProvider

open Atomic

/-- What happens to a provider and its store. `draw` and `check` are done by thread `t` inside
`next_stream_id`; keys are inserted and removed by anyone. `draw` is stream_id.rs:32-33, `check` is
stream_id.rs:35. -/
inductive Event where
  /-- stream_id.rs:32-33; `sid` is the masked value -/
  | draw (t : Nat) (sid : U32)
  /-- stream_id.rs:35; `found` is the answer of `contains_key` -/
  | check (t : Nat) (sid : U32) (found : Bool)
  | insert (key : U32)
  | remove (key : U32)
deriving DecidableEq, Repr

/-- The thread that runs `next_stream_id`. See stream_id.rs:29. -/
def Event.thread : Event → Option Nat
  | .draw t _ => some t
  | .check t _ _ => some t
  | _ => none

/-- The key whose presence the event changes. The store is the argument at stream_id.rs:29. -/
def Event.changes : Event → Option U32
  | .insert k => some k
  | .remove k => some k
  | _ => none

/-- stream_id.rs:29-40 as one thread runs it, call after call: from where it is, what it does next
depends on the answers it gets. The execution may stop anywhere. -/
def Follows : PC → List Event → Prop
  | _, [] => True
  | .checking sid, .check _ sid' found :: rest =>
    sid' = sid ∧ Follows (if found then .probing else .idle) rest
  | .idle, .draw _ sid :: rest => Follows (.checking sid) rest
  | .probing, .draw _ sid :: rest => Follows (.checking sid) rest
  | _, _ => False

/-- An execution of any number of threads calling `next_stream_id` on one provider while keys are
inserted and removed. The map is a `DashMap`: a change of a key is done under an exclusive lock and a
look-up under a shared one, so a change is ordered by happens-before with all other operations on
its key, and a look-up finds what the last change before it left. The calls are those of
stream_id.rs:29-40. -/
structure Execution (ι : Type) extends Graph ι where
  event : ι → Event
  /-- the keys before the first event -/
  store : Store
  access_eq : ∀ e, access e = match event e with
    | .draw _ _ => some (.fetchAdd 2#32)
    | _ => none
  draw_eq : ∀ e t sid, event e = .draw t sid → sid = read e &&& STREAM_ID_MASK
  /-- what a thread does, in program order -/
  program : Nat → List ι
  program_mem : ∀ t e, e ∈ program t ↔ (event e).thread = some t
  program_hb : ∀ t, (program t).Pairwise hb
  program_follows : ∀ t, Follows .idle ((program t).map event)
  /-- two operations on one key, one of which changes it -/
  locked : ∀ a b k, a ≠ b → (event a).changes = some k →
    ((event b).changes = some k ∨ ∃ t found, event b = .check t k found) → hb a b ∨ hb b a
  /-- the answer of `contains_key` after the last change `m` of the key -/
  found_last : ∀ c t k found m, event c = .check t k found → (event m).changes = some k → hb m c →
    (∀ m', (event m').changes = some k → hb m' c → m' = m ∨ hb m' m) →
    (found = true ↔ event m = .insert k)
  /-- its answer if the key was not changed -/
  found_first : ∀ c t k found, event c = .check t k found →
    (∀ m, (event m).changes = some k → ¬ hb m c) → found = store k

end StreamIdProvider

end Binate
