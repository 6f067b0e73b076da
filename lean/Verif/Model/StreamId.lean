import Verif.Model.Basic

/-! # `StreamIdProvider` (binate/src/connection/stream_id.rs) -/

namespace Binate

/-- stream_id.rs:13 `StreamIdProvider(AtomicI32)`: the current word. -/
structure StreamIdProvider where
  word : U32
deriving DecidableEq, Repr

/-- A `DashMap<u32, T>` as far as this code looks at it: which keys are present. The argument at
stream_id.rs:29. -/
abbrev Store := U32 → Bool

namespace StreamIdProvider

/-- stream_id.rs:9 `STREAM_ID_MASK`. -/
def STREAM_ID_MASK : U32 := 0x7FFFFFFF#32

/-- stream_id.rs:17-20 -/
def newForClient : StreamIdProvider := ⟨1#32⟩

/-- stream_id.rs:23-26 -/
def newForServer : StreamIdProvider := ⟨2#32⟩

/-- stream_id.rs:32-33: `fetch_add(2) & MASK`, the candidate id and the new word. -/
def draw (p : StreamIdProvider) : U32 × StreamIdProvider :=
  (p.word &&& STREAM_ID_MASK, ⟨p.word + 2#32⟩)

/-- stream_id.rs:29-40 `next_stream_id` running alone on a store that does not change. `fuel`
bounds the number of loop rounds; `diverge` says that more rounds are needed. -/
def nextStreamId (store : Store) : Nat → StreamIdProvider → Outcome (U32 × StreamIdProvider)
  | 0, _ => .diverge
  | fuel + 1, p =>
    let (sid, p') := p.draw
    if !store sid then .ok (sid, p') else nextStreamId store fuel p'

/-! ## Concurrent callers

Any number of threads call `next_stream_id` on one provider while the store changes. Steps are
the atomic `fetch_add`, the `contains_key` look-up, and arbitrary insertions and removals by the
environment. `Model/Atomic` and C92 derive these executions from the memory model, for `Relaxed`. -/

/-- Where a thread is inside `next_stream_id` (lines 31-37). In stream_id.rs:29-40. -/
inductive PC where
  /-- not inside a call -/
  | idle
  /-- about to execute line 32 -/
  | probing
  /-- about to execute the `contains_key` test on line 35 with this `sid` -/
  | checking (sid : U32)
deriving DecidableEq, Repr

/-- The shared state, the threads and a history of what happened (ghost: no step reads it). The word
is the field at stream_id.rs:13, the store the argument at stream_id.rs:29. -/
structure Sys where
  provider : StreamIdProvider
  store : Store
  pc : Nat → PC
  /-- ids drawn from the counter so far, latest first -/
  drawn : List U32
  /-- ids returned by calls so far with the thread and the store at the moment of the check,
  latest first -/
  returned : List (Nat × U32 × Store)

/-- Thread `t` of `s` moves to `pc`. In stream_id.rs:29-40. -/
def Sys.setPc (s : Sys) (t : Nat) (pc : PC) : Sys :=
  { s with pc := fun t' => if t' = t then pc else s.pc t' }

/-- One step of the system. The code is stream_id.rs:29-40. -/
inductive Step : Sys → Sys → Prop where
  /-- A thread enters `next_stream_id`. -/
  | call (s : Sys) (t : Nat) : s.pc t = .idle → Step s (s.setPc t .probing)
  /-- Lines 32-33: the atomic `fetch_add`. -/
  | fetch (s : Sys) (t : Nat) : s.pc t = .probing →
      Step s { (s.setPc t (.checking s.provider.draw.1)) with
        provider := s.provider.draw.2, drawn := s.provider.draw.1 :: s.drawn }
  /-- Lines 35-37 and 39: the id is not in the store, return it. -/
  | checkFree (s : Sys) (t : Nat) (sid : U32) : s.pc t = .checking sid → s.store sid = false →
      Step s { (s.setPc t .idle) with returned := (t, sid, s.store) :: s.returned }
  /-- Line 35: the id is in the store, loop. -/
  | checkUsed (s : Sys) (t : Nat) (sid : U32) : s.pc t = .checking sid → s.store sid = true →
      Step s (s.setPc t .probing)
  /-- Anyone inserts into or removes from the store. -/
  | env (s : Sys) (store' : Store) : Step s { s with store := store' }

/-- The system before the first call. The provider is made by stream_id.rs:17-26. -/
def Sys.init (p : StreamIdProvider) (store : Store) : Sys :=
  { provider := p, store := store, pc := fun _ => .idle, drawn := [], returned := [] }

/-- States reachable from a fresh provider. The provider is made by stream_id.rs:17-26. -/
inductive Reachable (p : StreamIdProvider) : Sys → Prop where
  | init (store : Store) : Reachable p (Sys.init p store)
  | step {s s' : Sys} : Reachable p s → Step s s' → Reachable p s'

end StreamIdProvider

end Binate
