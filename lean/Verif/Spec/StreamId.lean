import Verif.Model.StreamId

/-! # Specification of stream id allocation -/

namespace Binate.Spec

open StreamIdProvider

/-- The `n`-th id (from 0) in counter order of a provider whose counter started at `w0`. -/
def idAt (w0 n : Nat) : Nat := (w0 + 2 * n) % 2 ^ 31

/-- The ids returned by calls so far, latest first. -/
def returnedIds (s : Sys) : List U32 := s.returned.map (·.2.1)

/-- The id number `i` is in use. -/
def inUse (store : Store) (i : Nat) : Bool := store (BitVec.ofNat 32 i)

/-- Executions in which the store always satisfies `P`, with the failed checks so far (thread and
id, latest first). A check has failed when the thread that was checking goes back to probing. -/
inductive Exec (p : StreamIdProvider) (P : Store → Prop) : Sys → List (Nat × U32) → Prop where
  | init (store : Store) : P store → Exec p P (Sys.init p store) []
  | step {s s' : Sys} {rej : List (Nat × U32)} : Exec p P s rej → Step s s' → P s'.store →
      (∀ t sid, s.pc t = .checking sid → s'.pc t ≠ .probing) → Exec p P s' rej
  | reject {s s' : Sys} {rej : List (Nat × U32)} {t : Nat} {sid : U32} : Exec p P s rej →
      Step s s' → P s'.store → s.pc t = .checking sid → s'.pc t = .probing →
      Exec p P s' ((t, sid) :: rej)

/-- The thread has drawn an id that it has not checked yet. -/
def isChecking : PC → Bool
  | .checking _ => true
  | _ => false

/-- At most one key is present. -/
def AtMostOneKey (store : Store) : Prop := ∀ x y, store x = true → store y = true → x = y

/-- One caller alone: the ids that successive calls of `next_stream_id` return while the store does
not change (latest first), and the provider afterwards. -/
inductive Alone (store : Store) (p : StreamIdProvider) : List U32 → StreamIdProvider → Prop where
  | none : Alone store p [] p
  | next {ids : List U32} {q r : StreamIdProvider} {fuel : Nat} {x : U32} : Alone store p ids q →
      nextStreamId store fuel q = .ok (x, r) → Alone store p (x :: ids) r

end Binate.Spec
