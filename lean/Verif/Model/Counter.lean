import Verif.Model.Basic

/-! # `RequestCounter` (binate/src/connection/counter.rs)

`AtomicI32` is a 32-bit word; every operation is one atomic step, so a concurrent execution is a
sequence of operations (`Model/Atomic` and C91 derive this from the memory model). -/

namespace Binate

/-- counter.rs:7 `RequestCounter(AtomicI32)`: the current word. -/
structure RequestCounter where
  word : U32
deriving DecidableEq, Repr

namespace RequestCounter

/-- counter.rs:3 `COUNTER_MASK`. -/
def COUNTER_MASK : U32 := 0x7FFFFFFF#32

/-- counter.rs:11-13 `new`. -/
def new (n : U32) : RequestCounter := ⟨n &&& COUNTER_MASK⟩

/-- counter.rs:31-33 `load`: the word read as `i32`. -/
def load (c : RequestCounter) : Int := c.word.toInt

/-- counter.rs:16-18 `dec` = `fetch_sub(1)`: the previous value and the new state; wraps. -/
def dec (c : RequestCounter) : Int × RequestCounter := (c.word.toInt, ⟨c.word - 1#32⟩)

/-- counter.rs:26-28 `add` = `fetch_add(n as i32)`; wraps. -/
def add (c : RequestCounter) (n : U32) : RequestCounter := ⟨c.word + n⟩

/-- counter.rs:21-23 `is_zero`. -/
def isZero (c : RequestCounter) : Bool := c.word == 0#32

/-- One operation performed by some thread. The methods are counter.rs:16-33. -/
inductive Op where
  | dec
  | add (n : U32)
  | load
  | isZero
deriving DecidableEq, Repr

/-- What the operation returned to its caller. The methods are counter.rs:16-33. -/
inductive Ret where
  | int (i : Int)
  | bool (b : Bool)
  | unit
deriving DecidableEq, Repr

/-- One atomic step. That is counter.rs:17, 22, 27 or 32. -/
def step (c : RequestCounter) : Op → Ret × RequestCounter
  | .dec => let (r, c') := c.dec; (.int r, c')
  | .add n => (.unit, c.add n)
  | .load => (.int c.load, c)
  | .isZero => (.bool c.isZero, c)

/-- A whole execution: the operations of all threads in the order in which they take effect,
with their results. The methods are counter.rs:16-33. -/
def exec (c : RequestCounter) : List Op → List (Op × Ret) × RequestCounter
  | [] => ([], c)
  | op :: ops =>
    let (r, c') := c.step op
    let (log, c'') := exec c' ops
    ((op, r) :: log, c'')

end RequestCounter

end Binate
