import Verif.Model.Basic

/-! # `std::time::Duration` and the default times

Only the four functions the code calls. A `Duration` is a number of seconds and a number of
nanoseconds below 10^9, as in the standard library. -/

namespace Binate

/-- `std::time::Duration`. Used at consts.rs:4, 8, setup.rs:78-86, lease.rs:53-55. -/
structure Duration where
  secs : U64
  nanos : U32
deriving DecidableEq, Repr

namespace Duration

/-- `Duration::from_secs`. Used at consts.rs:4, 8. -/
def fromSecs (secs : U64) : Duration := ⟨secs, 0#32⟩

/-- `Duration::from_millis`: `Duration::new(millis / 1000, (millis % 1000) as u32 * 1_000_000)`. Used
at setup.rs:79, 85, lease.rs:54. -/
def fromMillis (millis : U64) : Duration :=
  ⟨millis / 1000#64, (millis % 1000#64).setWidth 32 * 1000000#32⟩

/-- `Duration::as_millis`: a `u128`, which cannot overflow here. Used at setup.rs:241-242. -/
def asMillis (d : Duration) : Nat := d.secs.toNat * 1000 + d.nanos.toNat / 1000000

end Duration

/-- binate/src/consts.rs:4 -/
def DEFAULT_KEEPALIVE_INTERVAL : Duration := Duration.fromSecs 30#64

/-- binate/src/consts.rs:8 -/
def DEFAULT_KEEPALIVE_TIMEOUT : Duration := Duration.fromSecs 60#64

end Binate
