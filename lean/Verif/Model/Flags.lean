import Verif.Model.Basic

/-! # Frame types and flags (binate/src/frame/flags.rs) -/

namespace Binate

/-- binate/src/frame/flags.rs:6-37 `FrameType`. -/
inductive FrameType where
  | SETUP | LEASE | KEEPALIVE | REQUEST_RESPONSE | REQUEST_FNF | REQUEST_STREAM
  | REQUEST_CHANNEL | REQUEST_N | CANCEL | PAYLOAD | ERROR | METADATA_PUSH | RESUME | RESUME_OK
  | EXT
deriving DecidableEq, Repr

namespace FrameType

/-- binate/src/frame/flags.rs:44-63 `FrameType::from_value`. -/
def fromValue (val : U16) : Option FrameType :=
  if val = 0x01#16 then some SETUP
  else if val = 0x02#16 then some LEASE
  else if val = 0x03#16 then some KEEPALIVE
  else if val = 0x04#16 then some REQUEST_RESPONSE
  else if val = 0x05#16 then some REQUEST_FNF
  else if val = 0x06#16 then some REQUEST_STREAM
  else if val = 0x07#16 then some REQUEST_CHANNEL
  else if val = 0x08#16 then some REQUEST_N
  else if val = 0x09#16 then some CANCEL
  else if val = 0x0A#16 then some PAYLOAD
  else if val = 0x0B#16 then some ERROR
  else if val = 0x0C#16 then some METADATA_PUSH
  else if val = 0x0D#16 then some RESUME
  else if val = 0x0E#16 then some RESUME_OK
  else if val = 0x3F#16 then some EXT
  else none

/-- binate/src/frame/flags.rs:77-96 `FrameType::from_bits` (its own table on `bits >> 10`). -/
def fromBits (bits : U16) : Option FrameType :=
  let v := bits >>> 10
  if v = 0x01#16 then some SETUP
  else if v = 0x02#16 then some LEASE
  else if v = 0x03#16 then some KEEPALIVE
  else if v = 0x04#16 then some REQUEST_RESPONSE
  else if v = 0x05#16 then some REQUEST_FNF
  else if v = 0x06#16 then some REQUEST_STREAM
  else if v = 0x07#16 then some REQUEST_CHANNEL
  else if v = 0x08#16 then some REQUEST_N
  else if v = 0x09#16 then some CANCEL
  else if v = 0x0A#16 then some PAYLOAD
  else if v = 0x0B#16 then some ERROR
  else if v = 0x0C#16 then some METADATA_PUSH
  else if v = 0x0D#16 then some RESUME
  else if v = 0x0E#16 then some RESUME_OK
  else if v = 0x3F#16 then some EXT
  else none

/-- binate/src/frame/flags.rs:102-120 `FrameType::value`. -/
def value : FrameType → U16
  | SETUP => 0x01#16
  | LEASE => 0x02#16
  | KEEPALIVE => 0x03#16
  | REQUEST_RESPONSE => 0x04#16
  | REQUEST_FNF => 0x05#16
  | REQUEST_STREAM => 0x06#16
  | REQUEST_CHANNEL => 0x07#16
  | REQUEST_N => 0x08#16
  | CANCEL => 0x09#16
  | PAYLOAD => 0x0A#16
  | ERROR => 0x0B#16
  | METADATA_PUSH => 0x0C#16
  | RESUME => 0x0D#16
  | RESUME_OK => 0x0E#16
  | EXT => 0x3F#16

/-- binate/src/frame/flags.rs:132-151 `FrameType::bits`: its own table, shifted left by 10. -/
def bits (t : FrameType) : U16 :=
  let val : U16 := match t with
    | SETUP => 0x01#16
    | LEASE => 0x02#16
    | KEEPALIVE => 0x03#16
    | REQUEST_RESPONSE => 0x04#16
    | REQUEST_FNF => 0x05#16
    | REQUEST_STREAM => 0x06#16
    | REQUEST_CHANNEL => 0x07#16
    | REQUEST_N => 0x08#16
    | CANCEL => 0x09#16
    | PAYLOAD => 0x0A#16
    | ERROR => 0x0B#16
    | METADATA_PUSH => 0x0C#16
    | RESUME => 0x0D#16
    | RESUME_OK => 0x0E#16
    | EXT => 0x3F#16
  val <<< 10

end FrameType

/-- binate/src/frame/flags.rs:154-174 `Flags` (the bitflags 1.2.1 struct: a `u16`). Safe code can
only build values whose bits are among the declared ones (`Spec.SafeFlags`). -/
structure Flags where
  bits : U16
deriving DecidableEq, Repr

namespace Flags

/-- flags.rs:158 -/
def IGNORE : Flags := ⟨0b0100000000#16⟩
/-- flags.rs:160 -/
def METADATA : Flags := ⟨0b0010000000#16⟩
/-- flags.rs:162 -/
def FOLLOWS : Flags := ⟨0b0001000000#16⟩
/-- flags.rs:164 -/
def RESUME : Flags := ⟨0b0001000000#16⟩
/-- flags.rs:166 -/
def RESPOND : Flags := ⟨0b0001000000#16⟩
/-- flags.rs:168 -/
def COMPLETE : Flags := ⟨0b0000100000#16⟩
/-- flags.rs:170 -/
def LEASE : Flags := ⟨0b0000100000#16⟩
/-- flags.rs:172 -/
def NEXT : Flags := ⟨0b0000010000#16⟩

/-- bitflags `empty()`. Generated at flags.rs:154-174. -/
def empty : Flags := ⟨0#16⟩

/-- bitflags `|` / `|=`. Generated at flags.rs:154-174. -/
def union (a b : Flags) : Flags := ⟨a.bits ||| b.bits⟩

/-- bitflags `&` / `&=`. Generated at flags.rs:154-174. -/
def inter (a b : Flags) : Flags := ⟨a.bits &&& b.bits⟩

/-- bitflags `^` / `^=` / `toggle`. Generated at flags.rs:154-174. -/
def symmDiff (a b : Flags) : Flags := ⟨a.bits ^^^ b.bits⟩

/-- bitflags `-` / `-=` / `remove`. Generated at flags.rs:154-174. -/
def diff (a b : Flags) : Flags := ⟨a.bits &&& ~~~ b.bits⟩

/-- bitflags `all()`: the union of all declared flags. Generated at flags.rs:154-174. -/
def all : Flags :=
  (((((((IGNORE.union METADATA).union FOLLOWS).union RESUME).union RESPOND).union COMPLETE).union
    LEASE).union NEXT)

/-- bitflags `contains`: `(self & other) == other`. Generated at flags.rs:154-174, used at
flags.rs:178-215. -/
def contains (a b : Flags) : Bool := (a.bits &&& b.bits) == b.bits

/-- bitflags `from_bits_truncate`. Generated at flags.rs:154-174, used at visit.rs:30. -/
def fromBitsTruncate (b : U16) : Flags := ⟨b &&& all.bits⟩

/-- bitflags `!`: `from_bits_truncate(!self.bits)`. Generated at flags.rs:154-174. -/
def compl (a : Flags) : Flags := fromBitsTruncate (~~~ a.bits)

/-- bitflags `from_bits`: `None` if an undeclared bit is set. Generated at flags.rs:154-174. -/
def fromBits (b : U16) : Option Flags :=
  if b &&& (~~~ all.bits) = 0#16 then some ⟨b⟩ else none

/-- flags.rs:178-180 -/
def isIgnore (f : Flags) : Bool := f.contains IGNORE
/-- flags.rs:183-185 -/
def isMetadata (f : Flags) : Bool := f.contains METADATA
/-- flags.rs:188-190 -/
def isFollows (f : Flags) : Bool := f.contains FOLLOWS
/-- flags.rs:193-195 -/
def isResume (f : Flags) : Bool := f.contains RESUME
/-- flags.rs:198-200 -/
def isRespond (f : Flags) : Bool := f.contains RESPOND
/-- flags.rs:203-205 -/
def isComplete (f : Flags) : Bool := f.contains COMPLETE
/-- flags.rs:208-210 -/
def isLease (f : Flags) : Bool := f.contains LEASE
/-- flags.rs:213-215 -/
def isNext (f : Flags) : Bool := f.contains NEXT

end Flags

end Binate
