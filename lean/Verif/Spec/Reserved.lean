import Verif.Spec.Need

/-! # Reserved bits -/

namespace Binate.Spec

/-- Byte offset `i` starts a 31-bit or 63-bit field whose top bit is reserved, in a frame of type
`ty`. For RESUME, `tok` is the length of the token that precedes the two positions. -/
def reservedTop (ty tok i : Nat) : Bool :=
  match ty with
  | 1 => i == 10 || i == 14                -- SETUP: keepalive interval, lifetime
  | 2 => i == 6 || i == 10                 -- LEASE: ttl, number of requests
  | 3 => i == 6                            -- KEEPALIVE: last received position
  | 6 => i == 6                            -- REQUEST_STREAM: initial request n
  | 7 => i == 6                            -- REQUEST_CHANNEL: initial request n
  | 8 => i == 6                            -- REQUEST_N: request n
  | 13 => i == 12 + tok || i == 20 + tok   -- RESUME: the two positions
  | 14 => i == 6                           -- RESUME_OK: last received client position
  | _ => false

/-- The reserved bits of the byte at offset `i`: the top bit of the stream id, the bits of the
flags word between the type and the five flags and below the flags, and `reservedTop`. -/
def reservedMask (ty tok i : Nat) : U8 :=
  if i = 0 then 0x80#8
  else if i = 4 then 0x02#8
  else if i = 5 then 0x0F#8
  else if reservedTop ty tok i then 0x80#8
  else 0x00#8

/-- The two byte strings have the same length and agree on every bit outside the masks. -/
def Agree (m : Nat → U8) (b b' : Bytes) : Prop :=
  b.length = b'.length ∧ ∀ i, b.getD i 0#8 ||| m i = b'.getD i 0#8 ||| m i

/-- `b` and `b'` differ at most in reserved bits. -/
def AgreeExceptReserved (b b' : Bytes) : Prop :=
  Agree (reservedMask (typeOf b) (u16At b 10)) b b'

end Binate.Spec
