import Verif.Model.Frame

/-! # Specification of what `Debug` shows -/

namespace Binate.Spec

/-- The names of a bit, by its number, in the order in which they appear in the text. -/
def flagNames : List (Nat × String) :=
  [(8, "IGNORE"), (7, "METADATA"), (6, "FOLLOWS"), (6, "RESUME"), (6, "RESPOND"), (5, "COMPLETE"),
   (5, "LEASE"), (4, "NEXT")]

/-- The names of the bits that are set. -/
def shownNames (bits : Nat) : List String :=
  flagNames.filterMap fun e => if bits.testBit e.1 then some e.2 else none

/-- The text of 16 bits: the names of those that are set, then the others as a number (bits 0 to 3
and 9 to 15 have no name). -/
def shownFlags (bits : Nat) : String :=
  let other := bits % 16 + bits / 512 * 512
  if bits = 0 then "(empty)"
  else " | ".intercalate
    (shownNames bits ++ if other = 0 then [] else ["0x" ++ String.ofList (Nat.toDigits 16 other)])

/-- Printable ASCII: neither line breaks nor other control characters, nothing beyond ASCII. -/
def PrintableAscii (s : String) : Prop := ∀ c ∈ s.toList, 0x20 ≤ c.toNat ∧ c.toNat ≤ 0x7E

/-- A byte inside a byte string literal. -/
def shownByte (b : Nat) : String :=
  match b with
  | 0 => "\\0"
  | 9 => "\\t"
  | 10 => "\\n"
  | 13 => "\\r"
  | 34 => "\\\""
  | 92 => "\\\\"
  | _ =>
    if 32 ≤ b ∧ b ≤ 126 then String.ofList [Char.ofNat b]
    else "\\x" ++ String.ofList [Nat.digitChar (b / 16), Nat.digitChar (b % 16)]

/-- A byte string literal. -/
def shownBytes (b : Bytes) : String :=
  s!"b\"{String.join (b.map fun x => shownByte x.toNat)}\""

/-- Bytes that may be missing. -/
def shownOption : Option Bytes → String
  | some b => s!"Some({shownBytes b})"
  | none => "None"

/-- A payload. -/
def shownPayload (p : Payload) : String :=
  s!"Payload \{ metadata: {shownOption p.metadata}, data: {shownOption p.data} }"

/-- A version. -/
def shownVersion (v : Version) : String :=
  s!"Version \{ major: {v.major.toNat}, minor: {v.minor.toNat} }"

/-- A frame: all fields with their names, numbers in decimal. -/
def shownFrame : Frame → String
  | .setup f =>
    s!"Setup(SetupFrame \{ flags: {shownFlags f.flags.bits.toNat}, \
      version: {shownVersion f.version}, keepalive_interval: {f.keepaliveInterval.toNat}, \
      keepalive_timeout: {f.keepaliveTimeout.toNat}, resume_token: {shownOption f.resumeToken}, \
      metadata_mimetype: {shownBytes f.metadataMimetype}, \
      data_mimetype: {shownBytes f.dataMimetype}, payload: {shownPayload f.payload} })"
  | .error f =>
    s!"Error(ErrorFrame \{ stream_id: {f.streamId.toNat}, code: {f.code.toNat}, \
      data: {shownOption f.data} })"
  | .lease f =>
    s!"Lease(LeaseFrame \{ ttl: {f.ttl.toNat}, number_of_requests: {f.numberOfRequests.toNat}, \
      metadata: {shownOption f.metadata} })"
  | .keepalive f =>
    s!"Keepalive(KeepaliveFrame \{ respond: {f.respond}, \
      last_received_position: {f.lastReceivedPosition.toNat}, data: {shownOption f.data} })"
  | .requestResponse f =>
    s!"RequestResponse(RequestResponseFrame \{ stream_id: {f.streamId.toNat}, \
      flags: {shownFlags f.flags.bits.toNat}, payload: {shownPayload f.payload} })"
  | .requestFnf f =>
    s!"RequestFnf(RequestFnfFrame \{ stream_id: {f.streamId.toNat}, \
      flags: {shownFlags f.flags.bits.toNat}, payload: {shownPayload f.payload} })"
  | .requestStream f =>
    s!"RequestStream(RequestStreamFrame \{ stream_id: {f.streamId.toNat}, \
      flags: {shownFlags f.flags.bits.toNat}, initial_request_n: {f.initialRequestN.toNat}, \
      payload: {shownPayload f.payload} })"
  | .requestChannel f =>
    s!"RequestChannel(RequestChannelFrame \{ stream_id: {f.streamId.toNat}, \
      flags: {shownFlags f.flags.bits.toNat}, initial_request_n: {f.initialRequestN.toNat}, \
      payload: {shownPayload f.payload} })"
  | .requestN f =>
    s!"RequestN(RequestNFrame \{ stream_id: {f.streamId.toNat}, request_n: {f.requestN.toNat} })"
  | .cancel f => s!"Cancel(CancelFrame \{ stream_id: {f.streamId.toNat} })"
  | .payload f =>
    s!"Payload(PayloadFrame \{ stream_id: {f.streamId.toNat}, \
      flags: {shownFlags f.flags.bits.toNat}, payload: {shownPayload f.payload} })"
  | .metadataPush f => s!"MetadataPush(MetadataPushFrame \{ metadata: {shownBytes f.metadata} })"
  | .resume f =>
    s!"Resume(ResumeFrame \{ version: {shownVersion f.version}, \
      resume_token: {shownBytes f.resumeToken}, \
      last_received_server_position: {f.lastReceivedServerPosition.toNat}, \
      first_available_client_position: {f.firstAvailableClientPosition.toNat} })"
  | .resumeOk f =>
    s!"ResumeOk(ResumeOkFrame \{ last_received_client_position: \
      {f.lastReceivedClientPosition.toNat} })"

/-- The rest of a byte string literal of the language, up to its closing quote, stands for these
bytes. -/
inductive LiteralRest : List Char → List Nat → Prop where
  | stop : LiteralRest ['"'] []
  | newline {s l} : LiteralRest s l → LiteralRest ('\\' :: 'n' :: s) (10 :: l)
  | carriageReturn {s l} : LiteralRest s l → LiteralRest ('\\' :: 'r' :: s) (13 :: l)
  | tab {s l} : LiteralRest s l → LiteralRest ('\\' :: 't' :: s) (9 :: l)
  | zero {s l} : LiteralRest s l → LiteralRest ('\\' :: '0' :: s) (0 :: l)
  | backslash {s l} : LiteralRest s l → LiteralRest ('\\' :: '\\' :: s) (92 :: l)
  | quote {s l} : LiteralRest s l → LiteralRest ('\\' :: '"' :: s) (34 :: l)
  | hex {i j a b s l} : "0123456789abcdef".toList[i]? = some a →
      "0123456789abcdef".toList[j]? = some b → LiteralRest s l →
      LiteralRest ('\\' :: 'x' :: a :: b :: s) ((16 * i + j) :: l)
  | plain {c n s l} : c.toNat = n → ¬(c = '"' ∨ c = '\\') → n < 128 → LiteralRest s l →
      LiteralRest (c :: s) (n :: l)

/-- A byte string literal stands for these bytes. -/
inductive Literal : List Char → List Nat → Prop where
  | intro {s l} : LiteralRest s l → Literal ('b' :: '"' :: s) l

end Binate.Spec
