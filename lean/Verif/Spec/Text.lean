import Verif.Model.Error
import Verif.Model.Mime
import Verif.Model.Utf8

/-! # Texts: protocol error names, MIME type names, UTF-8 -/

namespace Binate.Spec

/-! ## Errors -/

/-- The number of predicates that hold. -/
def holding (ps : List Bool) : Nat := (ps.filter id).length

/-- `0x` and eight hexadecimal digits. -/
def hex8 (n : Nat) : String :=
  let ds := Nat.toDigits 16 n
  "0x" ++ String.ofList (List.replicate (8 - ds.length) '0' ++ ds)

/-- The protocol's error codes and their names. -/
def protocolCode : Kind → Option (String × Nat)
  | .invalidSetup => some ("INVALID_SETUP", 0x00000001)
  | .unsupportedSetup => some ("UNSUPPORTED_SETUP", 0x00000002)
  | .rejectedSetup => some ("REJECTED_SETUP", 0x00000003)
  | .rejectedResume => some ("REJECTED_RESUME", 0x00000004)
  | .connectionError => some ("CONNECTION_ERROR", 0x00000101)
  | .connectionClose => some ("CONNECTION_CLOSE", 0x00000102)
  | .applicationError => some ("APPLICATION_ERROR", 0x00000201)
  | .rejected => some ("REJECTED", 0x00000202)
  | .canceled => some ("CANCELED", 0x00000203)
  | .invalid => some ("INVALID", 0x00000204)
  | .decode _ => none
  | .io => none

/-- The `Code` of a protocol error. -/
def kindCode : Kind → Option Code
  | .invalidSetup => some .invalidSetup
  | .unsupportedSetup => some .unsupportedSetup
  | .rejectedSetup => some .rejectedSetup
  | .rejectedResume => some .rejectedResume
  | .connectionError => some .connectionError
  | .connectionClose => some .connectionClose
  | .applicationError => some .applicationError
  | .rejected => some .rejected
  | .canceled => some .canceled
  | .invalid => some .invalid
  | .decode _ => none
  | .io => none

/-! ## MIME types -/

/-- The listed MIME types. -/
def mimeStrings : List String := [
  "application/avro", "application/cbor", "application/graphql", "application/gzip",
  "application/javascript", "application/json", "application/octet-stream", "application/pdf",
  "application/vnd.apache.thrift.binary", "application/vnd.google.protobuf", "application/xml",
  "application/zip", "audio/aac", "audio/mp3", "audio/mp4", "audio/mpeg3", "audio/mpeg",
  "audio/ogg", "audio/opus", "audio/vorbis", "image/bmp", "image/gif", "image/heic-sequence",
  "image/heic", "image/heif-sequence", "image/heif", "image/jpeg", "image/png", "image/tiff",
  "multipart/mixed", "text/css", "text/csv", "text/html", "text/plain", "text/xml", "video/H264",
  "video/H265", "video/VP8", "application/x-hessian", "application/x-java-object",
  "application/cloudevents+json", "message/x.rsocket.mime.type.v0",
  "message/x.rsocket.accept.time.types.v0", "message/x.rsocket.authentication.v0",
  "message/x.rsocket.tracing.zipkin.v0", "message/x.rsocket.routing.v0",
  "message/x.rsocket.composite.metadata.v0"]

/-- Letters in upper case, punctuation as underscores: the name of the variant for a string. -/
def screaming (s : String) : List Char :=
  s.toList.map fun c => if c.isAlphanum then c.toUpper else '_'

/-! ## UTF-8 -/

/-- The UTF-8 encoding of a code point. -/
def scalarBytes (v : Nat) : List Nat :=
  if v < 0x80 then [v]
  else if v < 0x800 then [0xC0 + v / 64, 0x80 + v % 64]
  else if v < 0x10000 then [0xE0 + v / 4096, 0x80 + v / 64 % 64, 0x80 + v % 64]
  else [0xF0 + v / 262144, 0x80 + v / 4096 % 64, 0x80 + v / 64 % 64, 0x80 + v % 64]

/-- The UTF-8 encoding of a string. -/
def utf8 (s : String) : List Nat := s.toList.flatMap fun c => scalarBytes c.toNat

/-- The bytes as numbers. -/
def nats (b : Bytes) : List Nat := b.map BitVec.toNat

/-- The value of a digit, lower case. -/
def digitValue (c : Char) : Option Nat :=
  if 48 ≤ c.toNat ∧ c.toNat ≤ 57 then some (c.toNat - 48)
  else if 97 ≤ c.toNat ∧ c.toNat ≤ 102 then some (c.toNat - 87)
  else none

/-- Reading a number in base `b` from left to right, after the value `acc`. -/
def readNumber (b : Nat) : List Char → Nat → Option Nat
  | [], acc => some acc
  | c :: cs, acc =>
    match digitValue c with
    | some d => if d < b then readNumber b cs (acc * b + d) else none
    | none => none

end Binate.Spec
