import Verif.Model.Codec

/-! # Errors (binate/src/error.rs, binate/src/frame/decode.rs) -/

namespace Binate

/-- Rust `{:#x}` of an unsigned integer: `0x` and lower-case hexadecimal digits. Used at decode.rs:42. -/
def fmtHex (n : Nat) : String := "0x" ++ String.ofList (Nat.toDigits 16 n)

/-- Rust `{}` of an unsigned integer. Used at decode.rs:44-48. -/
def fmtDec (n : Nat) : String := String.ofList (Nat.toDigits 10 n)

/-- decode.rs:37-50 `Display for DecodeError`. -/
def DecodeError.display : DecodeError → String
  | .inComplete => "incomplete frame"
  | .unrecognizedFrameType v => "unrecognized frame type " ++ fmtHex v.toNat
  | .invalidStreamId expected found =>
    "invalid stream ID (expected " ++ expected ++ ", found " ++ fmtDec found.toNat ++ ")"

/-- error.rs:26-44 `Kind`. -/
inductive Kind where
  | decode (e : DecodeError)
  | invalidSetup | unsupportedSetup | rejectedSetup | rejectedResume
  | connectionError | connectionClose | applicationError | rejected | canceled | invalid
  | io
deriving DecidableEq, Repr

/-- `#[derive(Debug)]` at decode.rs:20, as printed by `{:?}`. The strings `expected` that the crate
uses (`"0"` and `"> 0"`) need no escaping, so they are only put in quotes. -/
def DecodeError.debug : DecodeError → String
  | .inComplete => "InComplete"
  | .unrecognizedFrameType v => "UnrecognizedFrameType(" ++ fmtDec v.toNat ++ ")"
  | .invalidStreamId expected found =>
    "InvalidStreamId { expected: \"" ++ expected ++ "\", found: " ++ fmtDec found.toNat ++ " }"

/-- `#[derive(Debug)]` at error.rs:24, as printed by `{:?}`. -/
def Kind.debug : Kind → String
  | .decode e => "Decode(" ++ e.debug ++ ")"
  | .invalidSetup => "InvalidSetup"
  | .unsupportedSetup => "UnsupportedSetup"
  | .rejectedSetup => "RejectedSetup"
  | .rejectedResume => "RejectedResume"
  | .connectionError => "ConnectionError"
  | .connectionClose => "ConnectionClose"
  | .applicationError => "ApplicationError"
  | .rejected => "Rejected"
  | .canceled => "Canceled"
  | .invalid => "Invalid"
  | .io => "Io"

/-- error.rs:13-22 `Error`. The boxed source is represented by its `Display` text. -/
structure Error where
  kind : Kind
  source : Option String
deriving DecidableEq, Repr

/-- error.rs:66-102 `Code`. -/
inductive Code where
  | invalidSetup | unsupportedSetup | rejectedSetup | rejectedResume
  | connectionError | connectionClose | applicationError | rejected | canceled | invalid
deriving DecidableEq, Repr

/-- error.rs:69-101: the discriminants of `Code`. -/
def Code.toU32 : Code → U32
  | .invalidSetup => 0x00000001#32
  | .unsupportedSetup => 0x00000002#32
  | .rejectedSetup => 0x00000003#32
  | .rejectedResume => 0x00000004#32
  | .connectionError => 0x00000101#32
  | .connectionClose => 0x00000102#32
  | .applicationError => 0x00000201#32
  | .rejected => 0x00000202#32
  | .canceled => 0x00000203#32
  | .invalid => 0x00000204#32

namespace Error

/-- error.rs:105-115 `new`. -/
def new (kind : Kind) (source : Option String) : Error := ⟨kind, source⟩

/-- error.rs:118-120 -/
def isDecode (e : Error) : Bool := match e.kind with | .decode _ => true | _ => false

/-- error.rs:123-138 -/
def isProtocol (e : Error) : Bool :=
  match e.kind with
  | .invalidSetup | .unsupportedSetup | .rejectedSetup | .rejectedResume
  | .connectionError | .connectionClose | .applicationError | .rejected
  | .canceled | .invalid => true
  | _ => false

/-- error.rs:141-146 -/
def isSetup (e : Error) : Bool :=
  match e.kind with
  | .invalidSetup | .unsupportedSetup | .rejectedSetup => true
  | _ => false

/-- error.rs:149-151 -/
def isInvalidSetup (e : Error) : Bool := match e.kind with | .invalidSetup => true | _ => false
/-- error.rs:154-156 -/
def isUnsupportedSetup (e : Error) : Bool :=
  match e.kind with | .unsupportedSetup => true | _ => false
/-- error.rs:159-161 -/
def isRejectedSetup (e : Error) : Bool := match e.kind with | .rejectedSetup => true | _ => false
/-- error.rs:164-166 -/
def isRejectedResume (e : Error) : Bool := match e.kind with | .rejectedResume => true | _ => false
/-- error.rs:172-174 -/
def isConnectionError (e : Error) : Bool :=
  match e.kind with | .connectionError => true | _ => false
/-- error.rs:180-182 -/
def isConnectionClose (e : Error) : Bool :=
  match e.kind with | .connectionClose => true | _ => false
/-- error.rs:185-187 -/
def isApplicationError (e : Error) : Bool :=
  match e.kind with | .applicationError => true | _ => false
/-- error.rs:190-192 -/
def isRejected (e : Error) : Bool := match e.kind with | .rejected => true | _ => false
/-- error.rs:195-197 -/
def isCancel (e : Error) : Bool := match e.kind with | .canceled => true | _ => false
/-- error.rs:200-202 -/
def isInvalid (e : Error) : Bool := match e.kind with | .invalid => true | _ => false

/-- error.rs:204-220 `description`. -/
def description (e : Error) : String :=
  match e.kind with
  | .invalidSetup => "INVALID_SETUP (0x00000001)"
  | .unsupportedSetup => "UNSUPPORTED_SETUP (0x00000002)"
  | .rejectedSetup => "REJECTED_SETUP (0x00000003)"
  | .rejectedResume => "REJECTED_RESUME (0x00000004)"
  | .connectionError => "CONNECTION_ERROR (0x00000101)"
  | .connectionClose => "CONNECTION_CLOSE (0x00000102)"
  | .applicationError => "APPLICATION_ERROR (0x00000201)"
  | .rejected => "CONNECTION_ERROR (0x00000202)"
  | .canceled => "CANCELED (0x00000203)"
  | .invalid => "INVALID (0x00000204)"
  | .decode _ => "error decoding frame"
  | .io => "I/O error"

/-- error.rs:224-230 `Display`. -/
def display (e : Error) : String :=
  match e.source with
  | some source => e.description ++ ": " ++ source
  | none => e.description

/-- error.rs:233-242 `Debug`, as printed by `{:?}`: `debug_tuple` writes the name and the fields in
parentheses. `sourceDebug` is the source's own `Debug`, of which nothing is known. -/
def debug (sourceDebug : String → String) (e : Error) : String :=
  match e.source with
  | some source => "binate::Error(" ++ e.kind.debug ++ ", " ++ sourceDebug source ++ ")"
  | none => "binate::Error(" ++ e.kind.debug ++ ")"

/-- error.rs:245-247 `StdError::source`; the source error is represented by its `Display`. -/
def getSource (e : Error) : Option String := e.source

/-- error.rs:250-255 `From<DecodeError>`. -/
def ofDecodeError (e : DecodeError) : Error := new (.decode e) (some e.display)

/-- error.rs:257-261 `From<io::Error>`; `text` is the I/O error's own `Display`. -/
def ofIoError (text : String) : Error := new .io (some text)

end Error

end Binate
