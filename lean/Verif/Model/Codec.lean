import Verif.Model.Visit
import Verif.Model.Duration

/-!
# The fourteen frame codecs (binate/src/frame/codec/*.rs)

Every `encode` takes the buffer written so far and returns the extended one. Constructors take
the build profile `dbg` (debug assertions on or off), see `Outcome.debugAssert`.
-/

namespace Binate

/-- binate/src/frame/codec/mod.rs:5-9 `debug_assert_max_u31!` for one variable; `stringify!` puts its
name into the message. -/
def debugAssertMaxU31 (dbg : Bool) (name : String) (x : U32) : Outcome Unit :=
  Outcome.debugAssert dbg (x ≤ MAX_U31) (name ++ " MUST be <= MAX_U31 (0x7FFFFFFF)")

/-- binate/src/frame/codec/mod.rs:11-15 `debug_assert_max_u63!` for one variable. -/
def debugAssertMaxU63 (dbg : Bool) (name : String) (x : U64) : Outcome Unit :=
  Outcome.debugAssert dbg (x ≤ MAX_U63) (name ++ " MUST be <= MAX_U63 (0x7FFF_FFFF_FFFF_FFFF)")

/-- binate/src/frame/codec/mod.rs:17-21 `debug_assert_non_zero!` for one variable. -/
def debugAssertNonZero (dbg : Bool) (name : String) (x : U32) : Outcome Unit :=
  Outcome.debugAssert dbg (x != 0#32) (name ++ " MUST be non-zero")

/-- The five lines shared by all payload-carrying codecs: the 24-bit metadata length
(`U24::from_usize`, which panics when it does not fit), then the payload. Cited at each use. For
example request_fnf.rs:78-83. -/
def encodePayloadWithLen (p : Payload) (buf : Bytes) : Outcome Bytes := do
  let u24 ← U24.fromUsize p.metadataLen
  let buf := putU8 buf u24.hi
  let buf := putU16 buf u24.lo
  .ok (p.encode buf)

/-- `Option<Bytes>::len` contribution used by several `len` functions. For example lease.rs:83-95,
keepalive.rs:84-95, codec/error.rs:155-167. -/
def optLen (o : Option Bytes) : Nat :=
  match o with
  | some b => b.length
  | none => 0

/-- `if let Some(x) = &opt { buf.put_slice(x) }`. For example lease.rs:78-80, keepalive.rs:79-81,
codec/error.rs:150-152. -/
def putOpt (buf : Bytes) (o : Option Bytes) : Bytes :=
  match o with
  | some b => putSlice buf b
  | none => buf

/-! ## SETUP -/

/-- binate/src/frame/codec/setup.rs:39-48 `SetupFrame`. -/
structure SetupFrame where
  flags : Flags
  version : Version
  keepaliveInterval : U32
  keepaliveTimeout : U32
  resumeToken : Option Bytes
  metadataMimetype : Bytes
  dataMimetype : Bytes
  payload : Payload
deriving DecidableEq, Repr

namespace SetupFrame

/-- setup.rs:142-162 `encode`. Token and MIME lengths are truncated by `as u16` / `as u8`. -/
def encode (f : SetupFrame) (buf : Bytes) : Outcome Bytes := do
  let buf := putU32 buf 0#32
  let buf := putU16 buf (FrameType.SETUP.bits ||| f.flags.bits)
  let buf := f.version.encode buf
  let buf := putU32 buf f.keepaliveInterval
  let buf := putU32 buf f.keepaliveTimeout
  let buf := match f.resumeToken with
    | some token => putSlice (putU16 buf (BitVec.ofNat 16 token.length)) token
    | none => buf
  let buf := putU8 buf (BitVec.ofNat 8 f.metadataMimetype.length)
  let buf := putSlice buf f.metadataMimetype
  let buf := putU8 buf (BitVec.ofNat 8 f.dataMimetype.length)
  let buf := putSlice buf f.dataMimetype
  encodePayloadWithLen f.payload buf

/-- setup.rs:164-189 `len` (the two token-length bytes are always counted). -/
def len (f : SetupFrame) : Nat :=
  let len := 20
  let len := match f.resumeToken with
    | some t => len + t.length
    | none => len
  let len := len + (1 + f.metadataMimetype.length + 1 + f.dataMimetype.length)
  len + (3 + f.payload.len)

/-- setup.rs:195-220 `decode`. -/
def decode {β : Type} [Buf β] (_streamId : U32) (flags : Flags) : Dec β SetupFrame := do
  let version ← eatVersion
  let keepalive ← eatU31
  let lifetime ← eatU31
  let resumeToken ← eatResumeToken flags
  let metadataMimetypeLen ← eatU8
  let metadataMimetype ← eatBytes metadataMimetypeLen.toNat
  let dataMimetypeLen ← eatU8
  let dataMimetype ← eatBytes dataMimetypeLen.toNat
  let payload ← eatPayload true
  return { flags := flags, version := version, keepaliveInterval := keepalive,
           keepaliveTimeout := lifetime, resumeToken := resumeToken,
           metadataMimetype := metadataMimetype, dataMimetype := dataMimetype,
           payload := payload }

/-- setup.rs:63-65 -/
def isLease (f : SetupFrame) : Bool := f.flags.contains Flags.LEASE
/-- setup.rs:68-70 -/
def isResume (f : SetupFrame) : Bool := f.flags.contains Flags.RESUME

end SetupFrame

/-- The bytes of an ASCII string literal (`Bytes::from("...")`). Used at setup.rs:244-245. -/
def asciiBytes (cs : List Char) : Bytes := cs.map (fun c => BitVec.ofNat 8 c.toNat)

/-- binate/src/mimetype.rs:4 `DEFAULT_MIMETYPE = "application/binary"`. -/
def DEFAULT_MIMETYPE : Bytes :=
  asciiBytes ['a','p','p','l','i','c','a','t','i','o','n','/','b','i','n','a','r','y']

/-- The calls available on `SetupFrameBuilder`, setup.rs:253-357. `String` arguments are their
UTF-8 bytes. -/
inductive SetupCall where
  | setResumeFlag
  | setLeaseFlag
  | setVersion (major minor : U16)
  | setKeepaliveInterval (interval : U32)
  | setKeepaliveTimeout (timeout : U32)
  | setResumeToken (token : Bytes)
  | setMetadataMimetype (mimetype : Bytes)
  | setDataMimetype (mimetype : Bytes)
  | setMetadata (metadata : Bytes)
  | setData (data : Bytes)
deriving DecidableEq, Repr

namespace SetupFrameBuilder

/-- setup.rs:225-249 `SetupFrameBuilder::default()`. The builder has the same fields as the
frame. -/
def default : SetupFrame :=
  { flags := Flags.empty
    version := Version.default
    keepaliveInterval := BitVec.ofNat 32 DEFAULT_KEEPALIVE_INTERVAL.asMillis
    keepaliveTimeout := BitVec.ofNat 32 DEFAULT_KEEPALIVE_TIMEOUT.asMillis
    resumeToken := none
    metadataMimetype := DEFAULT_MIMETYPE
    dataMimetype := DEFAULT_MIMETYPE
    payload := Payload.default }

/-- One builder call, setup.rs:253-357. -/
def apply (dbg : Bool) (b : SetupFrame) : SetupCall → Outcome SetupFrame
  | .setResumeFlag => .ok { b with flags := b.flags.union Flags.RESUME }
  | .setLeaseFlag => .ok { b with flags := b.flags.union Flags.LEASE }
  | .setVersion major minor => .ok { b with version := Version.new major minor }
  | .setKeepaliveInterval interval => do
    debugAssertMaxU31 dbg "interval" interval
    .ok { b with keepaliveInterval := interval &&& MAX_U31 }
  | .setKeepaliveTimeout timeout => do
    debugAssertMaxU31 dbg "timeout" timeout
    .ok { b with keepaliveTimeout := timeout &&& MAX_U31 }
  | .setResumeToken token => do
    Outcome.assert (token.length ≤ 65535) "assertion failed: token.len() <= 65_535"
    .ok { b with resumeToken := some token, flags := b.flags.union Flags.RESUME }
  | .setMetadataMimetype mimetype => do
    Outcome.assert (mimetype.length ≤ 256) "assertion failed: mimetype.len() <= 256"
    .ok { b with metadataMimetype := mimetype }
  | .setDataMimetype mimetype => do
    Outcome.assert (mimetype.length ≤ 256) "assertion failed: mimetype.len() <= 256"
    .ok { b with dataMimetype := mimetype }
  | .setMetadata metadata =>
    .ok { b with flags := b.flags.union Flags.METADATA
                 payload := { b.payload with metadata := some metadata } }
  | .setData data => .ok { b with payload := { b.payload with data := some data } }

/-- A chain of builder calls starting from a builder state. The methods are setup.rs:253-357. -/
def run (dbg : Bool) (b : SetupFrame) : List SetupCall → Outcome SetupFrame
  | [] => .ok b
  | c :: cs => do
    let b' ← apply dbg b c
    run dbg b' cs

/-- `SetupFrame::builder()`, the calls, then `.build()` (setup.rs:58-60, 360-371). -/
def build (dbg : Bool) (calls : List SetupCall) : Outcome SetupFrame := run dbg default calls

end SetupFrameBuilder

/-! ## LEASE -/

/-- binate/src/frame/codec/lease.rs:29-33 `LeaseFrame`. -/
structure LeaseFrame where
  ttl : U32
  numberOfRequests : U32
  metadata : Option Bytes
deriving DecidableEq, Repr

namespace LeaseFrame

/-- lease.rs:43-50 `new` (no masking). -/
def new (dbg : Bool) (ttl numberOfRequests : U32) (metadata : Option Bytes) :
    Outcome LeaseFrame := do
  debugAssertMaxU31 dbg "ttl" ttl
  debugAssertMaxU31 dbg "number_of_requests" numberOfRequests
  .ok ⟨ttl, numberOfRequests, metadata⟩

/-- lease.rs:69-81 `encode`. -/
def encode (f : LeaseFrame) (buf : Bytes) : Outcome Bytes :=
  let buf := putU32 buf 0#32
  let buf := if f.metadata.isSome
    then putU16 buf (FrameType.LEASE.bits ||| Flags.METADATA.bits)
    else putU16 buf FrameType.LEASE.bits
  let buf := putU32 buf f.ttl
  let buf := putU32 buf f.numberOfRequests
  .ok (putOpt buf f.metadata)

/-- lease.rs:83-95 `len`. -/
def len (f : LeaseFrame) : Nat := 14 + optLen f.metadata

/-- lease.rs:101-119 `decode`. -/
def decode {β : Type} [Buf β] (streamId : U32) (_flags : Flags) : Dec β LeaseFrame := do
  if streamId ≠ 0#32 then Dec.fail (.invalidStreamId "0" streamId)
  else
    let ttl ← eatU31
    let numberOfRequests ← eatU31
    let metadata ← eatRest
    return ⟨ttl, numberOfRequests, metadata⟩

end LeaseFrame

/-! ## KEEPALIVE -/

/-- binate/src/frame/codec/keepalive.rs:25-29 `KeepaliveFrame`. -/
structure KeepaliveFrame where
  respond : Bool
  lastReceivedPosition : U64
  data : Option Bytes
deriving DecidableEq, Repr

namespace KeepaliveFrame

/-- keepalive.rs:41-52 `new`. -/
def new (dbg : Bool) (lastReceivedPosition : U64) (data : Option Bytes) (respond : Bool) :
    Outcome KeepaliveFrame := do
  debugAssertMaxU63 dbg "last_received_position" lastReceivedPosition
  .ok ⟨respond, lastReceivedPosition &&& MAX_U63, data⟩

/-- keepalive.rs:71-82 `encode`. -/
def encode (f : KeepaliveFrame) (buf : Bytes) : Outcome Bytes :=
  let buf := putU32 buf 0#32
  let buf := if f.respond
    then putU16 buf (FrameType.KEEPALIVE.bits ||| Flags.RESPOND.bits)
    else putU16 buf FrameType.KEEPALIVE.bits
  let buf := putU64 buf f.lastReceivedPosition
  .ok (putOpt buf f.data)

/-- keepalive.rs:84-95 `len`. -/
def len (f : KeepaliveFrame) : Nat := 14 + optLen f.data

/-- keepalive.rs:101-119 `decode`. -/
def decode {β : Type} [Buf β] (streamId : U32) (flags : Flags) : Dec β KeepaliveFrame := do
  if streamId ≠ 0#32 then Dec.fail (.invalidStreamId "0" streamId)
  else
    let respond := flags.contains Flags.RESPOND
    let lastReceivedPosition ← eatU63
    let data ← eatRest
    return ⟨respond, lastReceivedPosition, data⟩

end KeepaliveFrame

/-! ## REQUEST_RESPONSE -/

/-- binate/src/frame/codec/request_response.rs:21-25 `RequestResponseFrame`. -/
structure RequestResponseFrame where
  streamId : U32
  flags : Flags
  payload : Payload
deriving DecidableEq, Repr

namespace RequestResponseFrame

/-- request_response.rs:35-46 `new`. -/
def new (dbg : Bool) (streamId : U32) (follows : Bool) (payload : Payload) :
    Outcome RequestResponseFrame := do
  debugAssertMaxU31 dbg "stream_id" streamId
  let streamId := streamId &&& MAX_U31
  let flags := Flags.empty
  let flags := if follows then flags.union Flags.FOLLOWS else flags
  let flags := if payload.hasMetadata then flags.union Flags.METADATA else flags
  .ok ⟨streamId, flags, payload⟩

/-- request_response.rs:54-56 -/
def isFollows (f : RequestResponseFrame) : Bool := f.flags.contains Flags.FOLLOWS

/-- request_response.rs:75-84 `encode`. -/
def encode (f : RequestResponseFrame) (buf : Bytes) : Outcome Bytes := do
  let buf := putU32 buf f.streamId
  let buf := putU16 buf (FrameType.REQUEST_RESPONSE.bits ||| f.flags.bits)
  encodePayloadWithLen f.payload buf

/-- request_response.rs:86-92 `len`. -/
def len (f : RequestResponseFrame) : Nat := 9 + f.payload.len

/-- request_response.rs:98-105 `decode`. -/
def decode {β : Type} [Buf β] (streamId : U32) (flags : Flags) :
    Dec β RequestResponseFrame := do
  let payload ← eatPayload true
  return ⟨streamId, flags, payload⟩

end RequestResponseFrame

/-! ## REQUEST_FNF -/

/-- binate/src/frame/codec/request_fnf.rs:21-25 `RequestFnfFrame`. -/
structure RequestFnfFrame where
  streamId : U32
  flags : Flags
  payload : Payload
deriving DecidableEq, Repr

namespace RequestFnfFrame

/-- request_fnf.rs:35-46 `new`. -/
def new (dbg : Bool) (streamId : U32) (follows : Bool) (payload : Payload) :
    Outcome RequestFnfFrame := do
  debugAssertMaxU31 dbg "stream_id" streamId
  let streamId := streamId &&& MAX_U31
  let flags := Flags.empty
  let flags := if follows then flags.union Flags.FOLLOWS else flags
  let flags := if payload.hasMetadata then flags.union Flags.METADATA else flags
  .ok ⟨streamId, flags, payload⟩

/-- request_fnf.rs:54-56 -/
def isFollows (f : RequestFnfFrame) : Bool := f.flags.contains Flags.FOLLOWS

/-- request_fnf.rs:75-84 `encode`. -/
def encode (f : RequestFnfFrame) (buf : Bytes) : Outcome Bytes := do
  let buf := putU32 buf f.streamId
  let buf := putU16 buf (FrameType.REQUEST_FNF.bits ||| f.flags.bits)
  encodePayloadWithLen f.payload buf

/-- request_fnf.rs:86-92 `len`. -/
def len (f : RequestFnfFrame) : Nat := 9 + f.payload.len

/-- request_fnf.rs:98-105 `decode`. -/
def decode {β : Type} [Buf β] (streamId : U32) (flags : Flags) : Dec β RequestFnfFrame := do
  let payload ← eatPayload true
  return ⟨streamId, flags, payload⟩

end RequestFnfFrame

/-! ## REQUEST_STREAM -/

/-- binate/src/frame/codec/request_stream.rs:23-28 `RequestStreamFrame`. -/
structure RequestStreamFrame where
  streamId : U32
  flags : Flags
  initialRequestN : U32
  payload : Payload
deriving DecidableEq, Repr

namespace RequestStreamFrame

/-- request_stream.rs:39-57 `new`. -/
def new (dbg : Bool) (streamId : U32) (follows : Bool) (initialRequestN : U32)
    (payload : Payload) : Outcome RequestStreamFrame := do
  debugAssertMaxU31 dbg "stream_id" streamId
  debugAssertMaxU31 dbg "initial_request_n" initialRequestN
  debugAssertNonZero dbg "initial_request_n" initialRequestN
  let streamId := streamId &&& MAX_U31
  let flags := Flags.empty
  let flags := if follows then flags.union Flags.FOLLOWS else flags
  let flags := if payload.hasMetadata then flags.union Flags.METADATA else flags
  let initialRequestN := initialRequestN &&& MAX_U31
  .ok ⟨streamId, flags, initialRequestN, payload⟩

/-- request_stream.rs:65-67 -/
def isFollows (f : RequestStreamFrame) : Bool := f.flags.contains Flags.FOLLOWS

/-- request_stream.rs:91-101 `encode`. -/
def encode (f : RequestStreamFrame) (buf : Bytes) : Outcome Bytes := do
  let buf := putU32 buf f.streamId
  let buf := putU16 buf (FrameType.REQUEST_STREAM.bits ||| f.flags.bits)
  let buf := putU32 buf f.initialRequestN
  encodePayloadWithLen f.payload buf

/-- request_stream.rs:103-110 `len`. -/
def len (f : RequestStreamFrame) : Nat := 13 + f.payload.len

/-- request_stream.rs:116-124 `decode`. -/
def decode {β : Type} [Buf β] (streamId : U32) (flags : Flags) : Dec β RequestStreamFrame := do
  let initialRequestN ← eatU31
  let payload ← eatPayload true
  return ⟨streamId, flags, initialRequestN, payload⟩

end RequestStreamFrame

/-! ## REQUEST_CHANNEL -/

/-- binate/src/frame/codec/request_channel.rs:23-28 `RequestChannelFrame`. -/
structure RequestChannelFrame where
  streamId : U32
  flags : Flags
  initialRequestN : U32
  payload : Payload
deriving DecidableEq, Repr

namespace RequestChannelFrame

/-- request_channel.rs:41-63 `new`. -/
def new (dbg : Bool) (streamId : U32) (follows complete : Bool) (initialRequestN : U32)
    (payload : Payload) : Outcome RequestChannelFrame := do
  debugAssertMaxU31 dbg "stream_id" streamId
  debugAssertMaxU31 dbg "initial_request_n" initialRequestN
  debugAssertNonZero dbg "initial_request_n" initialRequestN
  let streamId := streamId &&& MAX_U31
  let flags := Flags.empty
  let flags := if follows then flags.union Flags.FOLLOWS else flags
  let flags := if complete then flags.union Flags.COMPLETE else flags
  let flags := if payload.hasMetadata then flags.union Flags.METADATA else flags
  let initialRequestN := initialRequestN &&& MAX_U31
  .ok ⟨streamId, flags, initialRequestN, payload⟩

/-- request_channel.rs:71-73 -/
def isFollows (f : RequestChannelFrame) : Bool := f.flags.contains Flags.FOLLOWS
/-- request_channel.rs:76-78 -/
def isComplete (f : RequestChannelFrame) : Bool := f.flags.contains Flags.COMPLETE

/-- request_channel.rs:102-112 `encode`. -/
def encode (f : RequestChannelFrame) (buf : Bytes) : Outcome Bytes := do
  let buf := putU32 buf f.streamId
  let buf := putU16 buf (FrameType.REQUEST_CHANNEL.bits ||| f.flags.bits)
  let buf := putU32 buf f.initialRequestN
  encodePayloadWithLen f.payload buf

/-- request_channel.rs:114-121 `len`. -/
def len (f : RequestChannelFrame) : Nat := 13 + f.payload.len

/-- request_channel.rs:127-140 `decode`. -/
def decode {β : Type} [Buf β] (streamId : U32) (flags : Flags) :
    Dec β RequestChannelFrame := do
  let initialRequestN ← eatU31
  let payload ← eatPayload true
  return ⟨streamId, flags, initialRequestN, payload⟩

end RequestChannelFrame

/-! ## REQUEST_N -/

/-- binate/src/frame/codec/request_n.rs:22-25 `RequestNFrame`. -/
structure RequestNFrame where
  streamId : U32
  requestN : U32
deriving DecidableEq, Repr

namespace RequestNFrame

/-- request_n.rs:36-42 `new`. -/
def new (dbg : Bool) (streamId requestN : U32) : Outcome RequestNFrame := do
  debugAssertMaxU31 dbg "stream_id" streamId
  debugAssertMaxU31 dbg "request_n" requestN
  debugAssertNonZero dbg "request_n" requestN
  let streamId := streamId &&& MAX_U31
  let requestN := requestN &&& MAX_U31
  .ok ⟨streamId, requestN⟩

/-- request_n.rs:56-60 `encode`. -/
def encode (f : RequestNFrame) (buf : Bytes) : Outcome Bytes :=
  let buf := putU32 buf f.streamId
  let buf := putU16 buf FrameType.REQUEST_N.bits
  .ok (putU32 buf f.requestN)

/-- request_n.rs:62-67 `len`. -/
def len (_ : RequestNFrame) : Nat := 10

/-- request_n.rs:73-80 `decode`. -/
def decode {β : Type} [Buf β] (streamId : U32) (_flags : Flags) : Dec β RequestNFrame := do
  let requestN ← eatU31
  return ⟨streamId, requestN⟩

end RequestNFrame

/-! ## CANCEL -/

/-- binate/src/frame/codec/cancel.rs:20-22 `CancelFrame`. -/
structure CancelFrame where
  streamId : U32
deriving DecidableEq, Repr

namespace CancelFrame

/-- cancel.rs:31-35 `new`. -/
def new (dbg : Bool) (streamId : U32) : Outcome CancelFrame := do
  debugAssertMaxU31 dbg "stream_id" streamId
  .ok ⟨streamId &&& MAX_U31⟩

/-- cancel.rs:44-47 `encode`. -/
def encode (f : CancelFrame) (buf : Bytes) : Outcome Bytes :=
  let buf := putU32 buf f.streamId
  .ok (putU16 buf FrameType.CANCEL.bits)

/-- cancel.rs:49-53 `len`. -/
def len (_ : CancelFrame) : Nat := 6

/-- cancel.rs:59-65 `decode`. -/
def decode {β : Type} [Buf β] (streamId : U32) (_flags : Flags) : Dec β CancelFrame :=
  return ⟨streamId⟩

end CancelFrame

/-! ## PAYLOAD -/

/-- binate/src/frame/codec/payload.rs:21-25 `PayloadFrame`. -/
structure PayloadFrame where
  streamId : U32
  flags : Flags
  payload : Payload
deriving DecidableEq, Repr

namespace PayloadFrame

/-- codec/payload.rs:44-52 `new`: only F, C and N are taken from the caller's flags. -/
def new (dbg : Bool) (streamId : U32) (flags : Flags) (payload : Payload) :
    Outcome PayloadFrame := do
  debugAssertMaxU31 dbg "stream_id" streamId
  let streamId := streamId &&& MAX_U31
  let flags := flags.inter ((Flags.FOLLOWS.union Flags.COMPLETE).union Flags.NEXT)
  let flags := if payload.hasMetadata then flags.union Flags.METADATA else flags
  .ok ⟨streamId, flags, payload⟩

/-- codec/payload.rs:60-62 -/
def isFollows (f : PayloadFrame) : Bool := f.flags.contains Flags.FOLLOWS
/-- codec/payload.rs:65-67 -/
def isComplete (f : PayloadFrame) : Bool := f.flags.contains Flags.COMPLETE
/-- codec/payload.rs:70-72 -/
def isNext (f : PayloadFrame) : Bool := f.flags.contains Flags.NEXT

/-- codec/payload.rs:91-100 `encode`. -/
def encode (f : PayloadFrame) (buf : Bytes) : Outcome Bytes := do
  let buf := putU32 buf f.streamId
  let buf := putU16 buf (FrameType.PAYLOAD.bits ||| f.flags.bits)
  encodePayloadWithLen f.payload buf

/-- codec/payload.rs:102-108 `len`. -/
def len (f : PayloadFrame) : Nat := 9 + f.payload.len

/-- codec/payload.rs:114-121 `decode`. -/
def decode {β : Type} [Buf β] (streamId : U32) (flags : Flags) : Dec β PayloadFrame := do
  let payload ← eatPayload true
  return ⟨streamId, flags, payload⟩

end PayloadFrame

/-! ## ERROR -/

/-- binate/src/frame/codec/error.rs:36-40 `ErrorFrame`. -/
structure ErrorFrame where
  streamId : U32
  code : U32
  data : Option Bytes
deriving DecidableEq, Repr

namespace ErrorFrame

/-- codec/error.rs:47 -/
def INVALID_SETUP : U32 := 0x00000001#32
/-- codec/error.rs:52 -/
def UNSUPPORTED_SETUP : U32 := 0x00000002#32
/-- codec/error.rs:57 -/
def REJECTED_SETUP : U32 := 0x00000003#32
/-- codec/error.rs:62 -/
def REJECTED_RESUME : U32 := 0x00000004#32
/-- codec/error.rs:68 -/
def CONNECTION_ERROR : U32 := 0x00000101#32
/-- codec/error.rs:74 -/
def CONNECTION_CLOSE : U32 := 0x00000102#32
/-- codec/error.rs:81 -/
def APPLICATION_ERROR : U32 := 0x00000201#32
/-- codec/error.rs:87 -/
def REJECTED : U32 := 0x00000202#32
/-- codec/error.rs:93 -/
def CANCELED : U32 := 0x00000203#32
/-- codec/error.rs:96 -/
def INVALID : U32 := 0x00000204#32
/-- codec/error.rs:99 -/
def MIN_APPLICATION_ERROR_CODE : U32 := 0x00000301#32
/-- codec/error.rs:102 -/
def MAX_APPLICATION_ERROR_CODE : U32 := 0xFFFFFFFE#32

/-- codec/error.rs:113-121 `new`. -/
def new (dbg : Bool) (streamId errorCode : U32) (data : Option Bytes) : Outcome ErrorFrame := do
  debugAssertMaxU31 dbg "stream_id" streamId
  debugAssertMaxU31 dbg "error_code" errorCode
  .ok ⟨streamId &&& MAX_U31, errorCode &&& MAX_U31, data⟩

/-- codec/error.rs:146-153 `encode`. -/
def encode (f : ErrorFrame) (buf : Bytes) : Outcome Bytes :=
  let buf := putU32 buf f.streamId
  let buf := putU16 buf FrameType.ERROR.bits
  let buf := putU32 buf f.code
  .ok (putOpt buf f.data)

/-- codec/error.rs:155-167 `len`. -/
def len (f : ErrorFrame) : Nat := 10 + optLen f.data

/-- codec/error.rs:188-218 `validate_stream_id`: `some e` is `Err(e)`. -/
def validateStreamId (streamId code : U32) : Option DecodeError :=
  if code = INVALID_SETUP ∨ code = UNSUPPORTED_SETUP ∨ code = REJECTED_SETUP ∨
      code = REJECTED_RESUME ∨ code = CONNECTION_ERROR ∨ code = CONNECTION_CLOSE then
    if streamId ≠ 0#32 then some (.invalidStreamId "0" streamId) else none
  else if code = APPLICATION_ERROR ∨ code = REJECTED ∨ code = CANCELED ∨ code = INVALID then
    if streamId = 0#32 then some (.invalidStreamId "> 0" streamId) else none
  else none

/-- codec/error.rs:173-185 `decode`. -/
def decode {β : Type} [Buf β] (streamId : U32) (_flags : Flags) : Dec β ErrorFrame := do
  let code ← eatU32
  match validateStreamId streamId code with
  | some e => Dec.fail e
  | none =>
    let data ← eatRest
    return ⟨streamId, code, data⟩

end ErrorFrame

/-! ## METADATA_PUSH -/

/-- binate/src/frame/codec/metadata_push.rs:24-26 `MetadataPushFrame`. -/
structure MetadataPushFrame where
  metadata : Bytes
deriving DecidableEq, Repr

namespace MetadataPushFrame

/-- metadata_push.rs:36-38 `new`. -/
def new (metadata : Bytes) : MetadataPushFrame := ⟨metadata⟩

/-- metadata_push.rs:47-51 `encode`. -/
def encode (f : MetadataPushFrame) (buf : Bytes) : Outcome Bytes :=
  let buf := putU32 buf 0#32
  let buf := putU16 buf (FrameType.METADATA_PUSH.bits ||| Flags.METADATA.bits)
  .ok (putSlice buf f.metadata)

/-- metadata_push.rs:53-58 `len`. -/
def len (f : MetadataPushFrame) : Nat := 6 + f.metadata.length

/-- metadata_push.rs:64-71 `decode`. -/
def decode {β : Type} [Buf β] (_streamId : U32) (_flags : Flags) : Dec β MetadataPushFrame := do
  let n ← remainingD
  let metadata ← eatBytes n
  return ⟨metadata⟩

end MetadataPushFrame

/-! ## RESUME -/

/-- binate/src/frame/codec/resume.rs:32-37 `ResumeFrame`. -/
structure ResumeFrame where
  version : Version
  resumeToken : Bytes
  lastReceivedServerPosition : U64
  firstAvailableClientPosition : U64
deriving DecidableEq, Repr

namespace ResumeFrame

/-- resume.rs:48-67 `new` (the token length is not checked). -/
def new (dbg : Bool) (version : Version) (resumeToken : Bytes)
    (lastReceivedServerPosition firstAvailableClientPosition : U64) : Outcome ResumeFrame := do
  debugAssertMaxU63 dbg "last_received_server_position" lastReceivedServerPosition
  debugAssertMaxU63 dbg "first_available_client_position" firstAvailableClientPosition
  .ok ⟨version, resumeToken, lastReceivedServerPosition &&& MAX_U63,
       firstAvailableClientPosition &&& MAX_U63⟩

/-- resume.rs:91-99 `encode`; the token length is truncated by `as u16`. -/
def encode (f : ResumeFrame) (buf : Bytes) : Outcome Bytes :=
  let buf := putU32 buf 0#32
  let buf := putU16 buf FrameType.RESUME.bits
  let buf := f.version.encode buf
  let buf := putU16 buf (BitVec.ofNat 16 f.resumeToken.length)
  let buf := putSlice buf f.resumeToken
  let buf := putU64 buf f.lastReceivedServerPosition
  .ok (putU64 buf f.firstAvailableClientPosition)

/-- resume.rs:101-110 `len`. -/
def len (f : ResumeFrame) : Nat := 12 + f.resumeToken.length + 16

/-- resume.rs:116-132 `decode`. -/
def decode {β : Type} [Buf β] (_streamId : U32) (_flags : Flags) : Dec β ResumeFrame := do
  let version ← eatVersion
  let tokenLen ← eatU16
  let resumeToken ← eatBytes tokenLen.toNat
  let lastReceivedServerPosition ← eatU63
  let firstAvailableClientPosition ← eatU63
  return ⟨version, resumeToken, lastReceivedServerPosition, firstAvailableClientPosition⟩

end ResumeFrame

/-! ## RESUME_OK -/

/-- binate/src/frame/codec/resume_ok.rs:24-26 `ResumeOkFrame`. -/
structure ResumeOkFrame where
  lastReceivedClientPosition : U64
deriving DecidableEq, Repr

namespace ResumeOkFrame

/-- resume_ok.rs:36-40 `new`. -/
def new (dbg : Bool) (lastReceivedClientPosition : U64) : Outcome ResumeOkFrame := do
  debugAssertMaxU63 dbg "last_received_client_position" lastReceivedClientPosition
  .ok ⟨lastReceivedClientPosition &&& MAX_U63⟩

/-- resume_ok.rs:49-53 `encode`. -/
def encode (f : ResumeOkFrame) (buf : Bytes) : Outcome Bytes :=
  let buf := putU32 buf 0#32
  let buf := putU16 buf FrameType.RESUME_OK.bits
  .ok (putU64 buf f.lastReceivedClientPosition)

/-- resume_ok.rs:55-60 `len`. -/
def len (_ : ResumeOkFrame) : Nat := 14

/-- resume_ok.rs:66-73 `decode`. -/
def decode {β : Type} [Buf β] (_streamId : U32) (_flags : Flags) : Dec β ResumeOkFrame := do
  let lastReceivedClientPosition ← eatU63
  return ⟨lastReceivedClientPosition⟩

end ResumeOkFrame

end Binate
