import Verif.Model.Debug
import Verif.Model.Chunks
import Verif.Model.Counter
import Verif.Model.StreamId
import Verif.Model.Socket
import Verif.Model.Error

/-! # `Debug` output with `{:#?}`, and `Debug` of the other types

`#[derive(Debug)]` calls `debug_struct` or `debug_tuple` on the formatter and passes the fields in
the order of the declaration; a variant or struct without fields only writes its name. What it passes
is kept here as a tree; `plain` and `pretty` are the two forms that `core::fmt::builders` makes of it. -/

namespace Binate

mutual

/-- What a value passes to the formatter. By the derives, for example at frame/mod.rs:33. -/
inductive DebugTree where
  /-- a text; the second one is written under the alternate flag `#` -/
  | text (plain alternate : Text)
  /-- `debug_struct(name)` (braces) or `debug_tuple(name)` with fields -/
  | node (name : Text) (braces : Bool) (fields : DebugFields)

/-- The calls of `field`: the name with a colon for `debug_struct`, nothing for `debug_tuple`. By the
derives, for example at request_n.rs:21. -/
inductive DebugFields where
  | nil
  | cons (label : Text) (value : DebugTree) (rest : DebugFields)

end

/-- core/src/fmt/builders.rs `PadAdapter`: four spaces at the beginning of each line. The first
argument tells whether a new line has begun. Used by the derives, for example at request_n.rs:21. -/
def padAdapter : Bool → Text → Text
  | _, [] => []
  | true, c :: s => "    ".toList ++ c :: padAdapter (c == '\n') s
  | false, c :: s => c :: padAdapter (c == '\n') s

mutual

/-- `{:?}`. Used by the derives, for example at request_n.rs:21. -/
def DebugTree.plain : DebugTree → Text
  | .text p _ => p
  | .node name _ .nil => name
  | .node name true (.cons l v r) =>
    name ++ " { ".toList ++ DebugFields.plain (.cons l v r) ++ " }".toList
  | .node name false (.cons l v r) =>
    name ++ "(".toList ++ DebugFields.plain (.cons l v r) ++ ")".toList

/-- The fields in `{:?}`. Used by the derives, for example at request_n.rs:21. -/
def DebugFields.plain : DebugFields → Text
  | .nil => []
  | .cons l v .nil => l ++ v.plain
  | .cons l v (.cons l' v' r) => l ++ v.plain ++ ", ".toList ++ DebugFields.plain (.cons l' v' r)

end

mutual

/-- `{:#?}`. Used by the derives, for example at request_n.rs:21. -/
def DebugTree.pretty : DebugTree → Text
  | .text _ a => a
  | .node name _ .nil => name
  | .node name true (.cons l v r) =>
    name ++ " {\n".toList ++ DebugFields.pretty (.cons l v r) ++ "}".toList
  | .node name false (.cons l v r) =>
    name ++ "(\n".toList ++ DebugFields.pretty (.cons l v r) ++ ")".toList

/-- The fields in `{:#?}`: each goes through its own `PadAdapter`. Used by the derives, for example at
request_n.rs:21. -/
def DebugFields.pretty : DebugFields → Text
  | .nil => []
  | .cons l v r => padAdapter true (l ++ v.pretty ++ ",\n".toList) ++ r.pretty

end

namespace DebugTree

/-- A text that does not depend on the form. For example a field of type `Bytes`, payload.rs:29-30. -/
def same (t : Text) : DebugTree := .text t t

/-- `debug_struct`. Used by the derives, for example at request_n.rs:21. -/
def struct (name : Text) (fields : List (Text × DebugTree)) : DebugTree :=
  .node name true (fields.foldr (fun f r => .cons (f.1 ++ ": ".toList) f.2 r) .nil)

/-- `debug_tuple`. Used by the derives, for example at u24.rs:6, and at error.rs:233-242. -/
def tuple (name : Text) (values : List DebugTree) : DebugTree :=
  .node name false (values.foldr (fun v r => .cons [] v r) .nil)

end DebugTree

/-- An unsigned integer; `#` only adds a prefix to other bases. Used for example by the derive at
request_n.rs:21. -/
def debugNumber (n : Nat) : DebugTree := .same (debugNat n)

/-- A signed integer. Used by the derives at counter.rs:6 and stream_id.rs:12. -/
def debugInt (i : Int) : Text := if i < 0 then '-' :: debugNat i.natAbs else debugNat i.natAbs

/-- `Option<Bytes>`; `Bytes` writes the same in both forms. Used for example by the derive at
payload.rs:27. -/
def debugOptionTree : Option Bytes → DebugTree
  | some b => .tuple "Some".toList [.same (debugBytes b)]
  | none => .same "None".toList

/-- bitflags `Debug` under the alternate flag: the bits that are not declared get the prefix `0x` from
bitflags and another one from `LowerHex`. The flags are declared at flags.rs:154-174. -/
def Flags.debugAlternate (f : Flags) : Text :=
  let extra := f.bits &&& ~~~ all.bits
  match (declared.filter fun d => f.contains d.2).map (·.1) ++
      (if extra = 0#16 then [] else ["0x0x".toList ++ Nat.toDigits 16 extra.toNat]) with
  | [] => "(empty)".toList
  | parts => List.intercalate " | ".toList parts

/-- flags.rs:157-172 -/
def Flags.debugTree (f : Flags) : DebugTree := .text f.debugText f.debugAlternate

/-- version.rs:7-11 -/
def Version.debugTree (v : Version) : DebugTree :=
  .struct "Version".toList
    [("major".toList, debugNumber v.major.toNat), ("minor".toList, debugNumber v.minor.toNat)]

/-- u24.rs:6-7 -/
def U24.debugTree (u : U24) : DebugTree :=
  .tuple "U24".toList [debugNumber u.hi.toNat, debugNumber u.lo.toNat]

/-- payload.rs:27-31 -/
def Payload.debugTree (p : Payload) : DebugTree :=
  .struct "Payload".toList
    [("metadata".toList, debugOptionTree p.metadata), ("data".toList, debugOptionTree p.data)]

/-- setup.rs:38-48 -/
def SetupFrame.debugTree (f : SetupFrame) : DebugTree :=
  .struct "SetupFrame".toList
    [("flags".toList, f.flags.debugTree), ("version".toList, f.version.debugTree),
     ("keepalive_interval".toList, debugNumber f.keepaliveInterval.toNat),
     ("keepalive_timeout".toList, debugNumber f.keepaliveTimeout.toNat),
     ("resume_token".toList, debugOptionTree f.resumeToken),
     ("metadata_mimetype".toList, .same (debugBytes f.metadataMimetype)),
     ("data_mimetype".toList, .same (debugBytes f.dataMimetype)),
     ("payload".toList, f.payload.debugTree)]

/-- codec/error.rs:35-40 -/
def ErrorFrame.debugTree (f : ErrorFrame) : DebugTree :=
  .struct "ErrorFrame".toList
    [("stream_id".toList, debugNumber f.streamId.toNat),
     ("code".toList, debugNumber f.code.toNat), ("data".toList, debugOptionTree f.data)]

/-- lease.rs:28-33 -/
def LeaseFrame.debugTree (f : LeaseFrame) : DebugTree :=
  .struct "LeaseFrame".toList
    [("ttl".toList, debugNumber f.ttl.toNat),
     ("number_of_requests".toList, debugNumber f.numberOfRequests.toNat),
     ("metadata".toList, debugOptionTree f.metadata)]

/-- keepalive.rs:24-29 -/
def KeepaliveFrame.debugTree (f : KeepaliveFrame) : DebugTree :=
  .struct "KeepaliveFrame".toList
    [("respond".toList, .same (debugBool f.respond)),
     ("last_received_position".toList, debugNumber f.lastReceivedPosition.toNat),
     ("data".toList, debugOptionTree f.data)]

/-- request_response.rs:20-25 -/
def RequestResponseFrame.debugTree (f : RequestResponseFrame) : DebugTree :=
  .struct "RequestResponseFrame".toList
    [("stream_id".toList, debugNumber f.streamId.toNat), ("flags".toList, f.flags.debugTree),
     ("payload".toList, f.payload.debugTree)]

/-- request_fnf.rs:20-25 -/
def RequestFnfFrame.debugTree (f : RequestFnfFrame) : DebugTree :=
  .struct "RequestFnfFrame".toList
    [("stream_id".toList, debugNumber f.streamId.toNat), ("flags".toList, f.flags.debugTree),
     ("payload".toList, f.payload.debugTree)]

/-- request_stream.rs:22-28 -/
def RequestStreamFrame.debugTree (f : RequestStreamFrame) : DebugTree :=
  .struct "RequestStreamFrame".toList
    [("stream_id".toList, debugNumber f.streamId.toNat), ("flags".toList, f.flags.debugTree),
     ("initial_request_n".toList, debugNumber f.initialRequestN.toNat),
     ("payload".toList, f.payload.debugTree)]

/-- request_channel.rs:22-28 -/
def RequestChannelFrame.debugTree (f : RequestChannelFrame) : DebugTree :=
  .struct "RequestChannelFrame".toList
    [("stream_id".toList, debugNumber f.streamId.toNat), ("flags".toList, f.flags.debugTree),
     ("initial_request_n".toList, debugNumber f.initialRequestN.toNat),
     ("payload".toList, f.payload.debugTree)]

/-- request_n.rs:21-25 -/
def RequestNFrame.debugTree (f : RequestNFrame) : DebugTree :=
  .struct "RequestNFrame".toList
    [("stream_id".toList, debugNumber f.streamId.toNat),
     ("request_n".toList, debugNumber f.requestN.toNat)]

/-- cancel.rs:19-22 -/
def CancelFrame.debugTree (f : CancelFrame) : DebugTree :=
  .struct "CancelFrame".toList
    [("stream_id".toList, debugNumber f.streamId.toNat)]

/-- codec/payload.rs:20-25 -/
def PayloadFrame.debugTree (f : PayloadFrame) : DebugTree :=
  .struct "PayloadFrame".toList
    [("stream_id".toList, debugNumber f.streamId.toNat), ("flags".toList, f.flags.debugTree),
     ("payload".toList, f.payload.debugTree)]

/-- metadata_push.rs:23-26 -/
def MetadataPushFrame.debugTree (f : MetadataPushFrame) : DebugTree :=
  .struct "MetadataPushFrame".toList
    [("metadata".toList, .same (debugBytes f.metadata))]

/-- resume.rs:31-37 -/
def ResumeFrame.debugTree (f : ResumeFrame) : DebugTree :=
  .struct "ResumeFrame".toList
    [("version".toList, f.version.debugTree),
     ("resume_token".toList, .same (debugBytes f.resumeToken)),
     ("last_received_server_position".toList, debugNumber f.lastReceivedServerPosition.toNat),
     ("first_available_client_position".toList, debugNumber f.firstAvailableClientPosition.toNat)]

/-- resume_ok.rs:23-26 -/
def ResumeOkFrame.debugTree (f : ResumeOkFrame) : DebugTree :=
  .struct "ResumeOkFrame".toList
    [("last_received_client_position".toList, debugNumber f.lastReceivedClientPosition.toNat)]

/-- frame/mod.rs:33-63 -/
def Frame.debugTree : Frame → DebugTree
  | .setup f => .tuple "Setup".toList [f.debugTree]
  | .error f => .tuple "Error".toList [f.debugTree]
  | .lease f => .tuple "Lease".toList [f.debugTree]
  | .keepalive f => .tuple "Keepalive".toList [f.debugTree]
  | .requestResponse f => .tuple "RequestResponse".toList [f.debugTree]
  | .requestFnf f => .tuple "RequestFnf".toList [f.debugTree]
  | .requestStream f => .tuple "RequestStream".toList [f.debugTree]
  | .requestChannel f => .tuple "RequestChannel".toList [f.debugTree]
  | .requestN f => .tuple "RequestN".toList [f.debugTree]
  | .cancel f => .tuple "Cancel".toList [f.debugTree]
  | .payload f => .tuple "Payload".toList [f.debugTree]
  | .metadataPush f => .tuple "MetadataPush".toList [f.debugTree]
  | .resume f => .tuple "Resume".toList [f.debugTree]
  | .resumeOk f => .tuple "ResumeOk".toList [f.debugTree]

/-- `format!("{:#?}", frame)`. The derive is at frame/mod.rs:33. -/
def Frame.debugPretty (f : Frame) : String := String.ofList f.debugTree.pretty

/-- `format!("{:?}", value)` and `format!("{:#?}", value)`. For the derives at counter.rs:6,
stream_id.rs:12, payload.rs:131, 190 and others. -/
def DebugTree.forms (t : DebugTree) : String × String :=
  (String.ofList t.plain, String.ofList t.pretty)

/-! ## The other types that derive `Debug` -/

/-- setup.rs:224-234; the builder has the fields of the frame. -/
def SetupFrameBuilder.debugTree (b : SetupFrame) : DebugTree :=
  .struct "SetupFrameBuilder".toList
    [("flags".toList, b.flags.debugTree), ("version".toList, b.version.debugTree),
     ("keepalive_interval".toList, debugNumber b.keepaliveInterval.toNat),
     ("keepalive_timeout".toList, debugNumber b.keepaliveTimeout.toNat),
     ("resume_token".toList, debugOptionTree b.resumeToken),
     ("metadata_mimetype".toList, .same (debugBytes b.metadataMimetype)),
     ("data_mimetype".toList, .same (debugBytes b.dataMimetype)),
     ("payload".toList, b.payload.debugTree)]

/-- payload.rs:131-132; the builder is the payload so far. -/
def PayloadBuilder.debugTree (p : Payload) : DebugTree :=
  .tuple "PayloadBuilder".toList [p.debugTree]

/-- payload.rs:190-195 -/
def PayloadChunks.debugTree (c : PayloadChunks) : DebugTree :=
  .struct "PayloadChunks".toList
    [("chunk_size".toList, debugNumber c.chunkSize), ("metadata".toList, debugOptionTree c.metadata),
     ("data".toList, debugOptionTree c.data)]

/-- counter.rs:6-7; `AtomicI32` shows the value of a `load`. -/
def RequestCounter.debugTree (c : RequestCounter) : DebugTree :=
  .tuple "RequestCounter".toList [.same (debugInt c.word.toInt)]

/-- stream_id.rs:12-13; `AtomicI32` shows the value of a `load`. -/
def StreamIdProvider.debugTree (p : StreamIdProvider) : DebugTree :=
  .tuple "StreamIdProvider".toList [.same (debugInt p.word.toInt)]

/-- flags.rs:5-36: the name of the variant. -/
def FrameType.debugTree : FrameType → DebugTree
  | .SETUP => .same "SETUP".toList
  | .LEASE => .same "LEASE".toList
  | .KEEPALIVE => .same "KEEPALIVE".toList
  | .REQUEST_RESPONSE => .same "REQUEST_RESPONSE".toList
  | .REQUEST_FNF => .same "REQUEST_FNF".toList
  | .REQUEST_STREAM => .same "REQUEST_STREAM".toList
  | .REQUEST_CHANNEL => .same "REQUEST_CHANNEL".toList
  | .REQUEST_N => .same "REQUEST_N".toList
  | .CANCEL => .same "CANCEL".toList
  | .PAYLOAD => .same "PAYLOAD".toList
  | .ERROR => .same "ERROR".toList
  | .METADATA_PUSH => .same "METADATA_PUSH".toList
  | .RESUME => .same "RESUME".toList
  | .RESUME_OK => .same "RESUME_OK".toList
  | .EXT => .same "EXT".toList

/-- conn.rs:38-50. `stringDebug` is the `Debug` of `String`. -/
def RSocketMachine.ConnectionStatus.debugTree (stringDebug : String → Text) :
    RSocketMachine.ConnectionStatus → DebugTree
  | .unconnected => .same "Unconnected".toList
  | .connecting => .same "Connecting".toList
  | .connected => .same "Connected".toList
  | .closed => .same "Closed".toList
  | .error msg => .tuple "Error".toList [.same (stringDebug msg)]

/-- decode.rs:20-35. The strings `expected` that the crate uses need no escaping (Model/Error). -/
def DecodeError.debugTree : DecodeError → DebugTree
  | .inComplete => .same "InComplete".toList
  | .unrecognizedFrameType v => .tuple "UnrecognizedFrameType".toList [debugNumber v.toNat]
  | .invalidStreamId expected found =>
    .struct "InvalidStreamId".toList
      [("expected".toList, .same ('"' :: (expected.toList ++ ['"']))),
       ("found".toList, debugNumber found.toNat)]

/-- error.rs:24-44 -/
def Kind.debugTree : Kind → DebugTree
  | .decode e => .tuple "Decode".toList [e.debugTree]
  | .invalidSetup => .same "InvalidSetup".toList
  | .unsupportedSetup => .same "UnsupportedSetup".toList
  | .rejectedSetup => .same "RejectedSetup".toList
  | .rejectedResume => .same "RejectedResume".toList
  | .connectionError => .same "ConnectionError".toList
  | .connectionClose => .same "ConnectionClose".toList
  | .applicationError => .same "ApplicationError".toList
  | .rejected => .same "Rejected".toList
  | .canceled => .same "Canceled".toList
  | .invalid => .same "Invalid".toList
  | .io => .same "Io".toList

/-- error.rs:233-242: `debug_tuple` with the kind and, if there is one, the source. `sourceDebug` is the
source's own `Debug`. -/
def Error.debugTree (sourceDebug : String → DebugTree) (e : Error) : DebugTree :=
  match e.source with
  | some source => .tuple "binate::Error".toList [e.kind.debugTree, sourceDebug source]
  | none => .tuple "binate::Error".toList [e.kind.debugTree]

/-- error.rs:47-48 -/
def Timeout.debugTree : DebugTree := .same "Timeout".toList

end Binate
