import Verif.Model.Frame

/-! # `Debug` output of frames

The text of `{:?}`. All frame types derive `Debug`, so the texts follow from the declarations cited
and from the conventions of `#[derive(Debug)]`: `Name { field: value, … }`, `Name(value)`, `Some(…)`,
`None`, `true`, `false`, decimal numbers. The alternative form `{:#?}` is in Model/Pretty. `Bytes` and
`Flags` have `Debug` from the crates `bytes` 1.0.1 (src/fmt/debug.rs) and `bitflags` 1.2.1
(`__impl_bitflags`); both are written down from their documentation and source. -/

namespace Binate

/-- The characters of a text. What `{:?}` writes, for example for the type at frame/mod.rs:33. -/
abbrev Text := List Char

/-- An unsigned integer. Used for example by the derive at request_n.rs:21. -/
def debugNat (n : Nat) : Text := Nat.toDigits 10 n

/-- `bool`. Used by the derive at keepalive.rs:24. -/
def debugBool (b : Bool) : Text := if b then "true".toList else "false".toList

/-- `Option`. Used for example by the derive at payload.rs:27. -/
def debugOption {α : Type} (d : α → Text) : Option α → Text
  | some a => "Some(".toList ++ d a ++ ")".toList
  | none => "None".toList

/-- The fields of a struct, in the order of the declaration. Used for example by the derive at
request_n.rs:21. -/
def debugFields : List (Text × Text) → Text
  | [] => []
  | [(name, value)] => name ++ ": ".toList ++ value
  | (name, value) :: rest => name ++ ": ".toList ++ value ++ ", ".toList ++ debugFields rest

/-- A struct with named fields. Used for example by the derive at request_n.rs:21. -/
def debugStruct (name : Text) (fields : List (Text × Text)) : Text :=
  name ++ " { ".toList ++ debugFields fields ++ " }".toList

/-- A variant of an enum that holds one value. Used by the derive at frame/mod.rs:33. -/
def debugVariant (name value : Text) : Text := name ++ "(".toList ++ value ++ ")".toList

/-- bytes, src/fmt/debug.rs: one byte of a `Bytes`. Used for example by the derive at payload.rs:27. -/
def debugByte (b : U8) : Text :=
  if b = 0x0A#8 then ['\\', 'n']
  else if b = 0x0D#8 then ['\\', 'r']
  else if b = 0x09#8 then ['\\', 't']
  else if b = 0x5C#8 ∨ b = 0x22#8 then ['\\', Char.ofNat b.toNat]
  else if b = 0#8 then ['\\', '0']
  else if 0x20#8 ≤ b ∧ b < 0x7F#8 then [Char.ofNat b.toNat]
  else ['\\', 'x', Nat.digitChar (b.toNat / 16), Nat.digitChar (b.toNat % 16)]

/-- bytes, src/fmt/debug.rs: `Bytes`. Used for example by the derive at payload.rs:27. -/
def debugBytes (b : Bytes) : Text := ['b', '"'] ++ b.flatMap debugByte ++ ['"']

namespace Flags

/-- flags.rs:157-172: the declared flags with their names, in the order of the declaration. -/
def declared : List (Text × Flags) :=
  [("IGNORE".toList, IGNORE), ("METADATA".toList, METADATA), ("FOLLOWS".toList, FOLLOWS),
   ("RESUME".toList, RESUME), ("RESPOND".toList, RESPOND), ("COMPLETE".toList, COMPLETE),
   ("LEASE".toList, LEASE), ("NEXT".toList, NEXT)]

/-- bitflags: what `Debug` writes between the bars: the names of the flags contained, then the bits
that are not declared, if any. The flags are declared at flags.rs:154-174. -/
def debugParts (f : Flags) : List Text :=
  (declared.filter fun d => f.contains d.2).map (·.1) ++
    (let extra := f.bits &&& ~~~ all.bits
     if extra = 0#16 then [] else ["0x".toList ++ Nat.toDigits 16 extra.toNat])

/-- bitflags `Debug`. The flags are declared at flags.rs:154-174. -/
def debugText (f : Flags) : Text :=
  match f.debugParts with
  | [] => "(empty)".toList
  | parts => List.intercalate " | ".toList parts

end Flags

/-- version.rs:7-11 -/
def Version.debugText (v : Version) : Text :=
  debugStruct "Version".toList
    [("major".toList, debugNat v.major.toNat), ("minor".toList, debugNat v.minor.toNat)]

/-- u24.rs:6-7 -/
def U24.debugText (u : U24) : Text :=
  "U24(".toList ++ debugNat u.hi.toNat ++ ", ".toList ++ debugNat u.lo.toNat ++ ")".toList

/-- payload.rs:27-31 -/
def Payload.debugText (p : Payload) : Text :=
  debugStruct "Payload".toList
    [("metadata".toList, debugOption debugBytes p.metadata),
     ("data".toList, debugOption debugBytes p.data)]

/-- setup.rs:38-48 -/
def SetupFrame.debugText (f : SetupFrame) : Text :=
  debugStruct "SetupFrame".toList
    [("flags".toList, f.flags.debugText), ("version".toList, f.version.debugText),
     ("keepalive_interval".toList, debugNat f.keepaliveInterval.toNat),
     ("keepalive_timeout".toList, debugNat f.keepaliveTimeout.toNat),
     ("resume_token".toList, debugOption debugBytes f.resumeToken),
     ("metadata_mimetype".toList, debugBytes f.metadataMimetype),
     ("data_mimetype".toList, debugBytes f.dataMimetype),
     ("payload".toList, f.payload.debugText)]

/-- codec/error.rs:35-40 -/
def ErrorFrame.debugText (f : ErrorFrame) : Text :=
  debugStruct "ErrorFrame".toList
    [("stream_id".toList, debugNat f.streamId.toNat), ("code".toList, debugNat f.code.toNat),
     ("data".toList, debugOption debugBytes f.data)]

/-- lease.rs:28-33 -/
def LeaseFrame.debugText (f : LeaseFrame) : Text :=
  debugStruct "LeaseFrame".toList
    [("ttl".toList, debugNat f.ttl.toNat),
     ("number_of_requests".toList, debugNat f.numberOfRequests.toNat),
     ("metadata".toList, debugOption debugBytes f.metadata)]

/-- keepalive.rs:24-29 -/
def KeepaliveFrame.debugText (f : KeepaliveFrame) : Text :=
  debugStruct "KeepaliveFrame".toList
    [("respond".toList, debugBool f.respond),
     ("last_received_position".toList, debugNat f.lastReceivedPosition.toNat),
     ("data".toList, debugOption debugBytes f.data)]

/-- request_response.rs:20-25 -/
def RequestResponseFrame.debugText (f : RequestResponseFrame) : Text :=
  debugStruct "RequestResponseFrame".toList
    [("stream_id".toList, debugNat f.streamId.toNat), ("flags".toList, f.flags.debugText),
     ("payload".toList, f.payload.debugText)]

/-- request_fnf.rs:20-25 -/
def RequestFnfFrame.debugText (f : RequestFnfFrame) : Text :=
  debugStruct "RequestFnfFrame".toList
    [("stream_id".toList, debugNat f.streamId.toNat), ("flags".toList, f.flags.debugText),
     ("payload".toList, f.payload.debugText)]

/-- request_stream.rs:22-28 -/
def RequestStreamFrame.debugText (f : RequestStreamFrame) : Text :=
  debugStruct "RequestStreamFrame".toList
    [("stream_id".toList, debugNat f.streamId.toNat), ("flags".toList, f.flags.debugText),
     ("initial_request_n".toList, debugNat f.initialRequestN.toNat),
     ("payload".toList, f.payload.debugText)]

/-- request_channel.rs:22-28 -/
def RequestChannelFrame.debugText (f : RequestChannelFrame) : Text :=
  debugStruct "RequestChannelFrame".toList
    [("stream_id".toList, debugNat f.streamId.toNat), ("flags".toList, f.flags.debugText),
     ("initial_request_n".toList, debugNat f.initialRequestN.toNat),
     ("payload".toList, f.payload.debugText)]

/-- request_n.rs:21-25 -/
def RequestNFrame.debugText (f : RequestNFrame) : Text :=
  debugStruct "RequestNFrame".toList
    [("stream_id".toList, debugNat f.streamId.toNat),
     ("request_n".toList, debugNat f.requestN.toNat)]

/-- cancel.rs:19-22 -/
def CancelFrame.debugText (f : CancelFrame) : Text :=
  debugStruct "CancelFrame".toList [("stream_id".toList, debugNat f.streamId.toNat)]

/-- codec/payload.rs:20-25 -/
def PayloadFrame.debugText (f : PayloadFrame) : Text :=
  debugStruct "PayloadFrame".toList
    [("stream_id".toList, debugNat f.streamId.toNat), ("flags".toList, f.flags.debugText),
     ("payload".toList, f.payload.debugText)]

/-- metadata_push.rs:23-26 -/
def MetadataPushFrame.debugText (f : MetadataPushFrame) : Text :=
  debugStruct "MetadataPushFrame".toList [("metadata".toList, debugBytes f.metadata)]

/-- resume.rs:31-37 -/
def ResumeFrame.debugText (f : ResumeFrame) : Text :=
  debugStruct "ResumeFrame".toList
    [("version".toList, f.version.debugText), ("resume_token".toList, debugBytes f.resumeToken),
     ("last_received_server_position".toList, debugNat f.lastReceivedServerPosition.toNat),
     ("first_available_client_position".toList, debugNat f.firstAvailableClientPosition.toNat)]

/-- resume_ok.rs:23-26 -/
def ResumeOkFrame.debugText (f : ResumeOkFrame) : Text :=
  debugStruct "ResumeOkFrame".toList
    [("last_received_client_position".toList, debugNat f.lastReceivedClientPosition.toNat)]

/-- frame/mod.rs:33-63 -/
def Frame.debugText : Frame → Text
  | .setup f => debugVariant "Setup".toList f.debugText
  | .error f => debugVariant "Error".toList f.debugText
  | .lease f => debugVariant "Lease".toList f.debugText
  | .keepalive f => debugVariant "Keepalive".toList f.debugText
  | .requestResponse f => debugVariant "RequestResponse".toList f.debugText
  | .requestFnf f => debugVariant "RequestFnf".toList f.debugText
  | .requestStream f => debugVariant "RequestStream".toList f.debugText
  | .requestChannel f => debugVariant "RequestChannel".toList f.debugText
  | .requestN f => debugVariant "RequestN".toList f.debugText
  | .cancel f => debugVariant "Cancel".toList f.debugText
  | .payload f => debugVariant "Payload".toList f.debugText
  | .metadataPush f => debugVariant "MetadataPush".toList f.debugText
  | .resume f => debugVariant "Resume".toList f.debugText
  | .resumeOk f => debugVariant "ResumeOk".toList f.debugText

/-- `format!("{:?}", frame)`. The derive is at frame/mod.rs:33. -/
def Frame.debug (f : Frame) : String := String.ofList f.debugText

end Binate
