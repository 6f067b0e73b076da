import Verif.Spec.Debug

/-! # Specification of `{:#?}`

Lines are given with their depth. -/

namespace Binate.Spec

/-- Lines of text, each with the depth by which it is indented. -/
abbrev Lines := List (Nat × List Char)

/-- One line. -/
def word (s : String) : Lines := [(0, s.toList)]

/-- A number. -/
def number (n : Nat) : Lines := word (toString n)

/-- One level deeper. -/
def deeper (l : Lines) : Lines := l.map fun x => (x.1 + 1, x.2)

/-- A text in front of the first line. -/
def prefixed (s : List Char) : Lines → Lines
  | [] => []
  | (k, l) :: r => (k, s ++ l) :: r

/-- A comma behind the last line. -/
def comma : Lines → Lines
  | [] => []
  | [(k, l)] => [(k, l ++ [','])]
  | x :: y :: r => x :: comma (y :: r)

/-- Named fields, one after the other, between braces. -/
def record (name : String) (fields : List (String × Lines)) : Lines :=
  [(0, (name ++ " {").toList)] ++
    fields.flatMap (fun f => deeper (comma (prefixed (f.1 ++ ": ").toList f.2))) ++ [(0, ['}'])]

/-- A value between parentheses. -/
def wrapped (name : String) (value : Lines) : Lines :=
  [(0, (name ++ "(").toList)] ++ deeper (comma value) ++ [(0, [')'])]

/-- Several values between parentheses. -/
def wrappedAll (name : String) (values : List Lines) : Lines :=
  [(0, (name ++ "(").toList)] ++ values.flatMap (fun l => deeper (comma l)) ++ [(0, [')'])]

/-- Bytes that may be missing. -/
def optionLines : Option Bytes → Lines
  | some b => wrapped "Some" (word (shownBytes b))
  | none => word "None"

/-- Flags: as in the short form, but bits without a name have their prefix twice. -/
def shownFlagsAlternate (bits : Nat) : String :=
  let other := bits % 16 + bits / 512 * 512
  if bits = 0 then "(empty)"
  else " | ".intercalate
    (shownNames bits ++ if other = 0 then [] else ["0x0x" ++ String.ofList (Nat.toDigits 16 other)])

/-- A version. -/
def versionLines (v : Version) : Lines :=
  record "Version" [("major", number v.major.toNat), ("minor", number v.minor.toNat)]

/-- A payload. -/
def payloadLines (p : Payload) : Lines :=
  record "Payload" [("metadata", optionLines p.metadata), ("data", optionLines p.data)]

/-- The lines of a frame. -/
def frameLines : Frame → Lines
  | .setup f => wrapped "Setup" (record "SetupFrame"
      [("flags", word (shownFlagsAlternate f.flags.bits.toNat)),
       ("version", versionLines f.version),
       ("keepalive_interval", number f.keepaliveInterval.toNat),
       ("keepalive_timeout", number f.keepaliveTimeout.toNat),
       ("resume_token", optionLines f.resumeToken),
       ("metadata_mimetype", word (shownBytes f.metadataMimetype)),
       ("data_mimetype", word (shownBytes f.dataMimetype)), ("payload", payloadLines f.payload)])
  | .error f => wrapped "Error" (record "ErrorFrame"
      [("stream_id", number f.streamId.toNat), ("code", number f.code.toNat),
       ("data", optionLines f.data)])
  | .lease f => wrapped "Lease" (record "LeaseFrame"
      [("ttl", number f.ttl.toNat), ("number_of_requests", number f.numberOfRequests.toNat),
       ("metadata", optionLines f.metadata)])
  | .keepalive f => wrapped "Keepalive" (record "KeepaliveFrame"
      [("respond", word (toString f.respond)),
       ("last_received_position", number f.lastReceivedPosition.toNat),
       ("data", optionLines f.data)])
  | .requestResponse f => wrapped "RequestResponse" (record "RequestResponseFrame"
      [("stream_id", number f.streamId.toNat),
       ("flags", word (shownFlagsAlternate f.flags.bits.toNat)),
       ("payload", payloadLines f.payload)])
  | .requestFnf f => wrapped "RequestFnf" (record "RequestFnfFrame"
      [("stream_id", number f.streamId.toNat),
       ("flags", word (shownFlagsAlternate f.flags.bits.toNat)),
       ("payload", payloadLines f.payload)])
  | .requestStream f => wrapped "RequestStream" (record "RequestStreamFrame"
      [("stream_id", number f.streamId.toNat),
       ("flags", word (shownFlagsAlternate f.flags.bits.toNat)),
       ("initial_request_n", number f.initialRequestN.toNat),
       ("payload", payloadLines f.payload)])
  | .requestChannel f => wrapped "RequestChannel" (record "RequestChannelFrame"
      [("stream_id", number f.streamId.toNat),
       ("flags", word (shownFlagsAlternate f.flags.bits.toNat)),
       ("initial_request_n", number f.initialRequestN.toNat),
       ("payload", payloadLines f.payload)])
  | .requestN f => wrapped "RequestN" (record "RequestNFrame"
      [("stream_id", number f.streamId.toNat), ("request_n", number f.requestN.toNat)])
  | .cancel f => wrapped "Cancel" (record "CancelFrame"
      [("stream_id", number f.streamId.toNat)])
  | .payload f => wrapped "Payload" (record "PayloadFrame"
      [("stream_id", number f.streamId.toNat),
       ("flags", word (shownFlagsAlternate f.flags.bits.toNat)),
       ("payload", payloadLines f.payload)])
  | .metadataPush f => wrapped "MetadataPush" (record "MetadataPushFrame"
      [("metadata", word (shownBytes f.metadata))])
  | .resume f => wrapped "Resume" (record "ResumeFrame"
      [("version", versionLines f.version), ("resume_token", word (shownBytes f.resumeToken)),
       ("last_received_server_position", number f.lastReceivedServerPosition.toNat),
       ("first_available_client_position", number f.firstAvailableClientPosition.toNat)])
  | .resumeOk f => wrapped "ResumeOk" (record "ResumeOkFrame"
      [("last_received_client_position", number f.lastReceivedClientPosition.toNat)])

/-- The text that consists of these lines. -/
def ofLines (l : Lines) : String :=
  String.ofList (List.intercalate ['\n'] (l.map fun x => List.replicate (4 * x.1) ' ' ++ x.2))

/-- A line `a`, when `b` is put behind it on the same line: after an opening brace comes a space, after
an opening parenthesis nothing; a comma goes away before something closes, otherwise it is followed by
a space. -/
def before (a b : List Char) : List Char :=
  match a.getLast?, b.head? with
  | some '{', _ => a ++ [' ']
  | some '(', _ => a
  | some ',', some '}' => a.dropLast ++ [' ']
  | some ',', some ')' => a.dropLast
  | _, _ => a ++ [' ']

/-- Lines put on one line. -/
def joinLines : List (List Char) → List Char
  | [] => []
  | [a] => a
  | a :: b :: r => before a b ++ joinLines (b :: r)

/-- A text put on one line: indentation goes away, and the lines are joined. -/
def oneLine (s : String) : String :=
  String.ofList (joinLines ((s.toList.splitOn '\n').map fun l => l.dropWhile (· == ' ')))

/-- The short and the long form of a value with these lines. -/
def Shows (forms : String × String) (l : Lines) : Prop :=
  forms.2 = ofLines l ∧ forms.1 = oneLine (ofLines l)

/-- The names of the frame types in the protocol, with their numbers. -/
def frameTypeNames : List (Nat × String) :=
  [(0x01, "SETUP"), (0x02, "LEASE"), (0x03, "KEEPALIVE"), (0x04, "REQUEST_RESPONSE"),
   (0x05, "REQUEST_FNF"), (0x06, "REQUEST_STREAM"), (0x07, "REQUEST_CHANNEL"), (0x08, "REQUEST_N"),
   (0x09, "CANCEL"), (0x0A, "PAYLOAD"), (0x0B, "ERROR"), (0x0C, "METADATA_PUSH"), (0x0D, "RESUME"),
   (0x0E, "RESUME_OK"), (0x3F, "EXT")]

/-- The lines of a `DecodeError`. -/
def decodeErrorLines : DecodeError → Lines
  | .inComplete => word "InComplete"
  | .unrecognizedFrameType v => wrapped "UnrecognizedFrameType" (number v.toNat)
  | .invalidStreamId expected found =>
    record "InvalidStreamId"
      [("expected", word ("\"" ++ expected ++ "\"")), ("found", number found.toNat)]

/-- The number of line breaks in the text of optional bytes. -/
def optionBreaks (o : Option Bytes) : Nat := if o.isSome then 2 else 0

/-- The number of line breaks in the text of a payload. -/
def payloadBreaks (p : Payload) : Nat := 3 + optionBreaks p.metadata + optionBreaks p.data

/-- The number of line breaks in the text of a frame. It depends on which optional parts there are, and
not on what is in them. -/
def frameBreaks : Frame → Nat
  | .setup f => 3 + 8 + 3 + optionBreaks f.resumeToken + payloadBreaks f.payload
  | .error f => 3 + 3 + optionBreaks f.data
  | .lease f => 3 + 3 + optionBreaks f.metadata
  | .keepalive f => 3 + 3 + optionBreaks f.data
  | .requestResponse f => 3 + 3 + payloadBreaks f.payload
  | .requestFnf f => 3 + 3 + payloadBreaks f.payload
  | .requestStream f => 3 + 4 + payloadBreaks f.payload
  | .requestChannel f => 3 + 4 + payloadBreaks f.payload
  | .requestN _ => 3 + 2
  | .cancel _ => 3 + 1
  | .payload f => 3 + 3 + payloadBreaks f.payload
  | .metadataPush _ => 3 + 1
  | .resume _ => 3 + 4 + 3
  | .resumeOk _ => 3 + 1

end Binate.Spec
