import Verif.Model.Codec

/-! # Accessors and constants of the frames

Every public accessor of the fourteen frame types (binate/src/frame/codec/*.rs) that is not in
`Model/Codec` (flags) or `Model/Utf8` (text). References are dropped: an accessor returns the
value. -/

namespace Binate

namespace SetupFrame

/-- setup.rs:55 -/
def TYPE : FrameType := .SETUP
/-- setup.rs:52 -/
def STREAM_ID : U32 := 0#32
/-- setup.rs:73-75 -/
def getVersion (f : SetupFrame) : Version := f.version
/-- setup.rs:78-80 -/
def getKeepaliveInterval (f : SetupFrame) : Duration := Duration.fromMillis (f.keepaliveInterval.setWidth 64)
/-- setup.rs:84-86 -/
def getKeepaliveTimeout (f : SetupFrame) : Duration := Duration.fromMillis (f.keepaliveTimeout.setWidth 64)
/-- setup.rs:89-91 -/
def getResumeToken (f : SetupFrame) : Option Bytes := f.resumeToken
/-- setup.rs:126-128 -/
def getMetadata (f : SetupFrame) : Option Bytes := f.payload.metadata
/-- setup.rs:131-133 -/
def getData (f : SetupFrame) : Option Bytes := f.payload.data
/-- setup.rs:136-138 -/
def getPayload (f : SetupFrame) : Payload := f.payload

end SetupFrame

namespace LeaseFrame

/-- lease.rs:37 -/
def STREAM_ID : U32 := 0#32
/-- lease.rs:53-55 -/
def getTtl (f : LeaseFrame) : Duration := Duration.fromMillis (f.ttl.setWidth 64)
/-- lease.rs:58-60 -/
def getNumberOfRequests (f : LeaseFrame) : U32 := f.numberOfRequests
/-- lease.rs:63-65 -/
def getMetadata (f : LeaseFrame) : Option Bytes := f.metadata

end LeaseFrame

namespace KeepaliveFrame

/-- keepalive.rs:36 -/
def TYPE : FrameType := .KEEPALIVE
/-- keepalive.rs:33 -/
def STREAM_ID : U32 := 0#32
/-- keepalive.rs:55-57 -/
def getLastReceivedPosition (f : KeepaliveFrame) : U64 := f.lastReceivedPosition
/-- keepalive.rs:60-62 -/
def getData (f : KeepaliveFrame) : Option Bytes := f.data
/-- keepalive.rs:65-67 -/
def isRespond (f : KeepaliveFrame) : Bool := f.respond

end KeepaliveFrame

namespace RequestResponseFrame

/-- request_response.rs:29 -/
def TYPE : FrameType := .REQUEST_RESPONSE
/-- request_response.rs:49-51 -/
def getStreamId (f : RequestResponseFrame) : U32 := f.streamId
/-- request_response.rs:59-61 -/
def getMetadata (f : RequestResponseFrame) : Option Bytes := f.payload.metadata
/-- request_response.rs:64-66 -/
def getData (f : RequestResponseFrame) : Option Bytes := f.payload.data
/-- request_response.rs:69-71 -/
def getPayload (f : RequestResponseFrame) : Payload := f.payload

end RequestResponseFrame

namespace RequestFnfFrame

/-- request_fnf.rs:29 -/
def TYPE : FrameType := .REQUEST_FNF
/-- request_fnf.rs:49-51 -/
def getStreamId (f : RequestFnfFrame) : U32 := f.streamId
/-- request_fnf.rs:59-61 -/
def getMetadata (f : RequestFnfFrame) : Option Bytes := f.payload.metadata
/-- request_fnf.rs:64-66 -/
def getRequestData (f : RequestFnfFrame) : Option Bytes := f.payload.data
/-- request_fnf.rs:69-71 -/
def getPayload (f : RequestFnfFrame) : Payload := f.payload

end RequestFnfFrame

namespace RequestStreamFrame

/-- request_stream.rs:32 -/
def TYPE : FrameType := .REQUEST_STREAM
/-- request_stream.rs:60-62 -/
def getStreamId (f : RequestStreamFrame) : U32 := f.streamId
/-- request_stream.rs:70-72 -/
def getInitialRequestN (f : RequestStreamFrame) : U32 := f.initialRequestN
/-- request_stream.rs:75-77 -/
def getMetadata (f : RequestStreamFrame) : Option Bytes := f.payload.metadata
/-- request_stream.rs:80-82 -/
def getData (f : RequestStreamFrame) : Option Bytes := f.payload.data
/-- request_stream.rs:85-87 -/
def getPayload (f : RequestStreamFrame) : Payload := f.payload

end RequestStreamFrame

namespace RequestChannelFrame

/-- request_channel.rs:32 -/
def TYPE : FrameType := .REQUEST_CHANNEL
/-- request_channel.rs:66-68 -/
def getStreamId (f : RequestChannelFrame) : U32 := f.streamId
/-- request_channel.rs:81-83 -/
def getInitialRequestN (f : RequestChannelFrame) : U32 := f.initialRequestN
/-- request_channel.rs:86-88 -/
def getMetadata (f : RequestChannelFrame) : Option Bytes := f.payload.metadata
/-- request_channel.rs:91-93 -/
def getData (f : RequestChannelFrame) : Option Bytes := f.payload.data
/-- request_channel.rs:96-98 -/
def getPayload (f : RequestChannelFrame) : Payload := f.payload

end RequestChannelFrame

namespace RequestNFrame

/-- request_n.rs:29 -/
def TYPE : FrameType := .REQUEST_N
/-- request_n.rs:45-47 -/
def getStreamId (f : RequestNFrame) : U32 := f.streamId
/-- request_n.rs:50-52 -/
def getRequestN (f : RequestNFrame) : U32 := f.requestN

end RequestNFrame

namespace CancelFrame

/-- cancel.rs:26 -/
def TYPE : FrameType := .CANCEL
/-- cancel.rs:38-40 -/
def getStreamId (f : CancelFrame) : U32 := f.streamId

end CancelFrame

namespace PayloadFrame

/-- codec/payload.rs:29 -/
def TYPE : FrameType := .PAYLOAD
/-- codec/payload.rs:55-57 -/
def getStreamId (f : PayloadFrame) : U32 := f.streamId
/-- codec/payload.rs:75-77 -/
def getMetadata (f : PayloadFrame) : Option Bytes := f.payload.metadata
/-- codec/payload.rs:80-82 -/
def getData (f : PayloadFrame) : Option Bytes := f.payload.data
/-- codec/payload.rs:85-87 -/
def getPayload (f : PayloadFrame) : Payload := f.payload

end PayloadFrame

namespace ErrorFrame

/-- codec/error.rs:105 -/
def TYPE : FrameType := .ERROR
/-- codec/error.rs:124-126 -/
def getStreamId (f : ErrorFrame) : U32 := f.streamId
/-- codec/error.rs:129-131 -/
def getErrorCode (f : ErrorFrame) : U32 := f.code
/-- codec/error.rs:134-136 -/
def getData (f : ErrorFrame) : Option Bytes := f.data

end ErrorFrame

namespace MetadataPushFrame

/-- metadata_push.rs:33 -/
def TYPE : FrameType := .METADATA_PUSH
/-- metadata_push.rs:30 -/
def STREAM_ID : U32 := 0#32
/-- metadata_push.rs:41-43 -/
def getMetadata (f : MetadataPushFrame) : Bytes := f.metadata

end MetadataPushFrame

namespace ResumeFrame

/-- resume.rs:41 -/
def STREAM_ID : U32 := 0#32
/-- resume.rs:70-72 -/
def getVersion (f : ResumeFrame) : Version := f.version
/-- resume.rs:75-77 -/
def getResumeToken (f : ResumeFrame) : Bytes := f.resumeToken
/-- resume.rs:80-82 -/
def getLastReceivedServerPosition (f : ResumeFrame) : U64 := f.lastReceivedServerPosition
/-- resume.rs:85-87 -/
def getFirstAvailableClientPosition (f : ResumeFrame) : U64 := f.firstAvailableClientPosition

end ResumeFrame

namespace ResumeOkFrame

/-- resume_ok.rs:30 -/
def STREAM_ID : U32 := 0#32
/-- resume_ok.rs:43-45 -/
def getLastReceivedServerPosition (f : ResumeOkFrame) : U64 := f.lastReceivedClientPosition

end ResumeOkFrame

end Binate
