import Verif.Model.Basic

/-! # Well-known MIME types (binate/src/mimetype.rs) -/

namespace Binate

/-- mimetype.rs:12-61 `WellKnownMimeType`. -/
inductive WellKnownMimeType where
  | UNPARSEABLE
  | APPLICATION_AVRO
  | APPLICATION_CBOR
  | APPLICATION_GRAPHQL
  | APPLICATION_GZIP
  | APPLICATION_JAVASCRIPT
  | APPLICATION_JSON
  | APPLICATION_OCTET_STREAM
  | APPLICATION_PDF
  | APPLICATION_VND_APACHE_THRIFT_BINARY
  | APPLICATION_VND_GOOGLE_PROTOBUF
  | APPLICATION_XML
  | APPLICATION_ZIP
  | AUDIO_AAC
  | AUDIO_MP3
  | AUDIO_MP4
  | AUDIO_MPEG3
  | AUDIO_MPEG
  | AUDIO_OGG
  | AUDIO_OPUS
  | AUDIO_VORBIS
  | IMAGE_BMP
  | IMAGE_GIF
  | IMAGE_HEIC_SEQUENCE
  | IMAGE_HEIC
  | IMAGE_HEIF_SEQUENCE
  | IMAGE_HEIF
  | IMAGE_JPEG
  | IMAGE_PNG
  | IMAGE_TIFF
  | MULTIPART_MIXED
  | TEXT_CSS
  | TEXT_CSV
  | TEXT_HTML
  | TEXT_PLAIN
  | TEXT_XML
  | VIDEO_H264
  | VIDEO_H265
  | VIDEO_VP8
  | APPLICATION_X_HESSIAN
  | APPLICATION_X_JAVA_OBJECT
  | APPLICATION_CLOUDEVENTS_JSON
  | MESSAGE_X_RSOCKET_MIME_TYPE_V0
  | MESSAGE_X_RSOCKET_ACCEPT_TIME_TYPES_V0
  | MESSAGE_X_RSOCKET_AUTHENTICATION_V0
  | MESSAGE_X_RSOCKET_TRACING_ZIPKIN_V0
  | MESSAGE_X_RSOCKET_ROUTING_V0
  | MESSAGE_X_RSOCKET_COMPOSITE_METADATA_V0
deriving DecidableEq, Repr

namespace WellKnownMimeType

/-- `#[derive(Debug)]` at mimetype.rs:11: the name of the variant. -/
def debug : WellKnownMimeType → String
  | UNPARSEABLE => "UNPARSEABLE"
  | APPLICATION_AVRO => "APPLICATION_AVRO"
  | APPLICATION_CBOR => "APPLICATION_CBOR"
  | APPLICATION_GRAPHQL => "APPLICATION_GRAPHQL"
  | APPLICATION_GZIP => "APPLICATION_GZIP"
  | APPLICATION_JAVASCRIPT => "APPLICATION_JAVASCRIPT"
  | APPLICATION_JSON => "APPLICATION_JSON"
  | APPLICATION_OCTET_STREAM => "APPLICATION_OCTET_STREAM"
  | APPLICATION_PDF => "APPLICATION_PDF"
  | APPLICATION_VND_APACHE_THRIFT_BINARY => "APPLICATION_VND_APACHE_THRIFT_BINARY"
  | APPLICATION_VND_GOOGLE_PROTOBUF => "APPLICATION_VND_GOOGLE_PROTOBUF"
  | APPLICATION_XML => "APPLICATION_XML"
  | APPLICATION_ZIP => "APPLICATION_ZIP"
  | AUDIO_AAC => "AUDIO_AAC"
  | AUDIO_MP3 => "AUDIO_MP3"
  | AUDIO_MP4 => "AUDIO_MP4"
  | AUDIO_MPEG3 => "AUDIO_MPEG3"
  | AUDIO_MPEG => "AUDIO_MPEG"
  | AUDIO_OGG => "AUDIO_OGG"
  | AUDIO_OPUS => "AUDIO_OPUS"
  | AUDIO_VORBIS => "AUDIO_VORBIS"
  | IMAGE_BMP => "IMAGE_BMP"
  | IMAGE_GIF => "IMAGE_GIF"
  | IMAGE_HEIC_SEQUENCE => "IMAGE_HEIC_SEQUENCE"
  | IMAGE_HEIC => "IMAGE_HEIC"
  | IMAGE_HEIF_SEQUENCE => "IMAGE_HEIF_SEQUENCE"
  | IMAGE_HEIF => "IMAGE_HEIF"
  | IMAGE_JPEG => "IMAGE_JPEG"
  | IMAGE_PNG => "IMAGE_PNG"
  | IMAGE_TIFF => "IMAGE_TIFF"
  | MULTIPART_MIXED => "MULTIPART_MIXED"
  | TEXT_CSS => "TEXT_CSS"
  | TEXT_CSV => "TEXT_CSV"
  | TEXT_HTML => "TEXT_HTML"
  | TEXT_PLAIN => "TEXT_PLAIN"
  | TEXT_XML => "TEXT_XML"
  | VIDEO_H264 => "VIDEO_H264"
  | VIDEO_H265 => "VIDEO_H265"
  | VIDEO_VP8 => "VIDEO_VP8"
  | APPLICATION_X_HESSIAN => "APPLICATION_X_HESSIAN"
  | APPLICATION_X_JAVA_OBJECT => "APPLICATION_X_JAVA_OBJECT"
  | APPLICATION_CLOUDEVENTS_JSON => "APPLICATION_CLOUDEVENTS_JSON"
  | MESSAGE_X_RSOCKET_MIME_TYPE_V0 => "MESSAGE_X_RSOCKET_MIME_TYPE_V0"
  | MESSAGE_X_RSOCKET_ACCEPT_TIME_TYPES_V0 => "MESSAGE_X_RSOCKET_ACCEPT_TIME_TYPES_V0"
  | MESSAGE_X_RSOCKET_AUTHENTICATION_V0 => "MESSAGE_X_RSOCKET_AUTHENTICATION_V0"
  | MESSAGE_X_RSOCKET_TRACING_ZIPKIN_V0 => "MESSAGE_X_RSOCKET_TRACING_ZIPKIN_V0"
  | MESSAGE_X_RSOCKET_ROUTING_V0 => "MESSAGE_X_RSOCKET_ROUTING_V0"
  | MESSAGE_X_RSOCKET_COMPOSITE_METADATA_V0 => "MESSAGE_X_RSOCKET_COMPOSITE_METADATA_V0"

/-- mimetype.rs:65-117 `From<&str>`. -/
def fromStr (v : String) : WellKnownMimeType :=
  if v = "application/avro" then APPLICATION_AVRO
  else if v = "application/cbor" then APPLICATION_CBOR
  else if v = "application/graphql" then APPLICATION_GRAPHQL
  else if v = "application/gzip" then APPLICATION_GZIP
  else if v = "application/javascript" then APPLICATION_JAVASCRIPT
  else if v = "application/json" then APPLICATION_JSON
  else if v = "application/octet-stream" then APPLICATION_OCTET_STREAM
  else if v = "application/pdf" then APPLICATION_PDF
  else if v = "application/vnd.apache.thrift.binary" then APPLICATION_VND_APACHE_THRIFT_BINARY
  else if v = "application/vnd.google.protobuf" then APPLICATION_VND_GOOGLE_PROTOBUF
  else if v = "application/xml" then APPLICATION_XML
  else if v = "application/zip" then APPLICATION_ZIP
  else if v = "audio/aac" then AUDIO_AAC
  else if v = "audio/mp3" then AUDIO_MP3
  else if v = "audio/mp4" then AUDIO_MP4
  else if v = "audio/mpeg3" then AUDIO_MPEG3
  else if v = "audio/mpeg" then AUDIO_MPEG
  else if v = "audio/ogg" then AUDIO_OGG
  else if v = "audio/opus" then AUDIO_OPUS
  else if v = "audio/vorbis" then AUDIO_VORBIS
  else if v = "image/bmp" then IMAGE_BMP
  else if v = "image/gif" then IMAGE_GIF
  else if v = "image/heic-sequence" then IMAGE_HEIC_SEQUENCE
  else if v = "image/heic" then IMAGE_HEIC
  else if v = "image/heif-sequence" then IMAGE_HEIF_SEQUENCE
  else if v = "image/heif" then IMAGE_HEIF
  else if v = "image/jpeg" then IMAGE_JPEG
  else if v = "image/png" then IMAGE_PNG
  else if v = "image/tiff" then IMAGE_TIFF
  else if v = "multipart/mixed" then MULTIPART_MIXED
  else if v = "text/css" then TEXT_CSS
  else if v = "text/csv" then TEXT_CSV
  else if v = "text/html" then TEXT_HTML
  else if v = "text/plain" then TEXT_PLAIN
  else if v = "text/xml" then TEXT_XML
  else if v = "video/H264" then VIDEO_H264
  else if v = "video/H265" then VIDEO_H265
  else if v = "video/VP8" then VIDEO_VP8
  else if v = "application/x-hessian" then APPLICATION_X_HESSIAN
  else if v = "application/x-java-object" then APPLICATION_X_JAVA_OBJECT
  else if v = "application/cloudevents+json" then APPLICATION_CLOUDEVENTS_JSON
  else if v = "message/x.rsocket.mime.type.v0" then MESSAGE_X_RSOCKET_MIME_TYPE_V0
  else if v = "message/x.rsocket.accept.time.types.v0" then MESSAGE_X_RSOCKET_ACCEPT_TIME_TYPES_V0
  else if v = "message/x.rsocket.authentication.v0" then MESSAGE_X_RSOCKET_AUTHENTICATION_V0
  else if v = "message/x.rsocket.tracing.zipkin.v0" then MESSAGE_X_RSOCKET_TRACING_ZIPKIN_V0
  else if v = "message/x.rsocket.routing.v0" then MESSAGE_X_RSOCKET_ROUTING_V0
  else if v = "message/x.rsocket.composite.metadata.v0" then MESSAGE_X_RSOCKET_COMPOSITE_METADATA_V0
  else UNPARSEABLE

/-- mimetype.rs:120-128 `From<WellKnownMimeType> for &'static str`. In the `else` branch
`t.into()` resolves to this very function (it is the only `Into<&'static str>` of the type), so
the call recurses on the same argument. `fuel` is the stack depth allowed; `diverge` means that
more is needed. -/
def intoStr : Nat → WellKnownMimeType → Outcome String
  | 0, _ => .diverge
  | fuel + 1, t => if t = UNPARSEABLE then .ok "" else intoStr fuel t

end WellKnownMimeType

end Binate
