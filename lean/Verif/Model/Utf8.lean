import Verif.Model.Codec

/-! # Text accessors

`std::str::from_utf8` is Lean's `String.fromUTF8?` on the same bytes (both accept exactly the
well-formed UTF-8 sequences; the error value of the Rust function is not modelled). -/

namespace Binate

/-- The bytes as a Lean `ByteArray`. For the bytes at payload.rs:29-30. -/
def toByteArray (b : Bytes) : ByteArray := ⟨(b.map UInt8.ofBitVec).toArray⟩

/-- `std::str::from_utf8`; `none` is `Err`. Used at payload.rs:74, 83, codec/error.rs:141,
setup.rs:97, 113. -/
def fromUtf8 (b : Bytes) : Option String := String.fromUTF8? (toByteArray b)

/-- `str::is_ascii`: every byte is below 128. Used at setup.rs:99, 115. -/
def isAscii (s : String) : Bool := s.toUTF8.data.toList.all (fun c => c < 128)

namespace Payload

/-- payload.rs:72-78 `data_utf8`; `none` is `Err(Utf8Error)`. -/
def dataUtf8 (p : Payload) : Option String :=
  match p.data with
  | some data => fromUtf8 data
  | none => some ""

/-- payload.rs:81-87 `metadata_utf8`; `none` is `Err(Utf8Error)`. -/
def metadataUtf8 (p : Payload) : Option String :=
  match p.metadata with
  | some metadata => fromUtf8 metadata
  | none => some ""

end Payload

/-- codec/error.rs:140-142 `ErrorFrame::data_utf8`. -/
def ErrorFrame.dataUtf8 (f : ErrorFrame) : Option String :=
  (f.data.map (fun data => fromUtf8 data)).join

namespace SetupFrame

/-- setup.rs:96-107 and 112-123: the common body of the two MIME accessors. -/
def mimeStr (b : Bytes) : Option String :=
  match fromUtf8 b with
  | some x => if isAscii x then some x else none
  | none => none

/-- setup.rs:96-107 `metadata_mimetype`. -/
def metadataMimetypeStr (f : SetupFrame) : Option String := mimeStr f.metadataMimetype

/-- setup.rs:112-123 `data_mimetype`. -/
def dataMimetypeStr (f : SetupFrame) : Option String := mimeStr f.dataMimetype

end SetupFrame

end Binate
