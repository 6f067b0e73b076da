{"id": "C01", "title": "Frame round trip", "statement": "For every frame that the public constructors can build (all 14 frame kinds) whose optional byte fields are either absent or non-empty, whose metadata fits in 24 bits and, for SETUP, whose RESUME flag agrees with the presence of a token and whose MIME types fit in one length byte, for ERROR whose stream id agrees with the code, for RESUME whose token has at most 65535 bytes and for LEASE whose numbers have 31 bits, `Frame::decode(frame.to_bytes())` returns `Ok` of an equal frame; these conditions are also necessary.", "quantifier": "every frame value, every field value, every payload length", "why_tests_cant": "infinitely many payloads, tokens and field values", "anchors": ["binate/src/frame/mod.rs: Frame::encode, Frame::decode", "binate/src/frame/codec/*.rs: encode, decode"]}
{"id": "C02", "title": "Empty versus absent byte fields", "statement": "For every well-formed frame, `decode(encode f)` is exactly `f` with every present-but-empty optional byte field (metadata or data, where the frame has one) turned into an absent field, and nothing else changed.", "quantifier": "every frame value including present-but-empty fields", "why_tests_cant": "the boundary case interacts with every other field value", "anchors": ["binate/src/frame/visit.rs: eat_payload", "binate/src/frame/codec/lease.rs, keepalive.rs, error.rs: decode"]}
{"id": "C03", "title": "len() is the encoded length", "statement": "For every frame, `Encode::len()` equals the number of bytes `encode` appends, so `to_bytes()` allocates exactly what it needs. (False for SETUP without a resume token, where it is 2 too large.)", "quantifier": "every frame value", "why_tests_cant": "ranges over all payload sizes and all optional-field combinations", "anchors": ["binate/src/frame/encode.rs: Encode::to_bytes", "binate/src/frame/codec/*.rs: len"]}
{"id": "C04", "title": "encode only appends", "statement": "`encode(f, buf)` leaves the previous contents of `buf` untouched and appends bytes that do not depend on them; encoding a sequence of frames into one buffer gives the concatenation of the individual encodings.", "quantifier": "every frame, every prior buffer content, every sequence of frames", "why_tests_cant": "unbounded buffer contents and sequences", "anchors": ["binate/src/frame/encode.rs", "binate/src/frame/codec/*.rs: encode"]}
{"id": "C05", "title": "decode never panics", "statement": "`Frame::decode` on any byte string returns `Ok` or `Err`; it never panics or loops. (False for frame type 0x3F EXT: it panics exactly on those inputs.)", "quantifier": "every byte string, from any remote peer", "why_tests_cant": "the input space is all byte strings", "anchors": ["binate/src/frame/mod.rs: Frame::decode (FrameType::EXT => unimplemented!())", "binate/src/frame/visit.rs"]}
{"id": "C06", "title": "Decoded frames re-encode stably", "statement": "If `decode(b) = Ok(f)` then encoding `f` does not panic and `decode(encode f) = Ok(f)`; a proxy that decodes and re-encodes loses nothing it decoded.", "quantifier": "every byte string", "why_tests_cant": "all byte strings, including non-canonical ones with reserved bits set", "anchors": ["binate/src/frame/mod.rs: Frame::decode", "binate/src/frame/codec/*.rs"]}
{"id": "C07", "title": "Decoding is independent of buffer segmentation", "statement": "`Frame::decode` over a list of byte segments gives the same result, and leaves the same remaining bytes, as over the contiguous concatenation of the segments.", "quantifier": "every byte string and every way to cut it into non-empty segments", "why_tests_cant": "number of segmentations is exponential in an unbounded length", "anchors": ["binate/src/frame/mod.rs: Frame::decode<B: Buf>", "binate/src/connection/buf.rs: impl Buf for BufList"]}
{"id": "C08", "title": "Wire layout matches the documented diagrams", "statement": "Every encoded frame is the big-endian layout given by the frame's diagram: 31-bit stream id, 6-bit type, then the I, M, F/R, C/L, N flags immediately after the type, then the frame's fields in order. (False: all flags are one bit lower than the diagrams; otherwise the layout is as specified.)", "quantifier": "every frame value", "why_tests_cant": "all field values", "anchors": ["binate/src/frame/codec/*.rs: struct docs and encode", "binate/src/frame/flags.rs: Flags"]}
{"id": "C09", "title": "Reserved bits are ignored on receive", "statement": "The result of `decode` does not change when the reserved top bit of the stream id, or the unused flag bits, or the reserved top bit of a 31/63-bit field are changed.", "quantifier": "every byte string and every setting of the reserved bits", "why_tests_cant": "all byte strings", "anchors": ["binate/src/frame/visit.rs: eat_stream_id, eat_flags, eat_u31, eat_u63"]}
{"id": "C10", "title": "Connection-level frames only on stream 0", "statement": "A SETUP, LEASE, KEEPALIVE, METADATA_PUSH, RESUME or RESUME_OK header with non-zero 31-bit stream id is rejected with `InvalidStreamId{expected \"0\", found id}`, whatever follows; accepted frames of these kinds had stream id 0.", "quantifier": "every byte string", "why_tests_cant": "all byte strings", "anchors": ["binate/src/frame/mod.rs: Frame::decode lines 113-128"]}
{"id": "C11", "title": "ERROR frames: stream id agrees with code", "statement": "A decoded ERROR frame with a setup/resume/connection code has stream id 0, with an application-level predefined code has stream id > 0; the opposite combinations are rejected with InvalidStreamId.", "quantifier": "every byte string", "why_tests_cant": "2^63 (code, stream id) combinations and all data", "anchors": ["binate/src/frame/codec/error.rs: validate_stream_id, decode"]}
{"id": "C12", "title": "Unknown frame types are rejected with their value", "statement": "`decode` returns `UnrecognizedFrameType(t)` exactly when at least 6 bytes are present and the top six bits `t` of bytes 4-5 are not one of 0x01-0x0E, 0x3F.", "quantifier": "every byte string", "why_tests_cant": "all byte strings", "anchors": ["binate/src/frame/visit.rs: eat_flags", "binate/src/frame/flags.rs: FrameType::from_bits"]}
{"id": "C13", "title": "InComplete is reported exactly for truncated frames", "statement": "`decode` returns `InComplete` exactly when the bytes end before the last mandatory or length-prefixed field of the announced frame type (given by an independent length specification).", "quantifier": "every byte string", "why_tests_cant": "all byte strings, all embedded length fields", "anchors": ["binate/src/frame/visit.rs: incomplete_if_less_than!, eat_*"]}
{"id": "C14", "title": "Extension stability", "statement": "If `decode(b) = Ok(f)` then for every `s`, `decode(b++s)` is `Ok` of the same frame, with `s` appended to the frame's trailing byte field if it has one and left unread otherwise; an UnrecognizedFrameType or InvalidStreamId error is likewise unchanged by more bytes.", "quantifier": "every byte string and every extension", "why_tests_cant": "pairs of unbounded strings", "anchors": ["binate/src/frame/visit.rs", "binate/src/frame/codec/*.rs: decode"]}
{"id": "C15", "title": "decode consumes from the front only", "statement": "After `decode`, whether Ok or Err, the buffer holds a suffix of its original content; on Ok it is empty for every kind except CANCEL, REQUEST_N, RESUME and RESUME_OK.", "quantifier": "every byte string", "why_tests_cant": "all byte strings", "anchors": ["binate/src/frame/mod.rs: Frame::decode", "binate/src/frame/codec/*.rs: decode"]}
{"id": "C16", "title": "Distinct frames have distinct encodings", "statement": "Two well-formed frames with the same encoding differ at most in present-but-empty versus absent fields; without empty fields they are equal.", "quantifier": "every pair of frames", "why_tests_cant": "quadratic in an infinite domain", "anchors": ["binate/src/frame/codec/*.rs: encode"]}
{"id": "C17", "title": "Constructors enforce 31/63-bit fields", "statement": "A constructor argument documented as <= MAX_U31/MAX_U63 panics in debug builds when out of range, and in release builds the accessor returns the value with the top bit cleared; in-range values are returned unchanged. (False for LEASE in release builds: ttl and number_of_requests are not masked.)", "quantifier": "every u32/u64 argument, both build profiles", "why_tests_cant": "2^32 and 2^64 argument values, usually only tested in one profile", "anchors": ["binate/src/frame/codec/*.rs: new", "binate/src/frame/codec/mod.rs: debug_assert_max_u31!"]}
{"id": "C18", "title": "Flags given to constructors survive the wire", "statement": "`is_follows`, `is_complete`, `is_next`, `is_respond` of the decoded frame are the values given to the constructor of the encoded one, and the METADATA flag is set exactly when metadata is present; PAYLOAD frames ignore any other flags passed in.", "quantifier": "every frame, every flag combination, every payload", "why_tests_cant": "all flag/payload combinations", "anchors": ["binate/src/frame/codec/payload.rs, request_*.rs, keepalive.rs: new"]}
{"id": "C19", "title": "Every documented error code is usable", "statement": "For every error code the type documents as usable, constructing an ERROR frame with a legal stream id and sending it yields the same code at the receiver. (False for application codes above 0x7FFFFFFF, which the constructor rejects or truncates although MAX_APPLICATION_ERROR_CODE is 0xFFFFFFFE.)", "quantifier": "every u32 error code, every stream id", "why_tests_cant": "2^32 codes", "anchors": ["binate/src/frame/codec/error.rs: ErrorFrame::new, MAX_APPLICATION_ERROR_CODE"]}
{"id": "C20", "title": "SETUP builder output survives the wire", "statement": "For every sequence of builder calls that does not panic, the built SETUP frame encodes and decodes to an equal frame (up to empty fields). (False when set_resume_flag is called without a token and when a MIME type has exactly 256 bytes.)", "quantifier": "every sequence of builder calls with every argument", "why_tests_cant": "histories of calls are unbounded", "anchors": ["binate/src/frame/codec/setup.rs: SetupFrameBuilder, encode, decode"]}
{"id": "C21", "title": "SETUP builder: last write wins, others untouched", "statement": "After any sequence of builder calls each field holds the value of the last call that sets it (or the documented default), independent of the order of unrelated calls; LEASE/RESUME/METADATA flags are set exactly when a corresponding call occurred.", "quantifier": "every sequence of builder calls", "why_tests_cant": "unbounded histories", "anchors": ["binate/src/frame/codec/setup.rs: SetupFrameBuilder"]}
{"id": "C22", "title": "U24 is exact", "statement": "`U24::from_u32(v)` / `from_usize(v)` panic exactly for v > 16,777,215, otherwise `into_u32` / `into_usize` give back v, every U24 round-trips the other way and lies between U24::MIN and U24::MAX, which are both taken, and its 3-byte encoding is big-endian.", "quantifier": "every u32 / usize value", "why_tests_cant": "2^32 / 2^64 values", "anchors": ["binate/src/frame/u24.rs"]}
{"id": "C23", "title": "Version order is lexicographic and total", "statement": "`Version` comparison is a total order, compares major first then minor, and is consistent with equality.", "quantifier": "every pair/triple of versions", "why_tests_cant": "2^64 pairs", "anchors": ["binate/src/frame/version.rs: Ord for Version"]}
{"id": "C24", "title": "Frame type tables are mutually inverse", "statement": "`from_value(t.value()) = Some(t)`, `from_value(v) = Some(t)` only if `v = t.value()`, and `from_bits` depends only on the top six bits and recognises any word built from `t.bits()` and flag bits.", "quantifier": "every u16 word, every frame type", "why_tests_cant": "65536 words times 15 types; must hold for every flags word", "anchors": ["binate/src/frame/flags.rs: FrameType"]}
{"id": "C25", "title": "Flag words never disturb the type", "statement": "Any value of the Flags type occupies bits 4-8 only; decoding the word `type.bits() | flags.bits()` returns that type and those flags; `is_*` predicates read exactly their bit, with FOLLOWS/RESUME/RESPOND and COMPLETE/LEASE aliased.", "quantifier": "every frame type and flags value", "why_tests_cant": "all combinations", "anchors": ["binate/src/frame/flags.rs: Flags"]}
{"id": "C26", "title": "Chunking loses nothing", "statement": "For every payload and chunk size > 0, concatenating the metadata (resp. data) of the chunks in order gives the payload's metadata (resp. data).", "quantifier": "every payload, every chunk size", "why_tests_cant": "unbounded payload lengths and chunk sizes", "anchors": ["binate/src/payload.rs: Payload::chunks, PayloadChunks::next"]}
{"id": "C27", "title": "Chunk sizes and termination", "statement": "The chunk iterator ends, yields None forever afterwards, yields max(ceil(meta/size), ceil(data/size)) chunks for payloads whose present parts are non-empty, every chunk part has at most `size` bytes and every non-final part has exactly `size` bytes; chunks(0) panics.", "quantifier": "every payload, every chunk size", "why_tests_cant": "unbounded", "anchors": ["binate/src/payload.rs: PayloadChunks"]}
{"id": "C28", "title": "PayloadChunks::len is exact", "statement": "At every point of the iteration `len()` equals the number of chunks still to come. (False when a part exceeds 2^24 bytes, because of f32 rounding, and for present-but-empty parts: for every chunk size up to 2^24 there is a part of at most 2^26 bytes whose last chunk is not counted. It holds for parts of 1..2^24 bytes and all chunk sizes, and for longer parts if length and chunk size are multiples of 2^e with a length of at most 2^(24+e), if the part fits in one chunk, or if the last chunk is neither almost empty nor almost full: its bytes, and the bytes missing in it, times 2^22 are at least the length of the part.)", "quantifier": "every payload, chunk size, number of next() calls", "why_tests_cant": "a counterexample needs a 16 MiB part; the positive claim ranges over 2^64 chunk sizes", "anchors": ["binate/src/payload.rs: ExactSizeIterator for PayloadChunks"]}
{"id": "C29", "title": "Unfragmented fire_and_forget", "statement": "Without a fragment size, `fire_and_forget(p)` sends exactly one REQUEST_FNF frame, carrying `p` unchanged, a fresh stream id and follows = false, and returns the transport's result.", "quantifier": "every payload, every machine state, every transport outcome", "why_tests_cant": "all payloads and states", "anchors": ["binate/src/connection/socket.rs: RSocket::fire_and_forget"]}
{"id": "C30", "title": "Fragmented fire_and_forget", "statement": "With fragment size s > 0, all frames of one call carry the same stream id, are sent in order and carry the payload's consecutive chunks, one frame per chunk, for every payload. If each part is absent or has 1..2^24 bytes, or more under the conditions of C28, follows is true on all but the last frame (for other payloads see C33). Fragment size 0 panics before anything is sent.", "quantifier": "every payload, every fragment size", "why_tests_cant": "unbounded payloads", "anchors": ["binate/src/connection/socket.rs: fire_and_forget", "binate/src/payload.rs"]}
{"id": "C31", "title": "fire_and_forget stops at the first transport error", "statement": "If the transport fails on the k-th frame, exactly the first k frames were attempted, in order, and the error is returned; Ok is returned exactly when every send succeeded.", "quantifier": "every payload, every transport failure schedule", "why_tests_cant": "every failure point", "anchors": ["binate/src/connection/socket.rs: fire_and_forget (`?`)"]}
{"id": "C32", "title": "Fragment / reassemble end to end", "statement": "Encoding the frames a fragmented fire_and_forget sends, and reassembling the byte buffers, yields the original payload (absent and empty parts identified) whenever every metadata fragment fits the 24-bit metadata length; if one does not, encoding panics.", "quantifier": "every payload, every fragment size", "why_tests_cant": "unbounded payloads", "anchors": ["binate/src/connection/socket.rs: fire_and_forget", "binate/src/connection/buf.rs: TryInto<Payload>"]}
{"id": "C33", "title": "Every fragmented request terminates", "statement": "Every fragmented fire_and_forget sends at least one frame and its last frame has follows = false. (False: an empty payload sends nothing; a payload whose only parts are present-but-empty ends with follows = true; so does, for every fragment size up to 2^24, some part of at most 2^26 bytes. It holds for payloads with a part whose parts are as in C28.)", "quantifier": "every payload, every fragment size", "why_tests_cant": "boundary cases of unbounded sizes", "anchors": ["binate/src/connection/socket.rs: fire_and_forget lines 151-160", "binate/src/payload.rs: len"]}
{"id": "C34", "title": "metadata_push", "statement": "`metadata_push(m)` sends exactly one METADATA_PUSH frame on stream 0 carrying m, which the peer decodes to the same m; no stream id is consumed.", "quantifier": "every byte string m, every state", "why_tests_cant": "all byte strings", "anchors": ["binate/src/connection/socket.rs: metadata_push", "binate/src/frame/codec/metadata_push.rs"]}
{"id": "C35", "title": "BufList behaves as one byte sequence", "statement": "For any sequence of push/advance/copy_to_bytes operations on a BufList, remaining/chunk/copy_to_bytes/advance agree with the same operations on the concatenation of the pushed bytes, and no segment in the list ever becomes empty: the list holds exactly the pushed pieces less the bytes taken from the front, a buffer is released as soon as its last byte is taken, and len counts the buffers left.", "quantifier": "every sequence of operations, every segmentation", "why_tests_cant": "unbounded histories", "anchors": ["binate/src/connection/buf.rs: BufList"]}
{"id": "C36", "title": "BufList overruns panic, and only overruns", "statement": "`copy_to_bytes(n)` and `advance(n)` panic exactly when n > remaining(), and terminate otherwise, provided no empty buffer was pushed. (With an empty front buffer, possible in release builds, copy_to_bytes can loop forever.)", "quantifier": "every list state, every n", "why_tests_cant": "all states", "anchors": ["binate/src/connection/buf.rs: advance, copy_to_bytes, push"]}
{"id": "C37", "title": "chunks_vectored exposes a prefix", "statement": "`chunks_vectored` fills min(dst.len(), number of non-empty segments) slots with the leading non-empty segments in order, never more than dst has room for; if it leaves room, it has shown all bytes.", "quantifier": "every list of contiguous buffers (Bytes), every dst size", "why_tests_cant": "unbounded lists", "anchors": ["binate/src/connection/buf.rs: chunks_vectored"]}
{"id": "C38", "title": "Reassembly semantics", "statement": "Converting a BufList of encoded frames to a Payload concatenates, in order, the metadata and the data of the request/payload frames, ignores other frame kinds, maps empty results to absent, and fails with the first decode error if some buffer does not decode.", "quantifier": "every list of byte buffers", "why_tests_cant": "unbounded lists", "anchors": ["binate/src/connection/buf.rs: TryInto<Payload> for BufList"]}
{"id": "C39", "title": "Stream id range and parity", "statement": "Every id returned by a client-side provider is odd, by a server-side provider is even, and all are < 2^31, under every interleaving of callers.", "quantifier": "every schedule, any number of calls incl. wrap-around", "why_tests_cant": "needs > 2^30 calls to wrap and all interleavings", "anchors": ["binate/src/connection/stream_id.rs"]}
{"id": "C40", "title": "Stream ids are not in use", "statement": "The id returned by next_stream_id was not a key of the store at the moment of its check, under every interleaving with concurrent callers and concurrent store updates.", "quantifier": "every schedule, every store history", "why_tests_cant": "all interleavings", "anchors": ["binate/src/connection/stream_id.rs: next_stream_id"]}
{"id": "C41", "title": "Stream ids are unique until wrap-around", "statement": "Under every interleaving, as long as at most 2^30 ids have been drawn from the counter, no id is returned twice.", "quantifier": "every schedule with any number of threads", "why_tests_cant": "all interleavings and up to 2^30 draws", "anchors": ["binate/src/connection/stream_id.rs"]}
{"id": "C42", "title": "next_stream_id terminates when an id is free", "statement": "A call running alone returns after at most (number of same-parity keys in the store)+1 probes if fewer than 2^30 such keys are in use, and it returns the first free id in counter order; it never returns if all 2^30 ids of that parity are in use.", "quantifier": "every store, every counter value", "why_tests_cant": "stores of unbounded size", "anchors": ["binate/src/connection/stream_id.rs: next_stream_id"]}
{"id": "C43", "title": "Stream id 0 is never allocated", "statement": "No call returns the reserved stream id 0. (True for client providers forever; false for server providers, which return 0 after 2^30-1 draws.)", "quantifier": "every schedule, every number of calls", "why_tests_cant": "the failure needs 2^30 calls", "anchors": ["binate/src/connection/stream_id.rs: next_stream_id"]}
{"id": "C44", "title": "RequestCounter is exact under concurrency", "statement": "After any interleaving of add/dec operations the counter equals initial + sum of adds - number of decs modulo 2^32 (as i32); each dec returns the value just before it; load and is_zero observe the current value and change nothing.", "quantifier": "every schedule, every number of operations", "why_tests_cant": "all interleavings", "anchors": ["binate/src/connection/counter.rs"]}
{"id": "C45", "title": "RequestCounter never over-grants", "statement": "If initial plus all added permits stay within i32 range, then at every point of any interleaving the number of dec calls that returned a positive value is at most the number of permits granted so far. (False: 2^31+2 dec calls on an exhausted counter wrap it to a positive value; proved while that has not happened.)", "quantifier": "every schedule", "why_tests_cant": "all interleavings", "anchors": ["binate/src/connection/counter.rs: dec, add"]}
{"id": "C46", "title": "is_zero means no permits are left", "statement": "`is_zero()` is true exactly when no permit is available. (False: one dec at zero makes the counter negative, is_zero() becomes false, and the next added permit is swallowed; permits above 2^31-1 wrap to negative.)", "quantifier": "every history of operations", "why_tests_cant": "all histories", "anchors": ["binate/src/connection/counter.rs: is_zero, dec, add"]}
{"id": "C47", "title": "Error classification is a partition", "statement": "Every error is exactly one of decode, protocol or I/O; is_setup implies is_protocol; exactly one of the ten specific protocol predicates holds for a protocol error and none for others.", "quantifier": "every error value", "why_tests_cant": "holds for all kinds and any wrapped decode error", "anchors": ["binate/src/error.rs: Error::is_*"]}
{"id": "C48", "title": "Error descriptions name their code", "statement": "The message of a protocol error shows the protocol name and code of that error, the Code enum agrees with the ERROR frame constants, and different kinds have different messages. (False for REJECTED, which is described as CONNECTION_ERROR.)", "quantifier": "every protocol error kind", "why_tests_cant": "finite table, listed for completeness of the message/code agreement", "anchors": ["binate/src/error.rs: description, Code", "binate/src/frame/codec/error.rs: constants"]}
{"id": "C49", "title": "Decode errors are preserved by conversion", "statement": "Converting any DecodeError to Error gives an error with is_decode() true, all other predicates false, whose Display is \"error decoding frame: \" followed by the Display of the decode error; Display of DecodeError distinguishes all different errors, and the stream id or frame type can be read back from it: hexadecimal digits after 0x for a frame type, decimal digits for a stream id.", "quantifier": "every DecodeError incl. every u16/u32 payload", "why_tests_cant": "2^32 stream ids, 2^16 types", "anchors": ["binate/src/error.rs: From<DecodeError>", "binate/src/frame/decode.rs: Display"]}
{"id": "C50", "title": "MIME parsing is exact", "statement": "Parsing a string gives a well-known type exactly for the 47 listed strings, different strings give different types, everything else gives UNPARSEABLE.", "quantifier": "every string", "why_tests_cant": "all strings", "anchors": ["binate/src/mimetype.rs: From<&str>"]}
{"id": "C51", "title": "MIME types convert back to their string", "statement": "Converting a well-known MIME type to a string returns the string that parses to it. (False: the conversion calls itself and never returns, for every type except UNPARSEABLE.)", "quantifier": "every well-known MIME type", "why_tests_cant": "non-termination cannot be observed by a terminating test", "anchors": ["binate/src/mimetype.rs: From<WellKnownMimeType> for &'static str"]}
{"id": "C52", "title": "Keepalive watchdog timing", "statement": "The keepalive watchdog closes the connection at most once, never earlier than keepalive_timeout after construction, and only when more than keepalive_timeout elapsed since the recorded last-received time; it does close by its second wake-up when the timeout is positive.", "quantifier": "every clock behaviour / wake-up schedule", "why_tests_cant": "all timer schedules", "anchors": ["binate/src/connection/socket.rs: RSocketMachine::new lines 88-100"]}
{"id": "C53", "title": "A connection that receives keepalives is kept open", "statement": "If frames keep arriving within every keepalive_timeout window the watchdog does not close the connection. (False: the recorded time is never updated, so the connection is closed regardless of traffic.)", "quantifier": "every traffic and timer schedule", "why_tests_cant": "all schedules", "anchors": ["binate/src/connection/socket.rs: keepalive_last_received"]}
{"id": "C54", "title": "SETUP MIME accessors", "statement": "`metadata_mimetype()` / `data_mimetype()` return the MIME string exactly when all its bytes are ASCII, and then its bytes are the ones on the wire.", "quantifier": "every byte string", "why_tests_cant": "all byte strings", "anchors": ["binate/src/frame/codec/setup.rs: metadata_mimetype, data_mimetype"]}
{"id": "C55", "title": "UTF-8 accessors", "statement": "`data_utf8` / `metadata_utf8` succeed exactly when the bytes are the UTF-8 encoding of some string, which is returned; an absent part gives the empty string for Payload and None for ErrorFrame.", "quantifier": "every byte string", "why_tests_cant": "all byte strings", "anchors": ["binate/src/payload.rs: data_utf8, metadata_utf8", "binate/src/frame/codec/error.rs: data_utf8"]}
{"id": "C56", "title": "decode accepts exactly the wire grammar", "statement": "`decode(b) = Ok(f)` leaving `r` if and only if `b` parses as `f` followed by `r` according to an independent declarative grammar of the 14 frame kinds (with reserved bits ignored).", "quantifier": "every byte string and every frame", "why_tests_cant": "all byte strings", "anchors": ["binate/src/frame/mod.rs: Frame::decode", "binate/src/frame/codec/*.rs: decode"]}
{"id": "C57", "title": "Concurrent fire_and_forget calls do not mix", "statement": "When any number of fire_and_forget calls run concurrently, with sends interleaved arbitrarily, the frames sent on each call's stream id are exactly that call's frames, in order, while at most 2^30 ids have been drawn; each call stops at its first refused frame and returns that error, and returns Ok only when all its frames were accepted; no call blocks another. Also after more draws, when two calls may hold the same id, every request frame is the next frame of exactly one call, and the METADATA_PUSH frames are those of the metadata_push calls made meanwhile, one per call, in order, with the metadata passed. Both methods can be called at any time.", "quantifier": "every schedule, every number of calls and payloads", "why_tests_cant": "all interleavings", "anchors": ["binate/src/connection/socket.rs: fire_and_forget", "binate/src/connection/stream_id.rs"]}
{"id": "C58", "title": "A failed decode can be retried", "statement": "After `decode` returns InComplete, appending the missing bytes to the same buffer and decoding again yields the frame. (False: the failed call has already consumed the header when at least 6 bytes were present; true when fewer than 6 bytes were present.)", "quantifier": "every byte string and every split point", "why_tests_cant": "all split points", "anchors": ["binate/src/frame/mod.rs: Frame::decode", "binate/src/frame/visit.rs"]}
{"id": "C59", "title": "Payload accessors and builder", "statement": "`builder()` calls in any order give a payload whose metadata()/data() are the last values set (absent if never set); len() is the sum of the part lengths, is_empty() iff it is 0, split() returns both parts, encoding a payload writes metadata then data.", "quantifier": "every sequence of builder calls, every payload", "why_tests_cant": "unbounded histories", "anchors": ["binate/src/payload.rs: Payload, PayloadBuilder"]}
{"id": "C60", "title": "Connection status listener", "statement": "The status listener reports an error for each Closed/Error status it observes, never closes or otherwise acts on the connection, and stops only when the status source yields nothing.", "quantifier": "every sequence of observed statuses", "why_tests_cant": "unbounded status histories", "anchors": ["binate/src/connection/socket.rs: RSocketMachine::new lines 70-86"]}
{"id": "C61", "title": "Requests of a new machine", "statement": "On a machine as `RSocketMachine::new` makes it, fire_and_forget never panics and always sends exactly one complete REQUEST_FNF frame (follows = false) with the caller's payload. Sequential calls use the ids 1, 3, 5, ... (client) or 2, 4, 6, ... (server) modulo 2^31, for any number of calls, and each returns the transport's answer to its own frame. Under every interleaving of callers, for any number of draws, every call that has returned sent exactly one frame and returned the transport's answer to it, ids have this side's parity, are below 2^31, and a client's id never equals a server's. A new machine has no permits, no receivers and no fragment size.", "quantifier": "every role, every list of payloads, every transport, every schedule", "why_tests_cant": "unbounded call histories and interleavings", "anchors": ["binate/src/connection/socket.rs: RSocketMachine::new, fire_and_forget", "binate/src/connection/stream_id.rs: new_for_client, new_for_server"]}
{"id": "C62", "title": "next_stream_id is wait-free while the keys are bounded", "statement": "Under every interleaving of callers and store updates, every drawn id is either returned, rejected because it was a key, or being checked. If only n keys ever occur, then in the first 2^30 draws all threads together fail at most n checks, so the number of draws is at most (ids returned) + n + (calls in progress). Without a bound on the keys a call may be kept probing for ever, even if the store never holds more than one key.", "quantifier": "every schedule, any number of threads, every store history", "why_tests_cant": "all interleavings; starvation needs an unbounded run", "anchors": ["binate/src/connection/stream_id.rs: next_stream_id"]}
{"id": "C63", "title": "Every request kind of the RSocket trait is usable", "statement": "All five methods of `RSocket` return on a usable machine. (False: request_response, request_stream and request_channel panic for every argument, and so do all methods of the default handler DummyRSocket; proved for fire_and_forget and metadata_push.)", "quantifier": "every machine, payload, store and transport", "why_tests_cant": "fire_and_forget must return for every store with a free id", "anchors": ["binate/src/connection/socket.rs: impl RSocket for RSocketMachine", "binate/src/rsocket.rs: DummyRSocket"]}
{"id": "C65", "title": "A closed connection is reported once", "statement": "The status listener reports a close exactly once, however long it runs. (False: it subscribes anew in each round, and `connection_status` publishes the current status to each new subscriber, so the close is reported in every later round; a status replaced between two rounds is never seen.)", "quantifier": "every close time, every schedule of rounds", "why_tests_cant": "the report never ends", "anchors": ["binate/src/connection/socket.rs: RSocketMachine::new lines 70-86", "binate/src/connection/conn.rs: connection_status"]}
{"id": "C67", "title": "Decoders of single frame types", "statement": "Calling the decoder of one frame type directly, with any stream id, flags and buffer, never panics and returns the frame, InComplete or InvalidStreamId with that stream id; the frame keeps the stream id and flags passed; Frame::decode is the header followed by this call; connection-level types refuse a non-zero stream id. (The last part is false for SETUP, METADATA_PUSH, RESUME and RESUME_OK, which ignore the stream id; true for LEASE and KEEPALIVE.)", "quantifier": "every frame type, stream id, flags value and buffer", "why_tests_cant": "all byte strings, 2^32 stream ids", "anchors": ["binate/src/frame/codec/*.rs: decode", "binate/src/frame/mod.rs: Frame::decode"]}
{"id": "C70", "title": "Concurrent requests reach the peer unmixed", "statement": "Any number of fire_and_forget and metadata_push calls share one connection, with frames interleaved arbitrarily. A peer that sorts the received buffers by the stream id in their headers and reassembles each stream gets, for every call that returned Ok, exactly that call's payload (absent and empty parts identified), and for every other call that has an id, parts that are beginnings of the call's parts. No buffer is on a stream that belongs to no call. All this if the frames can be encoded, which fails exactly if the metadata of one does not fit 24 bits, and the reassembly while at most 2^30 ids are drawn.", "quantifier": "every schedule, every number of calls, every payload and fragment size", "why_tests_cant": "all interleavings and unbounded payloads", "anchors": ["binate/src/connection/socket.rs: fire_and_forget, metadata_push", "binate/src/connection/buf.rs: TryInto<Payload>", "binate/src/frame/codec/request_fnf.rs"]}
{"id": "C71", "title": "Accessors return what the constructor was given, also at the peer", "statement": "For every frame made with a public constructor from in-range arguments, each accessor returns the constructor's argument, before sending and after the peer decoded the frame (where a present-but-empty part reads as absent). Times come back as Durations of the same number of milliseconds. For SETUP the accessors show the last call of each kind on the builder or the default, MIME types as text. (After sending: for frames that the peer accepts, that is with metadata of fewer than 2^24 bytes, ERROR codes on the streams they are for, LEASE numbers below 2^31, and for SETUP MIME types of at most 255 bytes and no resume flag without a token.) The constants TYPE and STREAM_ID and the accessor stream_id agree with the header on the wire.", "quantifier": "every constructor, argument and accessor; every builder chain; debug and release", "why_tests_cant": "14 types with unbounded byte arguments", "anchors": ["binate/src/frame/codec/*.rs: accessors, TYPE, STREAM_ID", "binate/src/consts.rs"]}
{"id": "C72", "title": "Concurrent id allocation equals sequential allocation", "statement": "For a stream map that does not change meanwhile, however many threads call next_stream_id and however their calls interleave: at every moment when no call is under way, the ids returned so far are exactly (as a multiset) the ids that one caller alone would have got with the same number of calls from the same starting value, and the provider is left in the state the lone caller would have left. Two schedules with the same number of completed calls therefore return the same ids.", "quantifier": "for every starting value of the counter, every stream map, every number of threads and calls, every interleaving of their atomic steps", "why_tests_cant": "The crate's loom test explores one map and two threads with one call each; the number of interleavings is unbounded in general.", "anchors": ["binate/src/connection/stream_id.rs:30-45", "binate/src/connection/stream_id.rs:99-132"]}
{"id": "C77", "title": "Frames encoded back to back are read one by one", "statement": "If well-formed frames are encoded one after the other into one buffer (with no length prefixes), then calling Frame::decode repeatedly until the buffer is empty returns exactly those frames, in order. (False: a frame whose last field is an unbounded byte field swallows every frame that follows it in the buffer; the claim holds exactly when all frames but the last are CANCEL, REQUEST_N, RESUME or RESUME_OK.)", "quantifier": "for every sequence of well-formed frames of any length and any contents", "why_tests_cant": "Whether a frame swallows its successors depends on its type and not on the bytes, so a test of one pair says nothing about other sequences; the exact boundary needs a statement about all of them.", "anchors": ["binate/src/frame/mod.rs:105-178", "binate/src/frame/codec/cancel.rs", "binate/src/frame/codec/payload.rs", "binate/src/frame/codec/mod.rs"]}
{"id": "C78", "title": "Every bit that is not ignored counts", "statement": "Two inputs that Frame::decode accepts are decoded to the same frame with the same bytes left over exactly when they differ only in ignored bits: the reserved bits and, in frame types that do not keep their flags, the flag bits (all but RESPOND for KEEPALIVE). Changing ignored bits of an accepted input never changes the result, and decoding and encoding again reproduces the input up to ignored bits.", "quantifier": "for every pair of accepted byte strings and every accepted byte string", "why_tests_cant": "The claim is about all pairs of inputs; a test compares single bytes of single frames.", "anchors": ["binate/src/frame/mod.rs:105-178", "binate/src/frame/codec/setup.rs", "binate/src/frame/codec/lease.rs", "binate/src/frame/codec/keepalive.rs", "binate/src/frame/codec/mod.rs"]}
{"id": "C64", "title": "Well-known MIME types survive the handshake", "statement": "Whatever strings of at most 255 bytes a client sets as metadata and data MIME type, a server that decodes the SETUP frame and parses the strings returned by the accessors gets the same WellKnownMimeType values as the client that parses its own strings; this includes strings that are not recognised or not ASCII. (The frame must be one that can be sent: fewer than 2^24 bytes of metadata; and set_resume_flag must not be called without set_resume_token, after which the server cannot read the frame.) In particular every pair of the 47 listed types can be set, sent, and recognised again.", "quantifier": "for every two strings of at most 255 UTF-8 bytes, every sequence of other builder calls that gives a frame with metadata of fewer than 2^24 bytes and no resume flag without a token, both build profiles", "why_tests_cant": "There are 47 squared pairs of listed types and unboundedly many unlisted strings; the crate tests one default SETUP frame.", "anchors": ["binate/src/mimetype.rs:63-141", "binate/src/frame/codec/setup.rs:93-124", "binate/src/frame/codec/setup.rs:304-345"]}
{"id": "C66", "title": "The chunk iterator's size hint is exact", "statement": "PayloadChunks implements ExactSizeIterator, whose contract says that size_hint returns exactly the number of items left as both bounds. (False: size_hint is not overridden, so it returns (0, None), which is a valid but never an exact hint.)", "quantifier": "for every payload, every chunk size, every number of items already taken", "why_tests_cant": "The contract is between trait implementations; no test calls size_hint.", "anchors": ["binate/src/payload.rs:197-242"]}
{"id": "C69", "title": "Documented value constraints are enforced", "statement": "Frames obtained from the public constructors and from Frame::decode satisfy the constraints that the documentation states with MUST: request counts, keepalive interval and keepalive timeout are positive, and a PAYLOAD frame has COMPLETE or NEXT set. (False: an interval of 0 and a PAYLOAD frame with neither flag are accepted in every build profile, request counts of 0 in release builds, and the decoder checks none of this. The partial theorems give for each frame type exactly which arguments lead to a frame that violates the documentation.)", "quantifier": "for every call of a constructor or of the builder with any arguments, both build profiles, every received byte string", "why_tests_cant": "Tests use sensible values; the claim is about all arguments and about both build profiles, of which only one is tested.", "anchors": ["binate/src/frame/codec/request_n.rs:30-43", "binate/src/frame/codec/request_stream.rs:32-60", "binate/src/frame/codec/request_channel.rs:34-66", "binate/src/frame/codec/setup.rs:270-292", "binate/src/frame/codec/payload.rs:31-53"]}
{"id": "C74", "title": "Versions are shown unambiguously", "statement": "Version is displayed as its major and minor number in decimal without superfluous zeros, separated by one dot, and two versions have the same text exactly when they are equal.", "quantifier": "for every pair of versions", "why_tests_cant": "There are 2^32 versions and 2^64 pairs.", "anchors": ["binate/src/frame/version.rs:57-61"]}
{"id": "C76", "title": "Errors report kind and cause for debugging", "statement": "source() returns exactly the cause an error was made with (for a converted DecodeError a cause with the same text, for an io::Error that error). The Debug text of an error is binate::Error( followed by the name of its kind, for decode errors the decode error in parentheses, then the cause if there is one. Unlike the Display text it names every kind properly. Different decode errors have different Debug texts.", "quantifier": "for every error kind, every decode error with any values, every cause", "why_tests_cant": "The texts depend on arbitrary numbers and causes; the crate has no test of Debug or source.", "anchors": ["binate/src/error.rs:223-261", "binate/src/frame/decode.rs:20-34"]}
{"id": "C79", "title": "No frame is empty", "statement": "Encode::is_empty returns false and Encode::len at least 6, the size of the header, for every frame.", "quantifier": "for every frame with any contents, including frames that no constructor builds", "why_tests_cant": "The claim quantifies over all frames of all 14 types.", "anchors": ["binate/src/frame/encode.rs:11-14", "binate/src/frame/mod.rs:85-102"]}
{"id": "C73", "title": "Requests, the background tasks and close() do not disturb each other", "statement": "However requests on clones of a machine, close() calls, the keepalive watchdog and the status listener interleave: the frames that the connection gets are those of the requests in their order, and the requests run as if the tasks were not there; the connection is closed once per close() call and once more exactly if the watchdog timed out and ended; the watchdog acts only when more than the keepalive timeout has passed since the machine was made, it sleeps for the whole timeout each time, and it is never due later than one timeout after the later of its start and the end of the timeout; neither task is ever stuck, and neither keeps a request, close() or clone() from going on; the log holds the lines of the statuses seen, in order, with one line for the timeout among them exactly if the watchdog timed out; nothing is handed to the connection after close() was called on it.", "quantifier": "for every role, timeout, transport, number of clones and every interleaving of any length", "why_tests_cant": "Interleavings of user threads with two background tasks and with time cannot be enumerated.", "anchors": ["binate/src/connection/socket.rs:45-123", "binate/src/connection/socket.rs:148-174"]}
{"id": "C75", "title": "The connection is released with the last handle", "statement": "When the user has dropped every handle of a machine, the connection is dropped; it is never dropped while something may still use it, in particular not while a request is going on, and never twice; a handle can always be dropped if there is another one or no request is going on.", "quantifier": "for every role, timeout, transport, number of clones and every interleaving of any length", "why_tests_cant": "The claim is about reference counts over all interleavings of clones, drops and two background tasks.", "anchors": ["binate/src/connection/socket.rs:30-42", "binate/src/connection/socket.rs:70-101"]}
{"id": "C68", "title": "Error code constants and the application range", "statement": "The ten error code constants and the two bounds of the application range of ErrorFrame have the values of the RSocket protocol; every code of error::Error lies below the application range; an ERROR frame with a code of the application range is accepted by Frame::decode on every stream, 0 included, with its code (also above 0x7FFFFFFF), stream id and data unchanged; and a code is accepted on all streams exactly if it is none of the ten constants.", "quantifier": "for every stream id below 2^31, every code and all data", "why_tests_cant": "The code space has 2^32 values and the stream id space 2^31.", "anchors": ["binate/src/frame/codec/error.rs:42-104", "binate/src/frame/codec/error.rs:166-213"]}
{"id": "C80", "title": "set_request_handler replaces the handler, one call at a time", "statement": "However calls of set_request_handler on clones of a machine interleave and whichever of them are dropped before they return: the handler in place is that of the call that returned last (the dummy handler before any returned); a call that returns has put in place the handler it was given; calls return in the order in which they were first polled; a dropped call never replaces the handler; no handler is lost or dropped twice; and pending calls can always be brought to return, none being overtaken; a call can be made and a pending one dropped at any time.", "quantifier": "for every type of handlers, any number of calls and every interleaving of any length", "why_tests_cant": "The claim ranges over all interleavings and all points at which futures are dropped.", "anchors": ["binate/src/connection/socket.rs:27-28", "binate/src/connection/socket.rs:59-61", "binate/src/connection/socket.rs:125-130"]}
{"id": "C81", "title": "Sizes of fragments on the wire", "statement": "With a fragment size, no frame of a fire_and_forget request takes more than fragment size + 9 bytes on the wire, and all frames of a request together take 9 bytes per frame plus the bytes of the payload. (The first half is false: metadata and data are each cut at the fragment size, so a frame can take 9 + 2 * size bytes; that is the maximum, and with only one part present the bound as stated holds.)", "quantifier": "for every payload, fragment size, transport and machine state", "why_tests_cant": "The lengths depend on two unbounded part lengths and the fragment size; a test with metadata shorter than the fragment minus the data misses the overrun.", "anchors": ["binate/src/connection/socket.rs: fire_and_forget", "binate/src/payload.rs:104-118", "binate/src/frame/codec/request_fnf.rs"]}
{"id": "C82", "title": "Frame sizes in closed form, no amplification", "statement": "For every frame kind, the number of bytes to_bytes writes is a constant of the kind (plus 2 for a SETUP token) plus the bytes of its byte fields, and a successful decode consumes exactly that many bytes; so a decoded frame never holds more bytes than were received for it, whatever the length fields in the input say.", "quantifier": "for every frame and every byte string", "why_tests_cant": "All byte strings with hostile length fields cannot be enumerated.", "anchors": ["binate/src/frame/codec/*.rs: encode, decode", "binate/src/frame/mod.rs: Frame::decode"]}
{"id": "C83", "title": "Truncated frames are detected", "statement": "If the bytes of a well-formed frame are cut short anywhere, decode reports InComplete. (False: frames whose last field has no length prefix are accepted with that field cut; decode reports InComplete exactly if the cut is before that field, and otherwise returns the frame with the last field cut, so CANCEL, REQUEST_N, RESUME and RESUME_OK are always protected.)", "quantifier": "for every byte string that decodes, every length to cut it to", "why_tests_cant": "Every frame has a different set of dangerous cuts; all lengths of all frames cannot be tried.", "anchors": ["binate/src/frame/mod.rs: Frame::decode", "binate/src/frame/visit.rs:79-101", "binate/src/frame/codec/*.rs: decode"]}
{"id": "C84", "title": "Missing fragments are detected", "statement": "Reassembly of the frames of a request succeeds only if they are the fragments of one request, complete and in order. (False: whichever fragments arrive, in whichever order and however often, reassembly succeeds with what they carry; if some are lost the result is the payload with bytes left out, a prefix if only the last ones are lost, and equal to the payload exactly if no lost fragment carried bytes.)", "quantifier": "for every payload, fragment size, machine state and every selection of the fragments", "why_tests_cant": "The selections of fragments of payloads of unbounded length cannot be enumerated.", "anchors": ["binate/src/connection/buf.rs:33-60", "binate/src/connection/socket.rs: fire_and_forget"]}
{"id": "C85", "title": "Refused arguments are named", "statement": "In debug builds the panic of a constructor names the first parameter that is out of range (stream_id, initial_request_n, ...) and the requirement it breaks, and there is no panic otherwise; in release builds `new` never panics. SetupFrame::builder() panics at the first call whose argument is out of range, with the message for that argument; the limits for tokens and MIME types hold in release builds too.", "quantifier": "for all constructors, arguments and sequences of builder calls, both build profiles", "why_tests_cant": "The order of the checks shows only when several arguments are wrong at once, and the messages differ per parameter.", "anchors": ["binate/src/frame/codec/mod.rs:5-21", "binate/src/frame/codec/setup.rs:276-340"]}
{"id": "C86", "title": "Debug output of frames is faithful and safe to log", "statement": "Two frames have the same {:?} text only if they are equal: no field is left out and no payload can imitate the text of other fields. Whatever bytes a frame carries, the text consists of printable ASCII characters only, so that a peer cannot put line breaks or terminal control sequences into a log. The text names the kind of the frame and each of its fields, in the order of the declaration, numbers in decimal. Bytes are shown as a byte string literal that stands for exactly these bytes when read back. A set of flags is shown as the names of exactly the bits that are set, in the order of their declaration, with all names of a bit that has several (FOLLOWS | RESUME | RESPOND), or as (empty); bits without a name follow as a number.", "quantifier": "for all frames with any field values and any payload bytes, and all sets of flags", "why_tests_cant": "That no two of infinitely many frames collide, and that no payload can escape its quotes, needs an argument about the whole text.", "anchors": ["binate/src/frame/mod.rs:33-63", "binate/src/frame/flags.rs:157-172", "binate/src/frame/codec/*.rs: #[derive(Debug)]", "binate/src/payload.rs:27-31"]}
{"id": "C87", "title": "No caller can starve a request", "statement": "A fire_and_forget call returns after a bounded number of its own steps, whatever the other callers, the transport and the peer do meanwhile: at most two steps per stream id that was ever in use on the receiving side, plus two for its own id, one per frame and one to return. All calls together draw at most one id per call and one per id in use. The limit on calls is needed: if the others draw all 2^30 ids again and again, a call whose draws fall on an id in use never gets further. Without it, from any point at which the others pause, a running call can still finish alone within a bounded number of steps, leaving them where they were.", "quantifier": "every schedule, payload and transport; the bound while calls and ids in use together are at most 2^30, finishing alone after any number of calls while fewer than 2^30 ids are in use", "why_tests_cant": "That no interleaving makes the loop for a free id spin on is a statement about all infinite schedules; a stress test sees a few.", "anchors": ["binate/src/connection/socket.rs:148-167", "binate/src/connection/stream_id.rs:29-43"]}
{"id": "C88", "title": "Requests stay apart on a connection of any age", "statement": "However many requests a machine has sent before, what is sent with the stream id of a fire_and_forget call while that call is in progress is a prefix of exactly the frames the same call would send alone, all of them once it returned Ok and at least one if it returned an error; and two calls in progress never have the same id.", "quantifier": "every schedule, transport, payload and fragment size other than 0, every number of calls and of ids drawn before", "why_tests_cant": "The ids wrap after 2^30 draws; no test draws that many while one call is under way, and the failure needs exactly that.", "anchors": ["binate/src/connection/socket.rs:148-167", "binate/src/connection/stream_id.rs:29-43"]}
{"id": "C89", "title": "Any Buf will do for decoding", "statement": "A buffer type only needs the three required methods of Buf: with the copy_to_bytes the trait provides, Frame::decode gives the same frame, error or panic and leaves the same bytes as on its bytes in one piece; for VecDeque<u8> in particular it does not matter where the deque is split. The provided copy_to_bytes(n) returns the first n bytes and panics exactly if there are fewer.", "quantifier": "every buffer type whose remaining, chunk and advance keep their contract, every state of it", "why_tests_cant": "All buffer types, all contents and all ways to split them.", "anchors": ["binate/src/frame/mod.rs: Frame::decode<B: Buf>", "binate/src/frame/visit.rs"]}
{"id": "C90", "title": "chunks_vectored leaves nothing out", "statement": "What chunks_vectored shows of a BufList is a prefix of its bytes, for every type of buffers in it.", "quantifier": "every buffer type that keeps the contract of Buf, every list, every number of slots", "why_tests_cant": "Only types with several chunks and without an own chunks_vectored go wrong, and only if another buffer follows.", "anchors": ["binate/src/connection/buf.rs: chunks_vectored"]}
{"id": "C91", "title": "Permit counts do not depend on an assumed interleaving", "statement": "Every execution of new, dec, add, load and is_zero on one RequestCounter that the memory model of Rust (C++20) allows is as if the calls were made one after the other in an order that agrees with happens-before, whatever the memory orderings; a call that happens after all others finds exactly initial + added - taken; no dec is told of a permit that does not exist (while the count does not wrap).", "quantifier": "every finite event graph with reads-from, modification order and happens-before that satisfies coherence and atomicity", "why_tests_cant": "A weak-memory execution cannot be provoked at will on a given processor; tests see a few schedules of one machine", "anchors": ["binate/src/connection/counter.rs: RequestCounter"]}
{"id": "C92", "title": "Stream ids do not depend on an assumed interleaving", "statement": "Every execution of threads calling next_stream_id, with Relaxed fetch_add and a lock-based map, that the memory model allows is one of the step by step executions: an order of all events in agreement with happens-before exists in which they happen one after the other with the same ids and the same answers of contains_key. So ids are unique up to 2^30 draws and have the range and parity of C39 in every such execution, and the draws have consecutive positions in which a draw that happens after another comes later.", "quantifier": "every finite event graph that the memory model allows, any number of threads, any insertions and removals of keys", "why_tests_cant": "loom explores one small program; Relaxed executions are not reproducible", "anchors": ["binate/src/connection/stream_id.rs: next_stream_id"]}
{"id": "C93", "title": "to_bytes allocates exactly once", "statement": "In whatever pieces the encoder of a value writes its bytes, for each of the eighteen types that implement Encode, the buffer of capacity len() that to_bytes makes never has to grow, for a frame a smaller one would, and it is filled completely, so that freeze does not allocate again; a value without bytes takes no allocation. (False for SETUP without a resume token: 2 bytes of room are left and freeze allocates a second time; encode.rs:18-19 documents a capacity of exactly len().)", "quantifier": "every value that can be encoded, every division of its bytes into pieces", "why_tests_cant": "allocation is invisible to tests, and the sizes range over all payloads", "anchors": ["binate/src/frame/encode.rs: Encode::to_bytes", "binate/src/frame/codec/*.rs: len"]}
{"id": "C94", "title": "decode rejects frames that break a documented requirement", "statement": "Every frame that decode returns meets each requirement that the documentation of its type states with MUST: stream id 0 for frames that pertain to the connection, 31-bit stream ids, counts, times and error codes, 63-bit positions, token lengths, the stream id that goes with an error code, non-zero request_n, initial_request_n, keepalive interval and keepalive timeout, COMPLETE or NEXT on PAYLOAD. (False for exactly the error code width, the four non-zero requirements and the flags of PAYLOAD; the frames returned are characterised exactly.)", "quantifier": "every byte string, every requirement", "why_tests_cant": "that no byte string yields a frame outside a set cannot be sampled, nor can it be seen from tests which of the requirements are never checked", "anchors": ["binate/src/frame/mod.rs: Frame::decode", "binate/src/frame/codec/*.rs: decode"]}
{"id": "C95", "title": "{:#?} of a frame is its {:?} on several lines", "statement": "The long Debug form of a frame has each field on its own line, indented by four spaces per level. Put back on one line it is the short form, for every frame that can be built or decoded, so that it determines the frame. Apart from line breaks it is printable ASCII, and the number of line breaks depends only on the kind of the frame and on which optional parts are present: no content of a frame adds a line.", "quantifier": "every frame value; for the comparison with the short form every frame without unnamed flag bits", "why_tests_cant": "that no payload imitates the structure of the text or adds a line is a statement about all payloads", "anchors": ["binate/src/frame/mod.rs: Frame (derive Debug)", "binate/src/frame/codec/*.rs (derive Debug)"]}
{"id": "C96", "title": "Debug of builders, counters, types and errors", "statement": "Both Debug forms of the payload builder, the SETUP builder after any calls, PayloadChunks, RequestCounter, StreamIdProvider, FrameType, ConnectionStatus, DecodeError, Error and Timeout show their fields under their names: the counter the signed value that load returns, the provider a signed number whose lowest 31 bits are the next candidate id, a frame type the name that the protocol has for its number, an error its kind and its source.", "quantifier": "every value of these types", "why_tests_cant": "counter values after wrap-around, arbitrary byte contents and call sequences cannot be enumerated", "anchors": ["binate/src/payload.rs: PayloadBuilder, PayloadChunks", "binate/src/frame/codec/setup.rs: SetupFrameBuilder", "binate/src/connection/counter.rs: RequestCounter", "binate/src/connection/stream_id.rs: StreamIdProvider", "binate/src/frame/flags.rs: FrameType", "binate/src/connection/conn.rs: ConnectionStatus", "binate/src/frame/decode.rs: DecodeError", "binate/src/error.rs: Debug for Error"]}
{"id": "C97", "title": "Encode, on everything that implements it", "statement": "Encode is implemented by Frame, by the fourteen frame types and by U24, Version and Payload. For each of them encode leaves what is in the buffer as it is and appends the bytes that to_bytes gives, whatever is in the buffer, or panics where to_bytes panics. A frame type writes and counts what the Frame made of it does and is never empty. A U24 is its three big-endian bytes; a Version four bytes, which order versions when they are compared as bytes; a Payload its metadata followed by its data, from which it cannot be read back. len() and is_empty() are right about these three.", "quantifier": "every value of the eighteen types and every content of the buffer", "why_tests_cant": "2^64 pairs of versions and arbitrary contents of buffer and payload cannot be enumerated", "anchors": ["binate/src/frame/encode.rs: Encode", "binate/src/frame/u24.rs: Encode for U24", "binate/src/frame/version.rs: Encode for Version", "binate/src/payload.rs: Encode for Payload", "binate/src/frame/mod.rs: Encode for Frame", "binate/src/frame/codec/*.rs: impl Encode"]}
{"id": "C98", "title": "What len() of the chunk iterator computes, for all sizes", "statement": "For every payload and chunk size (any usize) and after any number of next() calls, len() is exactly the larger, over metadata and data, of the ceiling of (bytes left rounded to binary32) / (chunk size rounded to binary32), the quotient rounded to binary32 too, where rounding is what IEEE-754 defines: the nearest finite number of the format, and of two equally near ones that with an even significand; the result saturates at usize::MAX. Such a number exists and is unique for all values that occur, so no overflow, subnormal or NaN is involved. len() never grows while the iterator is used, and it is 0 exactly when no byte is left.", "quantifier": "every payload, every chunk size, every number of next() calls", "why_tests_cant": "Rounding shows at lengths above 2^24; no test covers all pairs of 64-bit lengths and sizes.", "anchors": ["binate/src/payload.rs:200-209: len"]}
{"id": "C99", "title": "Decoding is bounded work and copies nothing twice", "statement": "Whatever Buf the caller passes to Frame::decode, and whatever is in it: when a frame comes out, its byte strings (resume token, MIME types, metadata, data) are the values that copy_to_bytes of that buffer returned, one call for each and in the order of the wire, and its numbers were read with advance calls that together pass over exactly the bytes the layout gives to numbers. When an error comes out, at most three strings were copied and 25 bytes of numbers read. No input causes more than 5 calls of copy_to_bytes or 28 of advance. If the buffer keeps the contract of Buf, the strings and numbers of the frame are together exactly as long as what was consumed, so a length field in the input never makes a frame hold more than was sent.", "quantifier": "every type implementing Buf, every state of it, every input", "why_tests_cant": "Arbitrary buffers and arbitrary bytes cannot be enumerated; a test can only count calls on the inputs it has.", "anchors": ["binate/src/frame/mod.rs:107-177: decode", "binate/src/frame/visit.rs:14-114: eat_*", "binate/src/frame/codec/*.rs: decode"]}
{"id": "C100", "title": "Calls that do not overlap keep their order on the wire", "statement": "Any number of threads call fire_and_forget and metadata_push on one socket. If a call of fire_and_forget has returned before another call of either method is made, then every frame of the first comes before every frame of the second on the wire, for any transport, fragment size, interleaving and number of calls. From any moment on, only calls that are under way or made later add frames, and the METADATA_PUSH frames appear in the order of their calls.", "quantifier": "every execution of any number of concurrent callers, every transport", "why_tests_cant": "the executions of unboundedly many threads cannot be enumerated by tests", "anchors": ["binate/src/connection/socket.rs:146-174: fire_and_forget, metadata_push"]}
{"id": "C101", "title": "Lengths in machine arithmetic", "statement": "On a 64-bit machine, len of a frame is the size it announces (that of its encoding; for SETUP without resume token 2 more) if this is below 2^64, and otherwise panics with overflow checks and wraps without. It is exact for every frame that can be encoded to, or was decoded from, fewer than 2^64 - 2 bytes; len of a payload is exact for all parts below 2^63 bytes. remaining of a BufList is the number of bytes in it under the same rule, and a list of non-empty buffers with fewer than 2^64 bytes decodes like the same bytes in one piece in both kinds of build. From 2^64 bytes on, decoding panics with overflow checks; without, a list whose size is below 6 modulo 2^64 is called incomplete although a whole frame is at its front.", "quantifier": "every frame, every list of buffers that keep the contract of Buf, both builds", "why_tests_cant": "no machine holds buffers of this size; clones of one buffer in a BufList can add up to it", "anchors": ["binate/src/connection/buf.rs:66-68: remaining", "binate/src/frame/codec/setup.rs:164-189: len", "binate/src/payload.rs:45-54: len", "binate/src/frame/mod.rs:85-110: len, decode"]}
{"id": "C102", "title": "Frames after close() belong to calls that overlap with it or come later", "statement": "The user closes the connection, or the watchdog does, while any number of threads use the socket. Everything that a call handed over which had returned before comes before the close in what the connection sees; frames after the close belong to calls of fire_and_forget that were under way at that moment or made later, and to later metadata_push calls, in the order of those. If no call is under way and none is made, no frame follows; nor does one after the last handle was dropped, whatever the background tasks do. So over a connection that does nothing with frames after its close, as documented, the peer gets exactly the frames from before the first close, with the frame of every call that had returned Ok by then.", "quantifier": "every execution of the whole system: any number of callers, clones and drops, both background tasks, every transport", "why_tests_cant": "unboundedly many interleavings of requests, close() and the background tasks", "anchors": ["binate/src/connection/socket.rs:105-118: close, handle_connection_error", "binate/src/connection/socket.rs:146-174: fire_and_forget, metadata_push", "binate/src/connection/socket.rs:71-101: background tasks"]}
{"id": "C103", "title": "Streams are opened in ascending order of their ids", "statement": "The ids of the request frames that a machine sends never go down on the wire: a frame on stream a is never followed by a frame on a stream below a. (False: a call of fire_and_forget can be overtaken after it has drawn its id, so the peer can see stream 3 before stream 1. A frame can only follow one with a higher id if its call had its id and was in progress when that one was already sent; ids drawn later are higher; after a moment without a call in progress all ids are higher than before; and the ids never go down when callers take turns, all until the counter wraps around.)", "quantifier": "every execution of any number of concurrent callers, every transport and fragment size; the ascending order until the ids wrap around after 2^30 draws", "why_tests_cant": "the overtaking needs a switch of threads between two instructions of one call; all interleavings cannot be tried", "anchors": ["binate/src/connection/socket.rs:146-168: fire_and_forget", "binate/src/connection/stream_id.rs:29-40: next_stream_id"]}
{"id": "C104", "title": "Frames that look the same are equal", "statement": "Two frames of the same type are equal if all their accessors return the same. (False: the METADATA bit and flags that the frame type does not define are compared but not shown, so a received request with empty metadata and one without metadata look the same and are not equal; and MIME types that are not ASCII all look like none. All accessors agree exactly if the frames differ at most in flag bits without an accessor and in MIME types neither of which is ASCII. Constructors and the SETUP builder set the METADATA bit exactly if there is metadata and no other hidden flag, so the frames they make are equal as soon as all accessors agree, unless they have such MIME types.)", "quantifier": "all pairs of frames, whether built, decoded or made in any other way", "why_tests_cant": "there are unboundedly many pairs of frames, and the ones that fail are not made by the constructors", "anchors": ["binate/src/frame/codec/payload.rs:20-25: PayloadFrame PartialEq", "binate/src/frame/codec/request_response.rs:20-25: RequestResponseFrame PartialEq", "binate/src/frame/codec/setup.rs:38-48: SetupFrame PartialEq"]}
{"id": "C105", "title": "Flags are sets", "statement": "A value of type Flags behaves as a set of the five declared bits: any sequence of insert, remove, toggle, set, extend, |=, &=, ^=, -= and ! leaves exactly the flags that the same operations leave in a set, and never an undeclared bit; contains, intersects, is_empty, is_all and == answer for the sets; collecting flags gives their union; from_bits accepts exactly the words without undeclared bits and from_bits_truncate drops those bits; the larger of two values is the one with the highest bit in which they differ; two values are hashed alike by every hasher exactly if they are equal; {:b}, {:o}, {:x} and {:X} print the word in that base, with small or capital letters as asked for and without leading zeros.", "quantifier": "all values of Flags, all 16-bit words and all sequences of operations", "why_tests_cant": "sequences of operations are unbounded", "anchors": ["binate/src/frame/flags.rs:154-174: Flags"]}
{"id": "C106", "title": "Concurrent calls look as if made one after the other", "statement": "Several calls of fire_and_forget and metadata_push may run on one machine at a time. The calls that have returned can be put into an order such that making them in this order, one after the other, on the same machine and connection has the same effects: each call returns the same and the connection is handed the same frames. (False: the numbers of streams can appear out of order, on which even the results can depend if the connection looks at them; and when payloads are sent in parts the parts of different calls mix. On a machine that does not send in parts, as all machines that the crate makes, the claim holds up to the numbers of streams for connections that do not look at them, with an order that respects time: a call that has returned comes before all calls that return later or are only made later. For all connections it holds exactly, numbers included, if and only if the streams appear in the order of their numbers.)", "quantifier": "all machines, connections, numbers of calls, payloads and interleavings", "why_tests_cant": "there are unboundedly many calls and interleavings, and the order has to be found for each", "anchors": ["binate/src/connection/socket.rs:148-174: RSocketMachine::fire_and_forget, RSocketMachine::metadata_push", "binate/src/connection/stream_id.rs:29-40: StreamIdProvider::next_stream_id"]}
{"id": "C107", "title": "What a machine sends is allowed by the protocol", "statement": "Every sequence of frames that a machine sends is one that the RSocket protocol allows its side to send: a client opens the connection with SETUP or RESUME, once and before anything else; requests are sent on stream ids of 31 bits that are not 0, odd for a client and even for a server, and not in use for a request that is under way; the fragments of a request after the first are PAYLOAD frames. (False: a machine sends REQUEST_FNF and METADATA_PUSH frames only, so whatever a client sends is not allowed; after 2^30 - 1 calls a server sends a request on stream 0; with a fragment size, the fragments after the first are sent as REQUEST_FNF frames on a stream in use. If somebody else opens the connection, the frames of any machine are allowed exactly if no request is on stream 0 and no request frame is sent on a stream after one with the FOLLOWS flag; so those of a new client are allowed for ever, and those of a new server while fewer than 2^30 ids are drawn, whatever calls run concurrently and whatever the tasks, the user and the connection do.)", "quantifier": "all machines, connections, roles, numbers of calls, payloads and interleavings; all executions of the system with its background tasks", "why_tests_cant": "an execution can go on for ever, and a server violates the rules only after a billion calls", "anchors": ["binate/src/connection/socket.rs:45-102: RSocketMachine::new", "binate/src/connection/socket.rs:148-174: RSocketMachine::fire_and_forget, RSocketMachine::metadata_push", "binate/src/connection/stream_id.rs:29-40: StreamIdProvider::next_stream_id"]}
{"id": "C108", "title": "What happens in the end", "statement": "In every execution that goes on for ever, if every time comes and no task or thread that could go on is kept from running for ever: the watchdog closes the connection in the end, exactly once, whatever is sent, whatever arrives and whatever the user does; every call of fire_and_forget returns in the end (or has panicked) if no id is registered as in use, or if the calls and the ids that are ever in use are no more than 2^30; on a new machine such a call returns without a panic, having handed its payload to the connection in one frame; and if the user drops all handles and the status stream ends, the connection is dropped in the end and stays dropped. The condition about the status stream is needed: there is an execution in which all handles are dropped and the watchdog has ended and the connection is kept for ever.", "quantifier": "all infinite executions of the system with its background tasks and of concurrent calls, all machines, roles, timeouts, transports, payloads, schedulings that satisfy the fairness conditions", "why_tests_cant": "the statements are about infinite executions and about every fair scheduling of them", "anchors": ["binate/src/connection/socket.rs:45-102: RSocketMachine::new", "binate/src/connection/socket.rs:148-174: RSocketMachine::fire_and_forget", "binate/src/connection/stream_id.rs:29-40: StreamIdProvider::next_stream_id"]}
{"id": "C109", "title": "set_request_handler returns in the end, and the last handler stays", "statement": "In every execution that goes on for ever, if the lock does not stay free for ever while calls wait for it and no call that was given the lock is kept from running for ever: every call of set_request_handler returns in the end, having put its own handler in place, unless its future is dropped, however many calls are made after it; and if no further call is made and the last one is not dropped, the handler that was passed last is in place from some point on, for ever, and no call is pending.", "quantifier": "all infinite executions of any number of concurrent calls of set_request_handler, with futures dropped at any time, all handlers", "why_tests_cant": "the statements are about infinite executions and every fair scheduling of them", "anchors": ["binate/src/connection/socket.rs:125-130: RequestHanlder::set_request_handler"]}
{"id": "C110", "title": "Concurrent calls look as if made one after the other on each stream", "statement": "Calls of fire_and_forget and metadata_push run on one machine at a time, with payloads sent whole or in parts, and have all returned; ids in use stay in use and free ids stay free meanwhile, at most 2^30 ids were drawn, the fragment size is not 0, and the connection's answer to a frame depends only on the frames of the same stream that it was handed before (for METADATA_PUSH frames: on the frames that belong to no stream). Then the calls can be put into an order such that making them in this order, one after the other, on the same machine and connection has the same effects stream by stream: each call returns the same, the connection is handed the same frames in the same order on each stream, with the same stream numbers, and the same METADATA_PUSH frames in the same order. Calls that had returned before another one was made come before it in this order. The condition on the connection is needed: with a connection that takes two frames in all there are two calls that both fail although in either order one after the other the first would return Ok.", "quantifier": "all machines with fragment size other than 0 and any set of ids in use, all connections that answer for each stream on its own, any number of concurrent calls, all payloads, every interleaving", "why_tests_cant": "the order has to be found for every interleaving of any number of calls and every connection; tests see a few schedules", "anchors": ["binate/src/connection/socket.rs:148-174: RSocketMachine::fire_and_forget, RSocketMachine::metadata_push", "binate/src/connection/stream_id.rs:29-40: StreamIdProvider::next_stream_id", "binate/src/payload.rs: PayloadChunks"]}
{"id": "C111", "title": "Clones are one socket, different sockets do not disturb each other", "statement": "Sockets are made with new, cloned and dropped any number of times, and calls of fire_and_forget and metadata_push are made through all of them at once. What is seen of a socket - its ids, the ids in use, its calls and results whichever clone they are made through, and the frames handed to its connection - is then what can be seen of one machine on its own with the same calls, and everything that one machine can do is still possible. All clones with one connection show the same; cloning and dropping a handle changes nothing for any socket; a new socket begins like a machine on its own and changes nothing for the others; no step changes what is seen of two sockets with different connections. Two calls through clones of one socket never have the same stream id as long as at most 2^30 ids were drawn on it.", "quantifier": "any number of sockets and clones, all roles and fragment sizes, all connections, all payloads, every interleaving of making, cloning, dropping and calling", "why_tests_cant": "sharing and separation have to hold for every number of sockets and clones and every interleaving; tests see a few", "anchors": ["binate/src/connection/socket.rs:30-42: RSocketMachine", "binate/src/connection/socket.rs:45-68: RSocketMachine::new", "binate/src/connection/socket.rs:148-174: RSocketMachine::fire_and_forget, RSocketMachine::metadata_push", "binate/src/connection/stream_id.rs:29-40: StreamIdProvider::next_stream_id"]}
{"id": "C112", "title": "A caught panic leaves no half-done work", "statement": "If a call panics and the panic is caught (catch_unwind, or the join handle of a task), everything that outlives the call is as it was before: a buffer that was encoded into or decoded from, a BufList, the machine.", "quantifier": "for all frames, buffers, lists, lengths, machines, payloads and transports that may panic themselves", "why_tests_cant": "What is left behind shows only if a test catches the panic and looks at the buffer afterwards; the tests of the crate use should_panic.", "anchors": ["binate/src/frame/codec/request_fnf.rs:75-84", "binate/src/frame/u24.rs:36-44", "binate/src/frame/mod.rs:107-177", "binate/src/connection/buf.rs:22-25", "binate/src/connection/buf.rs:76-89", "binate/src/connection/buf.rs:108-128", "binate/src/connection/socket.rs:148-174"]}
{"id": "C113", "title": "A connection that panics harms no other call", "statement": "When calls of fire_and_forget and metadata_push run at the same time on one machine and the connection panics while it is handed a frame, only the call that handed it over is ended by the panic. Everything else goes on exactly as if the connection had refused that frame with an error: the other calls hand over their own frames, return what the connection answered and can always take a step; the call that panicked has handed over its first frames up to the one panicked at and nothing after it; the METADATA_PUSH frames are those of the metadata_push calls, in order, each of which returns the answer to its frame or panics with the connection.", "quantifier": "for all machines, payloads, numbers of calls, interleavings and connections that accept, refuse or panic depending on what they were handed (frames of each call: fragment size not 0, at most 2^30 ids drawn; progress: the connection always comes back)", "why_tests_cant": "A panic inside the connection while other calls are at any point of theirs is one of endlessly many interleavings, and the crate has no test with a connection that panics.", "anchors": ["binate/src/connection/socket.rs:148-174", "binate/src/connection/stream_id.rs:29-40"]}
{"id": "C114", "title": "A connection that panics harms neither the machine nor its background tasks", "statement": "When the connection panics in send, send_and_forget, close or connection_status, or its status stream panics, the whole machine goes on exactly as if the connection had refused the frame, returned from close, or ended the status stream. In particular: close of the connection is called once per close() of the user and once by the watchdog after its timeout, not again after a panic; the log has one line per status that asks for one and one for the timeout; frames handed over are those of the requests; and no reference is leaked: the connection is dropped exactly when the user has dropped every handle and both background tasks have ended, by a panic or not, after which it is not used.", "quantifier": "for all roles, timeouts, payloads, numbers of calls, handles and clones, interleavings of requests, close(), statuses, time and panics, and all connections that accept, refuse or panic depending on what they were handed (the converse, that nothing is lost by panicking, is for connections that always come back; logging is assumed not to panic)", "why_tests_cant": "Panics can hit any of the calls, the listener and the watchdog at any moment; the crate has no test with a connection that panics.", "anchors": ["binate/src/connection/socket.rs:45-118", "binate/src/connection/socket.rs:148-174"]}
{"id": "C115", "title": "A handler that panics when it is dropped harms nothing", "statement": "A request handler may panic in its destructor, when set_request_handler replaces it or when the future of a call is dropped together with the handler that it was given. The panic ends that call or goes to whoever dropped the future, and everything else is as if there had been no panic: the new handler is in place even if the old one panicked, the lock is free again, the calls that wait get it in their order and return in the end, and no handler is lost or dropped twice.", "quantifier": "for every type of handlers, any number of calls, every interleaving of any length, any choice of the handlers that panic (returning in the end: all infinite executions in which the lock does not stay free for ever while calls wait and no holder is kept from running for ever)", "why_tests_cant": "Destructors that panic inside a lock while other calls wait for it are hardly ever tested, and the state after unwinding depends on the order in which Rust drops and assigns.", "anchors": ["binate/src/connection/socket.rs:125-130"]}
{"id": "C116", "title": "Shutting down the runtime", "statement": "When the runtime on which a socket was made is shut down, it drops the background tasks where they wait. Handles that live on elsewhere work as before: requests hand over the same frames and can take the same steps, and close, clone and drop remain possible. The shutdown does not close the connection: that happens once per close() of the user and once more exactly if the watchdog had timed out before. No reference is leaked: the connection is dropped exactly when every handle is dropped and each task has ended or was dropped with the runtime, no request is then going on, and it is not used afterwards. The keepalive timeout is enforced exactly until the watchdog is dropped: afterwards no timeout is logged and only the user closes the connection, however long it is silent.", "quantifier": "for all roles, timeouts, transports, payloads, numbers of calls, handles and clones, and every interleaving of requests, close(), statuses, time and the shutdown", "why_tests_cant": "The shutdown can come at any moment of the tasks and of any number of requests; a test would have to outlive its own runtime.", "anchors": ["binate/src/runtime.rs:6-10: spawn", "binate/src/connection/socket.rs:71-107", "binate/src/connection/socket.rs:148-174"]}
{"id": "C117", "title": "Log lines that panic", "statement": "Logging runs foreign code (the tracing subscriber, Display of the transport's error) and may panic. This ends only the background task that logs: requests, close, clone and drop go on as ever, no reference is leaked and the connection is not used after it was dropped; a listener that panicked reports nothing more and leaves the watchdog alone; and the watchdog closes the connection before it ends. (The last is false: it logs the timeout before it closes the connection, so if this line panics the connection stays open for ever unless the user closes it. The watchdog has closed the connection exactly if it has ended without a panic.)", "quantifier": "for all roles, timeouts, transports, payloads, numbers of calls, handles and clones, every interleaving and every choice of the log lines that panic", "why_tests_cant": "A subscriber or error that panics is not part of any test, and the panic can come at any moment of the requests.", "anchors": ["binate/src/connection/socket.rs:71-122"]}
{"id": "C118", "title": "Any number of sockets with their background tasks", "statement": "Sockets are made with new, cloned, closed and dropped any number of times and at any time, each with its listener and its watchdog, and everything runs at once. What is seen of one socket with its tasks - its requests, the frames, closes and log lines of its connection, its watchdog, its listener, the number of its handles and whether its connection was dropped - is then what can be seen of one machine on its own, and everything that one machine and its tasks can do remains possible. No step but the passing of time is noticed by two sockets; a new socket begins from scratch and is not noticed by the others. So a connection is dropped exactly when its own handles are dropped and its own tasks have ended, and it is closed once per close() on its own handles and once more by its own watchdog after its own timeout.", "quantifier": "for any number of sockets and clones, all roles and timeouts, all connections, all payloads, and every interleaving of making, cloning, dropping, closing, calling, statuses, wakeups and time", "why_tests_cant": "Tasks of many sockets interleave with each other and with the calls; a task that gets hold of the wrong connection or timeout shows only with several sockets of different age.", "anchors": ["binate/src/connection/socket.rs:30-42: RSocketMachine", "binate/src/connection/socket.rs:45-122: RSocketMachine::new, close, handle_connection_error", "binate/src/connection/socket.rs:148-174: RSocketMachine::fire_and_forget, RSocketMachine::metadata_push"]}
{"id": "C119", "title": "Each of any number of sockets is served in the end", "statement": "In every execution that goes on for ever with any number of sockets being made, used and dropped, in which every time comes: a socket whose own watchdog is not kept from running for ever is closed by it, once, in the end, even if the watchdogs of others never run; if its handles are dropped and its listener ends, its connection is dropped in the end, whatever other sockets are still in use; and a request on it whose own thread is not kept from running returns in the end and has handed its frame to its own connection.", "quantifier": "all infinite executions of any number of sockets, clones, tasks and requests, all roles, timeouts, connections and payloads (requests: no ids of the socket in use, or at most 2^30 of its calls and ids ever in use)", "why_tests_cant": "The statements are about infinite executions and every scheduling that is fair to one socket only.", "anchors": ["binate/src/connection/socket.rs:45-122: RSocketMachine::new, close, handle_connection_error", "binate/src/connection/socket.rs:148-174: RSocketMachine::fire_and_forget"]}
{"id": "C120", "title": "Everything that can go wrong, at once", "statement": "A socket whose connection panics in any call, whose log lines panic and whose runtime is shut down, all in one life, is exactly a socket whose connection refuses and whose tasks were dropped. The frames handed over are those of the requests; close of the connection is called once per close() of the user and once by a watchdog that has timed out and logged it; the log has one line per reported status and one for the timeout; the connection is dropped exactly when every handle is dropped and both tasks are gone for whatever reason, no request is then going on and it is not used afterwards; a user with a handle can always close, clone, drop and take any step of a request; the watchdog can still close the connection exactly if it was not dropped by the runtime and has not panicked at the line of the timeout; and once a shutdown has begun the tasks can end.", "quantifier": "for all roles, timeouts, payloads, numbers of calls, handles and clones, all connections that accept, refuse or panic depending on what they were handed, and every interleaving of requests, close(), statuses, time, panics of the connection, panics of log lines and the shutdown (the converse, that nothing else is lost, is for connections that always come back)", "why_tests_cant": "The kinds of trouble meet in any order at any moment of two tasks and any number of requests.", "anchors": ["binate/src/connection/socket.rs:45-122", "binate/src/connection/socket.rs:148-174", "binate/src/runtime.rs:6-10: spawn"]}
{"id": "C121", "title": "What happens in the end, whatever goes wrong", "statement": "In every execution that goes on for ever in which the connection panics at will, log lines panic and the runtime may be shut down: a watchdog that is not kept from running has in the end closed the connection once, or was dropped with the runtime or panicked at the line of the timeout and then never closes it; without the last two the connection is closed in the end, whatever else panics. If the user drops all handles and the listener ends for whatever reason, the connection is dropped in the end. A runtime that is shut down and leaves no task where it is for ever is rid of both tasks in the end, even if time stands still, and the connection is dropped once the handles are. Every request whose thread is not kept from running returns or panics in the end, and its frame was handed over by then.", "quantifier": "all infinite executions, all roles, timeouts, payloads, numbers of calls, handles and clones, all connections that accept, refuse or panic depending on what they were handed, and every interleaving (the watchdog and drop without a shutdown: every time comes; requests: the connection comes back from every call; no ids in use, or at most 2^30 calls and ids ever in use)", "why_tests_cant": "The statements are about infinite executions with panics and a shutdown at any moment.", "anchors": ["binate/src/connection/socket.rs:45-122", "binate/src/connection/socket.rs:148-174", "binate/src/runtime.rs:6-10: spawn"]}
{"id": "C122", "title": "Any number of sockets, whatever goes wrong", "statement": "Any number of sockets, of either role, with clones, live on any number of runtimes; each connection may panic in any call, any log line may panic and any runtime may be shut down. Each socket with its tasks is in a state that it could be in alone, over its own connection and on its own runtime, and each can do whatever it could do alone. Every step is time passing for all, the beginning of the shutdown of a runtime (for the sockets made on it and no others), a step of one socket which changes no other in any way, or a new socket which is as if it were the first. Every handle is a copy of one that new has returned. A connection is handed the frames of the requests on its own socket and no others; it is dropped exactly when its own handles are dropped and its own tasks are gone; and close is called on it once per close() on its own socket and once by its own watchdog after its own timeout. Its watchdog cannot close it exactly if that watchdog itself is gone.", "quantifier": "for all numbers of sockets, clones, calls and runtimes, all roles, timeouts and payloads, all connections that accept, refuse or panic depending on what they were handed, and every interleaving of new, clone, drop, requests, close(), statuses, time, panics and shutdowns", "why_tests_cant": "Sockets share nothing only if no panic and no shutdown at any moment of one reaches another.", "anchors": ["binate/src/connection/socket.rs:30-122", "binate/src/connection/socket.rs:148-174", "binate/src/runtime.rs:6-10: spawn"]}
{"id": "C123", "title": "What happens in the end to each of many sockets, whatever goes wrong", "statement": "In every execution that goes on for ever of any number of sockets, with panics of connections, panics of log lines and shutdowns of runtimes: what is seen of one socket is an execution of one machine alone. Its watchdog, if not kept from running, has in the end closed the connection once or is gone; if the watchdog was never lost the connection is closed in the end. If its handles are dropped and its listener ends, its connection is dropped in the end. If its runtime is shut down and leaves none of its tasks where it is for ever, both are gone in the end and the connection is dropped once its handles are. A request on it whose thread is not kept from running returns or panics in the end, and its frame was handed over by then. None of this asks anything of the other sockets: their connections may never come back, their tasks may never run and their handles may be kept.", "quantifier": "all infinite executions, all numbers of sockets, clones, calls and runtimes, all roles, timeouts and payloads, and every interleaving (the watchdog and drop without a shutdown: every time comes; requests: its own connection comes back from every call; no ids of its own are in use, or at most 2^30 of its calls and ids ever in use)", "why_tests_cant": "The statements are about infinite executions of unboundedly many sockets with panics and shutdowns at any moment.", "anchors": ["binate/src/connection/socket.rs:30-122", "binate/src/connection/socket.rs:148-174", "binate/src/runtime.rs:6-10: spawn"]}
{"id": "C124", "title": "What the peers get, whatever goes wrong", "statement": "The peer of a connection sorts the buffers it gets by the stream id in their headers and reassembles each stream. Even if the connection panics in the middle of requests, the peer gets, for every fire_and_forget that has returned Ok, exactly that call's payload, for every other call that has an id and for every call that has panicked, a beginning of each part (of a call that has panicked, at least one buffer), each call on a stream of its own, and nothing on any other stream. The METADATA_PUSH buffers are those of the metadata_push calls, in their order, whether they returned or panicked. On a socket made by new, which does not fragment, a request is all or nothing: once the call has returned, with Ok or an error, or has panicked, the peer gets the whole payload. With any number of sockets, whatever goes wrong with each, the peer of one gets what was asked on that socket and nothing of the others.", "quantifier": "for all roles, payloads and fragment sizes, all numbers of sockets, clones, calls and runtimes, all connections that accept, refuse or panic, every interleaving (if the frames can be encoded, which fails exactly if metadata of 2^24 bytes or more is to be put in one frame; reassembly while at most 2^30 ids are drawn on the socket; calls that have panicked: a fragment size other than 0, with which a call panics before it hands over anything)", "why_tests_cant": "All interleavings of panics and requests on unboundedly many sockets, with unbounded payloads.", "anchors": ["binate/src/connection/socket.rs:148-174", "binate/src/connection/buf.rs: TryInto<Payload>", "binate/src/frame/codec/request_fnf.rs", "binate/src/frame/codec/metadata_push.rs"]}
{"id": "C125", "title": "One request may be kept waiting for ever, but never all", "statement": "As long as a fire_and_forget is under way, requests end (this one or another), if every thread that can go on is scheduled in the end and of the 2^30 ids of the machine at least one is not in use from some time on; however many requests are made, and also if the connection panics at will, as long as it comes back, on any socket among any number of others. For a single request this cannot be promised without the limit on the number of requests in C87 and C108: with one id in use, there is an execution, fair to every request, in which one request is under way for ever while others end again and again. And if all ids of the machine are in use, no request ends. Nor is it enough that at any time some id is free: if the ids in use change, there is an execution, fair to every request, in which never more than one id is in use and yet no request ever ends.", "quantifier": "all infinite executions of concurrent requests that satisfy the fairness condition, all machines, transports, payloads, fragment sizes, any number of requests and sockets", "why_tests_cant": "the statement is about all fair infinite executions; the execution that starves one request draws all 2^30 ids again and again", "anchors": ["binate/src/connection/stream_id.rs:29-40: StreamIdProvider::next_stream_id", "binate/src/connection/socket.rs:148-169: RSocketMachine::fire_and_forget"]}
{"id": "C126", "title": "It does not matter how a connection decides", "statement": "The claims about executions are stated for connections whose answers to a frame (taken, refused, or a panic) are a function of the frames handed over before. They hold of all connections. Whatever the answers depend on - whether the connection was closed, the time, the peer, other connections or chance - every execution is also one over connections of the first kind, that always answer, and where the scheduler is fair in it, it is fair in that one; every state that is reached is reached over such connections.", "quantifier": "all executions, finite and infinite, of concurrent calls, of a machine with its tasks, on a runtime that may be shut down, with log lines and connections that may panic and request handlers that are set and dropped, and of any number of sockets; all connections, with answers that may be different at every step", "why_tests_cant": "a test has one connection; the claim is about every way in which any number of connections can come to their answers", "anchors": ["binate/src/connection/socket.rs:148-174: RSocketMachine::fire_and_forget, RSocketMachine::metadata_push", "binate/src/connection/socket.rs:45-122: RSocketMachine::new"]}
{"id": "C127", "title": "What the peer gets of a connection that is closed", "statement": "Over a connection that keeps its documentation (send does nothing once it is closed), the peer gets what was handed over before the first close, by whomever, and nothing else, whatever is done and goes wrong later. A request on a socket made by new is all or nothing for the peer: if the call had ended at the first close, with Ok, an error or a panic, the peer gets its payload, and if it had not ended or was made later, the peer gets nothing on its stream. Nothing arrives on other streams. The METADATA_PUSH frames that arrive are those of the calls of metadata_push made before. So Ok does not mean that the peer gets the payload: a call made after the close returns Ok and its payload is lost. With any number of sockets this holds for the peer of each.", "quantifier": "for all roles, timeouts, payloads, numbers of sockets, clones, calls and runtimes, all connections that accept, refuse or panic, every interleaving, with the connection closed by the user or the watchdog at any moment (buffers: if the frames can be encoded; reassembly while at most 2^30 ids are drawn on the socket)", "why_tests_cant": "The close can come at any moment of any number of requests, from the user or the watchdog, with panics before and after it.", "anchors": ["binate/src/connection/conn.rs:10-12: send", "binate/src/connection/socket.rs:105-118: close, handle_connection_error", "binate/src/connection/socket.rs:148-174: RSocketMachine::fire_and_forget, RSocketMachine::metadata_push"]}
{"id": "C128", "title": "How long request handlers live", "statement": "The request handler of a socket (the one that new makes, and every one passed to set_request_handler) is dropped exactly once and not too early: when it is replaced, when the future of its call is dropped, or, if it is in place at the end, when every handle was dropped, both background tasks are gone and these drops have come to their end, which they may do in any order and at the same time. Until then the handler in place is that of the call that ended last. Nothing is done with the lock afterwards, and a call that is pending keeps the socket. Handlers and connections that panic when they are dropped, connections and log lines that panic otherwise and the shutdown of the runtime change nothing in this, as long as no destructor panics while another panic unwinds, which aborts the process. Every call ends. In the end every handler is dropped if the user drops all handles and either the listener ends or the runtime is shut down; the user's dropping all handles alone does not do it, as the background tasks hold the socket. What is done with handlers does not change what the rest of the socket does.", "quantifier": "for all roles, timeouts, handlers, numbers of calls and clones, all connections that accept, refuse or panic, every interleaving, and every infinite execution under the fairness conditions that are named", "why_tests_cant": "Which clone is the last depends on the interleaving of the drops with each other and with the end of the background tasks.", "anchors": ["binate/src/connection/socket.rs:27-42: RequestHanlder, RSocketMachine", "binate/src/connection/socket.rs:59-61: RSocketMachine::new", "binate/src/connection/socket.rs:124-130: RequestHanlder::set_request_handler"]}
{"id": "C129", "title": "The background tasks give way to others", "statement": "A background task of a socket leaves its worker thread to others again and again, so that on a runtime with one worker thread or more every watchdog gets its turn and closes its connection in the end. False: over a connection whose status streams have the current status at once, as connection_status is documented to, a poll of the status listener never ends. The thread is lost for ever. In the end there are as many threads lost as there are such sockets, or all, if no listener waits for ever while a thread is free. Once all are lost, which can come about at any time, nothing else is ever polled on the runtime: no other task, no other listener, no watchdog. If these streams say that the connection is closed, the listener fills the log without end in that poll. What is true: however the threads are shared, the listener does with the items it gets what it does by itself, and the watchdog closes at most once and not before the timeout; a poll of the listener ends exactly if some status stream has at some time nothing for it (it is pending or at its end); and if this is so again and again for all sockets, then a worker thread is free again and again and the watchdog of each socket closes its connection in the end.", "quantifier": "for all numbers of worker threads and sockets, all timeouts, all sequences of answers of the status streams, and all executions, finite and infinite (the latter with a scheduler that goes on with polls it has begun and turns to each waiting task if a thread is free again and again)", "why_tests_cant": "Whether a task ever gives way is a statement about infinite executions; a test with a mock connection that has nothing to say does not show it.", "anchors": ["binate/src/connection/socket.rs:70-100: RSocketMachine::new", "binate/src/connection/conn.rs:32-34: connection_status", "binate/src/runtime.rs:5-11: spawn"]}
{"id": "C130", "title": "A runtime that is shut down gets rid of the background tasks", "statement": "When the runtime is shut down, all background tasks are gone in the end, with their clones of the sockets. False: over a connection whose status streams have the current status at once, as connection_status is documented to, a status listener that has been polled is never dropped; it keeps its clone of the socket and its worker thread for ever, and the shutdown never comes to its end, even if no socket is made any more. What is true: once the shutdown has begun, no other task is polled, no waiting listener does anything and no watchdog closes a connection; every watchdog is dropped in the end; a listener is gone in the end exactly if it was not being polled or some status stream has at some time nothing for it; and, if no socket is made any more, all tasks are gone for good from some time on exactly if this is so of every listener.", "quantifier": "for all numbers of worker threads and sockets, all timeouts, all sequences of answers of the status streams, every moment of the shutdown, and all executions, finite and infinite (the latter with a runtime that goes on with polls it has begun and turns to every task that it can drop)", "why_tests_cant": "Whether a shutdown ever ends is a statement about infinite executions, and depends on the state of each task at the moment it begins.", "anchors": ["binate/src/connection/socket.rs:70-100: RSocketMachine::new", "binate/src/connection/conn.rs:32-34: connection_status", "binate/src/runtime.rs:5-11: spawn"]}
{"id": "C131", "title": "Frames can be exchanged with a peer that follows the documented diagrams", "statement": "A frame is sent as in the diagrams, and a frame that arrives as in the diagrams is read as it was meant. False: all flags are one bit off. What is true: a frame is sent as in the diagrams exactly if it has no flags; such a peer takes every flag sent to it for the next lower one (METADATA for FOLLOWS, RESUME and RESPOND and FOLLOWS for COMPLETE or LEASE, COMPLETE and LEASE for NEXT) and does not see NEXT. A frame from such a peer is read as it was meant exactly if it has no flags that are kept; otherwise every flag is taken for the next higher one and IGNORE is lost, all other fields being read correctly, except in a SETUP frame that asks for just one of resumption and leases: if that is accepted, it is with a resume token exactly if it had none. In particular, no KEEPALIVE asks for an answer, neither one sent to such a peer nor one received from it.", "quantifier": "every frame value", "why_tests_cant": "All frame values, and the reader of the other side is not part of the crate.", "anchors": ["binate/src/frame/flags.rs:155-175: Flags", "binate/src/frame/codec/*.rs: struct docs, encode and decode"]}
{"id": "C132", "title": "Frames can be exchanged with a peer that follows the RSocket protocol", "statement": "A frame is sent as the RSocket protocol 1.0 has it, and a frame of a peer that follows the protocol is read as it was meant. False: besides the flags (C131), the metadata length, which the protocol has only if there is metadata, is always there. What is true: exactly the frames with neither a payload nor flags are sent as in the protocol, so none that carries a payload ever is (SETUP, the four requests, PAYLOAD); exactly the frames with neither a payload nor flags that are kept are read as they were meant. A frame of such a peer with metadata is read correctly but for its flags. Of a frame without metadata (other than a SETUP frame that asks for only one of resumption and leases, see C131), the first three bytes of the data are taken for a length, that many bytes after them for metadata and the rest for data; if there are less, the frame is called incomplete. So a client that follows the protocol and sends SETUP without a payload, and asks for neither resumption nor leases, cannot connect.", "quantifier": "every frame value in which METADATA is set exactly if there is metadata (as in all frames made by the constructors)", "why_tests_cant": "All frame values, and the reader of the other side is not part of the crate.", "anchors": ["binate/src/frame/flags.rs:155-175: Flags", "binate/src/frame/codec/*.rs: encode and decode", "binate/src/frame/visit.rs:85-110: eat_payload"]}
{"id": "C133", "title": "fire_and_forget reaches a peer that follows the RSocket protocol", "statement": "What RSocket::fire_and_forget puts on the wire is read by a peer that follows the RSocket protocol 1.0 as a request with the payload of the call that is complete. False of every call. What is true: the peer finds the stream id of the call, no metadata, and as data the metadata length (three bytes) followed by the metadata and the data of the call; it waits for further fragments exactly if the call has metadata. This holds in every execution with any number of concurrent calls, also if the connection panics, and with any number of sockets the peer of each reads the requests on that socket and no others. Nor does it notice the FOLLOWS flag of a fragment: of a call in fragments it reads each one as a request with the encoded fragment as data, to be continued exactly if the fragment has metadata.", "quantifier": "every payload with metadata of less than 2^24 bytes, every transport, every execution with concurrent callers", "why_tests_cant": "All payloads and interleavings, and the reader of the other side is not part of the crate.", "anchors": ["binate/src/connection/socket.rs:148: fire_and_forget", "binate/src/frame/flags.rs:155-175: Flags", "binate/src/frame/codec/request_fnf.rs: encode"]}
{"id": "C134", "title": "metadata_push reaches a peer that follows the RSocket protocol", "statement": "A peer that follows the RSocket protocol 1.0 finds on the wire one METADATA_PUSH frame on stream 0 for each call of metadata_push, with the METADATA flag set and with the metadata of the call. False: the METADATA flag is never where the protocol has it, so a peer that insists on it takes no such frame. Everything else is true: whatever concurrent requests there are, the METADATA_PUSH frames that the peer finds are those of the calls, in their order, with all of the metadata, also if it is empty or larger than any other frame could carry. Calls at which the connection panicked are among them, and with any number of sockets the peer of each finds what was pushed on that socket and nothing else. METADATA_PUSH frames of such a peer are decoded with all of their metadata, whatever their flags.", "quantifier": "all metadata, every transport, every machine and every execution with concurrent callers whose frames can be encoded", "why_tests_cant": "All interleavings, and the reader of the other side is not part of the crate.", "anchors": ["binate/src/connection/socket.rs:171-174: metadata_push", "binate/src/frame/codec/metadata_push.rs:47-51: encode", "binate/src/frame/flags.rs:155-175: Flags"]}
