# Formal model of mapkts/binate in Lean 4

The code under study is the Rust crate in `/repo/binate/src` (about 5000 lines, half of them
comments). It is read as text; nothing is compiled or run.

* [Layout](#layout)
* [How the code is modelled](#how-the-code-is-modelled)
* [What is modelled, file by file](#what-is-modelled-file-by-file)
* [Properties](#properties)
* [Defects and surprises found](#defects-and-surprises-found)
* [Trusted base](#trusted-base)
* [Tests of the theorems](#tests-of-the-theorems)

## Layout

    properties.jsonl          the properties, in terms of the API and its observable effects
    MANIFEST.json             status and theorems of each property
    AXIOMS.md                 the axioms each property theorem depends on
    seeded/LOG.jsonl          wrong programs and the theorems that notice them
    lean/Verif/Model/*.lean   executable model, function by function, each citing /repo
    lean/Verif/Spec/*.lean    small specifications, written without the model's helpers
    lean/Verif/Lemmas/*.lean  helper lemmas
    lean/Verif/Props/*.lean   the property theorems, with `example`s that their hypotheses hold
    lean/Verif/Tests/*.lean   the unit tests of the crate, run on the model

A theorem `Cnn_name` belongs to property `Cnn`. Where a property is false of the code, the theorem
`Cnn_..._false` refutes it with a concrete witness and `Cnn_..._partial` proves what is left; most
of the partial theorems are exact, that is, they say precisely when the property holds.

## How the code is modelled

* **Integers.** `u8 … u64`, `i32` are `BitVec n`: wrap-around and masking are part of several
  properties. `usize` lengths are `Nat`; truncating casts (`as u8`, `as u16`) are explicit. Sums of
  lengths are sums of natural numbers; Model/Usize has them in machine arithmetic, and C101 says when
  the two agree (always, unless one large buffer is cloned astronomically often into the same
  `BufList`).
* **Byte buffers.** `Bytes` and `&[u8]` are `List (BitVec 8)`. A `BytesMut` that is written to is
  the list of the bytes so far. `&mut B` with `B: Buf` is a class with `remaining`, `chunk` and
  `advance` (and `copy_to_bytes` and `chunks_vectored`, which may be overridden); the provided methods that the code uses
  (`get_u8 … get_u64`, `copy_to_slice`, `Take`, `chunks_vectored`, `put`) are modelled from bytes
  1.0.1, and so is `Buf` for `VecDeque<u8>`. Theorems about decoding hold for every lawful buffer.
* **Control.** A function returns `Outcome`: a value, a panic with its message, or divergence.
  Decoders are state passing; an error keeps the partially consumed buffer, as in Rust.
  `debug_assert!` depends on the build profile, which is an argument.
* **Loops** that need not end (`next_stream_id`, `copy_to_bytes`, MIME `into`) carry fuel, and
  divergence is stated as "no amount of fuel suffices".
* **f32.** `PayloadChunks::len` computes with `f32`. The model is IEEE binary32 with rounding to
  nearest, ties to even, on rationals, for the range of values that occur. C98 proves that it agrees
  with the definition of the format and of its rounding (`Spec/Float`: finite numbers with subnormals
  and exponent limits, nearest one, ties to even), so only that definition is trusted.
* **Concurrency.** Every atomic operation is one step and executions are all interleavings of steps.
  That this is enough is proved, not assumed, for the two atomics of the code: `Model/Atomic` has
  the executions of the C++20 memory model as event graphs (reads-from, modification order,
  happens-before, coherence, atomicity of read-modify-write), and C91 and C92 turn each of them
  into an interleaving with the same results, for any choice of memory orderings.
  The map of receivers may change arbitrarily between any two steps.
* **The machine.** `Model/Socket` has the sequential functions, the watchdog and the listener as
  functions of what they observe; `ConcStep` interleaves requests; `Model/System` puts requests,
  close(), the two background tasks, cloning, dropping and time into one transition system;
  `Model/Handler` is the lock around the request handler. `Model/World` has any number of sockets and
  clones, with an address for each field behind an `Arc`; `Model/Sockets` gives each of them its tasks.
* **Panics** end a call and with it, in most models, the story. `Model/Unwind` has the functions that
  can panic and write through `&mut` or an `Arc` once more, with what they have written by then, and
  `WildStep`, which is `ConcStep` over a transport that may panic. `Model/WildSystem` is `Model/System`
  over a connection that may panic wherever it is called; logging does not panic. `Model/WildHandler`
  is `Model/Handler` with handlers that panic when they are dropped. `Model/Noisy` is `Model/System` with
  log lines that may panic.
* **Shutdown** of the runtime: `Model/Hosted` is `Model/System` with steps that drop the background tasks.
  `Model/Storm` has panics of the connection, panics of log lines and the shutdown together, and
  `Model/Storms` the same for any number of sockets on any number of runtimes. `Model/Tended` puts the request
  handler into `Model/Storm`.
* **Transport and time** are parameters: theorems quantify over what the transport answers, when
  timers fire (never early), what statuses are published.

## What is modelled, file by file

| source file | model | not modelled |
|---|---|---|
| frame/mod.rs | Model/Frame, Model/Basic, Model/Debug, Model/Pretty | |
| frame/encode.rs, frame/decode.rs | Model/Encode, Model/Frame, Model/Codec, Model/Capacity, Model/Error, Model/Unwind | |
| frame/visit.rs | Model/Visit | |
| frame/flags.rs | Model/Flags, Model/FlagOps, Model/Debug, Model/Pretty | |
| frame/u24.rs, frame/version.rs | Model/Types | |
| frame/codec/\*.rs (14 codecs and macros) | Model/Codec, Model/Access, Model/Utf8, Model/Debug, Model/Pretty | `Clone` |
| payload.rs | Model/Types, Model/Chunks, Model/F32, Model/Utf8, Model/Debug, Model/Pretty | |
| mimetype.rs | Model/Mime | |
| error.rs | Model/Error | the type `Box<dyn Error>` beyond text and dynamic type |
| consts.rs | Model/Duration | |
| connection/buf.rs | Model/BufList, Model/Usize, Model/Unwind | capacity of the `VecDeque` |
| connection/counter.rs | Model/Counter, Model/Atomic | |
| connection/stream_id.rs | Model/StreamId, Model/Atomic | DashMap inside (its `contains_key` is one step, or a look-up under a lock) |
| connection/socket.rs | Model/Socket, Model/System, Model/Handler, Model/World, Model/Unwind, Model/WildSystem, Model/WildHandler, Model/Hosted, Model/Noisy, Model/Sockets, Model/Storm, Model/Storms, Model/Tended, Model/Workers, Model/Halting | tokio's scheduler, timer and RwLock (used as documented), `tracing` |
| connection/conn.rs | the transport parameter of Model/Socket, `ConnectionStatus` | `ConnectionAcceptor`, `RSocketResponder`: traits without an implementation |
| rsocket.rs | Model/Socket (`DummyRSocket`) | |
| types.rs | | traits without an implementation |
| runtime.rs | `spawn` as the start of a task in Model/System, Model/Hosted, Model/Workers, Model/Halting | |
| lib.rs, prelude.rs, macros, test_helpers.rs | | re-exports, attributes, compile-time checks |

The unit tests in frame/u24.rs, payload.rs, error.rs, connection/\*.rs and frame/codec/setup.rs are
repeated on the model in `lean/Verif/Tests`; they guard the reading of the source and are not proofs.

## Properties

134 properties, 92 proved as stated and 42 partial. No property was found that cannot be expressed.

| id | property | status | theorems in | remarks |
|---|---|---|---|---|
| C01 | Frame round trip | proved | Props/Codec.lean |  |
| C02 | Empty versus absent byte fields | proved | Props/Codec.lean |  |
| C03 | len() is the encoded length | partial | Props/Codec.lean | False as stated: SETUP without resume token reports 2 bytes too many; every other frame is exact. |
| C04 | encode only appends | proved | Props/Codec.lean, Props/Small.lean |  |
| C05 | decode never panics | partial | Props/Codec.lean | False as stated: frame type 0x3F panics; the set of panicking inputs is characterised exactly, and decode always terminates. |
| C06 | Decoded frames re-encode stably | proved | Props/Codec.lean |  |
| C07 | Decoding is independent of buffer segmentation | proved | Props/BufList.lean | For every buffer type that keeps the Buf contract, in particular BufList over Bytes and nested BufLists. |
| C08 | Wire layout matches the documented diagrams | partial | Props/Codec.lean | False as documented: flags one bit lower; everything else as in the diagrams. |
| C09 | Reserved bits are ignored on receive | proved | Props/Codec.lean |  |
| C10 | Connection-level frames only on stream 0 | proved | Props/Codec.lean |  |
| C11 | ERROR frames: stream id agrees with code | proved | Props/Codec.lean |  |
| C12 | Unknown frame types are rejected with their value | proved | Props/Codec.lean |  |
| C13 | InComplete is reported exactly for truncated frames | proved | Props/Codec.lean |  |
| C14 | Extension stability | proved | Props/Codec.lean |  |
| C15 | decode consumes from the front only | proved | Props/Codec.lean |  |
| C16 | Distinct frames have distinct encodings | proved | Props/Codec.lean |  |
| C17 | Constructors enforce 31/63-bit fields | partial | Props/Constructors.lean | False for LEASE in release builds (values kept whole); everything else proved. |
| C18 | Flags given to constructors survive the wire | proved | Props/Constructors.lean |  |
| C19 | Every documented error code is usable | partial | Props/Constructors.lean | False for codes above 0x7FFFFFFF; proved for all codes up to it, and the behaviour above is characterised. |
| C20 | SETUP builder output survives the wire | partial | Props/Constructors.lean | False as stated (RESUME flag without token, 256-byte MIME types); exact characterisation proved. |
| C21 | SETUP builder: last write wins, others untouched | proved | Props/Constructors.lean |  |
| C22 | U24 is exact | proved | Props/Small.lean |  |
| C23 | Version order is lexicographic and total | proved | Props/Small.lean |  |
| C24 | Frame type tables are mutually inverse | proved | Props/Small.lean |  |
| C25 | Flag words never disturb the type | proved | Props/Small.lean |  |
| C26 | Chunking loses nothing | proved | Props/Chunks.lean |  |
| C27 | Chunk sizes and termination | proved | Props/Chunks.lean |  |
| C28 | PayloadChunks::len is exact | partial | Props/ChunkCount.lean, Props/Chunks.lean | False above 2^24 bytes (f32 rounding) and for present-but-empty parts; exact for all other payloads, all chunk sizes, after any number of next() calls. C28_every_size_false: a wrong count of a part of at most 2^26 bytes exists for every chunk size up to 2^24. C28_len_long_partial: longer parts that are still counted right. C28_len_error bounds the error for every payload; C98 gives the value. |
| C29 | Unfragmented fire_and_forget | proved | Props/Socket.lean |  |
| C30 | Fragmented fire_and_forget | proved | Props/ChunkCount.lean, Props/Socket.lean | Fragment size 0 panics; the public API never sets a fragment size. |
| C31 | fire_and_forget stops at the first transport error | proved | Props/Socket.lean |  |
| C32 | Fragment / reassemble end to end | proved | Props/Socket.lean |  |
| C33 | Every fragmented request terminates | partial | Props/ChunkCount.lean, Props/Socket.lean | False for empty payloads, present-but-empty parts and parts above 2^24 bytes; proved for all other payloads, with the exact condition in C33_iff. C33_every_size_false: a failing payload of at most 2^26 bytes for every fragment size up to 2^24; C33_long_partial: longer payloads for which it holds. |
| C34 | metadata_push | proved | Props/Socket.lean |  |
| C35 | BufList behaves as one byte sequence | proved | Props/BufList.lean |  |
| C36 | BufList overruns panic, and only overruns | proved | Props/BufList.lean | The lists on which copy_to_bytes loops for ever are characterised exactly. |
| C37 | chunks_vectored exposes a prefix | proved | Props/BufList.lean |  |
| C38 | Reassembly semantics | proved | Props/BufList.lean | A buffer with the EXT frame type makes the conversion panic instead of returning an error. |
| C39 | Stream id range and parity | proved | Props/StreamId.lean |  |
| C40 | Stream ids are not in use | proved | Props/StreamId.lean |  |
| C41 | Stream ids are unique until wrap-around | proved | Props/StreamId.lean | The bound of 2^30 draws is shown to be sharp. |
| C42 | next_stream_id terminates when an id is free | proved | Props/StreamId.lean |  |
| C43 | Stream id 0 is never allocated | partial | Props/StreamId.lean | False for servers after 2^30-1 draws; proved for clients for ever and for servers before that. |
| C44 | RequestCounter is exact under concurrency | proved | Props/Counter.lean |  |
| C45 | RequestCounter never over-grants | partial | Props/Counter.lean | False after about 2^31 refused decs, which wrap the counter to a positive value; proved up to 2^31 + 1 dec calls more than initial permits, which is shown to be the best possible bound. |
| C46 | is_zero means no permits are left | partial | Props/Counter.lean | False as stated after a dec at zero; exact while no overdraw happens. C46_is_zero_iff says what it means in every case. |
| C47 | Error classification is a partition | proved | Props/Error.lean |  |
| C48 | Error descriptions name their code | partial | Props/Error.lean | False for REJECTED, described as CONNECTION_ERROR; proved for the other nine kinds; codes and distinctness proved for all. |
| C49 | Decode errors are preserved by conversion | proved | Props/Error.lean |  |
| C50 | MIME parsing is exact | proved | Props/Mime.lean |  |
| C51 | MIME types convert back to their string | partial | Props/Mime.lean | False: the conversion calls itself for ever for every type except UNPARSEABLE. |
| C52 | Keepalive watchdog timing | proved | Props/Socket.lean |  |
| C53 | A connection that receives keepalives is kept open | partial | Props/Socket.lean | False: the connection is closed whatever arrives; it stays open only until the first wake-up after the timeout. |
| C54 | SETUP MIME accessors | proved | Props/Text.lean |  |
| C55 | UTF-8 accessors | proved | Props/Text.lean |  |
| C56 | decode accepts exactly the wire grammar | proved | Props/Codec.lean |  |
| C57 | Concurrent fire_and_forget calls do not mix | proved | Props/Conc.lean |  |
| C58 | A failed decode can be retried | partial | Props/Codec.lean | False as stated when at least 6 bytes were present (and then a retry never yields the frame); true below 6 bytes. |
| C59 | Payload accessors and builder | proved | Props/Text.lean |  |
| C60 | Connection status listener | proved | Props/Socket.lean |  |
| C61 | Requests of a new machine | proved | Props/Machine.lean | C61_one_frame, which identifies the frame by its stream id, is for at most 2^30 draws; the others have no such limit. |
| C62 | next_stream_id is wait-free while the keys are bounded | proved | Props/StreamId.lean |  |
| C63 | Every request kind of the RSocket trait is usable | partial | Props/Machine.lean | False: three of five methods are unimplemented!(); proved for fire_and_forget and metadata_push. |
| C64 | Well-known MIME types survive the handshake | proved | Props/Display.lean |  |
| C65 | A closed connection is reported once | partial | Props/Machine.lean | False: one report for each round after the close; the exact reports are proved. |
| C66 | The chunk iterator's size hint is exact | partial | Props/Display.lean | False as stated: the hint is (0, None). It is a valid bound for every iterator. |
| C67 | Decoders of single frame types | partial | Props/Direct.lean | The stream id check is missing for SETUP, METADATA_PUSH, RESUME and RESUME_OK when their decoders are called directly; the rest is proved for all types. |
| C68 | Error code constants and the application range | proved | Props/Codes.lean | The sending side, where ErrorFrame::new cuts the code to 31 bits, is C19. |
| C69 | Documented value constraints are enforced | partial | Props/Display.lean | False as stated. The partial theorems say exactly which arguments violate the documentation. |
| C70 | Concurrent requests reach the peer unmixed | proved | Props/Peer.lean | C70_end_to_end is for at most 2^30 draws, after which two calls may share a stream; the others have no such limit. |
| C71 | Accessors return what the constructor was given, also at the peer | proved | Props/Access.lean |  |
| C72 | Concurrent id allocation equals sequential allocation | proved | Props/StreamId.lean |  |
| C73 | Requests, the background tasks and close() do not disturb each other | partial | Props/System.lean | Everything is proved except the last clause. It is false: the machine does not remember that it closed the connection and hands later frames to it (C73_silent_false); whether they are refused is up to the transport. |
| C74 | Versions are shown unambiguously | proved | Props/Display.lean |  |
| C75 | The connection is released with the last handle | partial | Props/System.lean | The first clause is false: both background tasks hold a clone of the machine, so the connection is dropped only when both have ended as well (C75_released_iff, C75_dropped_false), and never as long as the status stream goes on (C75_listener_keeps_partial). The rest is proved. |
| C76 | Errors report kind and cause for debugging | proved | Props/Display.lean |  |
| C77 | Frames encoded back to back are read one by one | partial | Props/Canonical.lean | False as stated: a fire-and-forget request followed by CANCEL is read as one request. The partial theorem gives the exact boundary as an iff. |
| C78 | Every bit that is not ignored counts | proved | Props/Canonical.lean |  |
| C79 | No frame is empty | proved | Props/Display.lean |  |
| C80 | set_request_handler replaces the handler, one call at a time | proved | Props/Handler.lean | Relies on the documented fairness and exclusion of tokio::sync::RwLock, which is not modelled from its source. |
| C81 | Sizes of fragments on the wire | partial | Props/Sizes.lean | The bound size + 9 is refuted for every fragment size below 2^24; proved: the total is 9 bytes per frame plus the payload, each frame takes at most 9 + min(size, metadata) + min(size, data) bytes, and size + 9 holds when one part is absent. |
| C82 | Frame sizes in closed form, no amplification | proved | Props/Sizes.lean | Closed form of the length for all 14 kinds, on both sides; at least 6 bytes of every decoded frame are header. |
| C83 | Truncated frames are detected | partial | Props/Truncate.lean | Refuted by an ERROR frame without its last byte; proved for every accepted byte string and every cut: exactly what decode returns. |
| C84 | Missing fragments are detected | partial | Props/Truncate.lean | The FOLLOWS flags and stream ids are not looked at, so nothing is ever detected; proved: what the result is for any selection of fragments. |
| C85 | Refused arguments are named | proved | Props/Panics.lean |  |
| C86 | Debug output of frames is faithful and safe to log | proved | Props/Debug.lean | The texts of bytes and bitflags are written down from those crates. |
| C87 | No caller can starve a request | proved | Props/Wait.lean | One atomic access, one check of the map or one send is a step; waiting inside the transport or on the map's locks is not counted. |
| C88 | Requests stay apart on a connection of any age | partial | Props/Long.lean | False as stated: the id of a call in progress is drawn again after 2^30 further draws, because fire_and_forget registers its id nowhere, and the two requests mix on the wire (C88_mixed_false). Proved for every execution, of any length, in which at most 2^30 ids are drawn during one call, its own included. |
| C89 | Any Buf will do for decoding | proved | Props/Provided.lean | Any type whose remaining, chunk and advance keep the contract (LawfulCore); VecDeque<u8> is modelled as its two slices. |
| C90 | chunks_vectored leaves nothing out | partial | Props/Provided.lean | False for buffers that keep the provided chunks_vectored and have more than one chunk, such as VecDeque<u8> (C90_gap_false). Proved for buffers that expose everything unless they run out of slots, and the exact result is given for the provided method. |
| C91 | Permit counts do not depend on an assumed interleaving | proved | Props/Atomic.lean | Executions are event graphs with reads-from, modification order and happens-before; nothing is assumed about the memory orderings used. |
| C92 | Stream ids do not depend on an assumed interleaving | proved | Props/Atomic.lean | The map is used as a lock-based one: a change of a key is ordered by happens-before with every other operation on that key. |
| C93 | to_bytes allocates exactly once | partial | Props/Capacity.lean | False for SETUP frames without a resume token, whose len() is 2 too large (C93_exact_false); proved, with the exact number of allocations, for all frames (C93_allocations_partial) and all other implementors of Encode (C93_types_partial). BytesMut and freeze are modelled from bytes 1.0.1. |
| C94 | decode rejects frames that break a documented requirement | partial | Props/Accepts.lean | False: decode checks six of the twelve requirements (C94_protocol_false); C94_enforced_partial says exactly which, and C94_accepts_iff which frames are returned. |
| C95 | {:#?} of a frame is its {:?} on several lines | proved | Props/Pretty.lean | The two forms follow from core::fmt::builders, which is modelled (Model/Pretty). Bits without a name, which safe code cannot set, would be shown with a doubled prefix by bitflags in the long form. |
| C96 | Debug of builders, counters, types and errors | proved | Props/Pretty.lean | Debug of strings and of a boxed source are parameters; the long form of an Error is stated without a source and for decode errors. |
| C97 | Encode, on everything that implements it | proved | Props/Encode.lean |  |
| C98 | What len() of the chunk iterator computes, for all sizes | proved | Props/Float.lean |  |
| C99 | Decoding is bounded work and copies nothing twice | proved | Props/Work.lean |  |
| C100 | Calls that do not overlap keep their order on the wire | proved | Props/Order.lean | For fragment sizes other than 0; with 0 no frame is sent (C57_zero_size). |
| C101 | Lengths in machine arithmetic | proved | Props/Usize.lean | C101_decode_false is the refutation of the bound being unnecessary, which the statement says. |
| C102 | Frames after close() belong to calls that overlap with it or come later | proved | Props/Closing.lean |  |
| C103 | Streams are opened in ascending order of their ids | partial | Props/Ascending.lean | False as stated: ids are drawn in order but a call can be overtaken before it sends (C103_ascending_false). Proved: exactly which ids can still be sent after any moment, for any number of draws (C103_late), and, until the counter wraps around, that a lower id after a higher one needs overlapping calls. |
| C104 | Frames that look the same are equal | partial | Props/View.lean | False as stated: hidden flag bits are compared, and MIME types that are not ASCII have no text. Proved: exactly which frames look the same, for all frames (C104_hidden), and that frames made by the constructors are told apart. |
| C105 | Flags are sets | proved | Props/FlagSet.lean | What bitflags 1.2.1 generates is modelled from its documentation and source. |
| C106 | Concurrent calls look as if made one after the other | partial | Props/Serial.lean | False as stated, with three witnesses: frames (C106_frames_false), results with a connection that looks at stream numbers (C106_results_false), and fragments, even up to stream numbers (C106_fragments_false). Proved for machines without fragmentation, which are all that the crate makes: serializable up to stream numbers with an order that respects time (C106_unnumbered_partial, C106_new_partial), and exactly serializable if and only if the streams are numbered in order (C106_exact_partial). The receivers may be in use and change at any time, only one id has to be free at first (C106_unnumbered_partial). |
| C107 | What a machine sends is allowed by the protocol | partial | Props/Session.lean | False as stated, with three causes: no client machine ever sends SETUP, so nothing that it sends is allowed (C107_setup_false, about every execution); a server sends a request on stream 0 after 2^30 - 1 calls (C107_zero_false); with a fragment size the later fragments are sent as REQUEST_FNF instead of PAYLOAD frames (C107_fragments_false). Proved under the assumption that somebody else opens the connection: the exact condition for every machine (C107_exact_partial), and that new clients conform for ever (C107_client_partial) and new servers for fewer than 2^30 draws (C107_server_partial). |
| C108 | What happens in the end | proved | Props/Live.lean | Executions are sequences of states indexed by the natural numbers (Spec/Live.lean); fairness is a hypothesis about the sequence, not a part of the model. It is weak fairness (Spec/Fair.lean): only what can be done from some point on for ever must be done, so that the program never gets stuck is part of what is proved. |
| C109 | set_request_handler returns in the end, and the last handler stays | proved | Props/HandlerLive.lean | Infinite executions of the model of set_request_handler; the two fairness conditions (weak fairness of grant and done, Spec/HandlerLive.lean) are hypotheses about the sequence of states. |
| C110 | Concurrent calls look as if made one after the other on each stream | proved | Props/Apart.lean | What holds of sockets that send in parts, beside C106, which is false of them. The order is that in which the calls draw the ids they keep. The conditions on the ids in use and on the number of draws are hypotheses of the theorem. |
| C111 | Clones are one socket, different sockets do not disturb each other | proved | Props/World.lean | Handles are values with addresses for the fields behind an Arc (Model/World.lean); the request handler and the background tasks are not part of this model (C80, C109 and Model/System). By C111_one_machine every theorem on ConcReachable holds of each of several sockets. |
| C112 | A caught panic leaves no half-done work | partial | Props/Unwind.lean | False: encode leaves the part of the frame before its payload in the buffer (and the peer takes the next frame for the data of the broken one), decode has taken the header, advance has emptied the list, a request has used up a stream id. What is left behind is proved exactly for each of them. It holds for copy_to_bytes, push and metadata_push. Calls of the machine are taken alone here, on buffers of bytes. |
| C113 | A connection that panics harms no other call | proved | Props/WildConc.lean | The step relation is that of C57 with panics of the connection. C113_hangs shows that progress needs a connection that comes back. |
| C114 | A connection that panics harms neither the machine nor its background tasks | proved | Props/WildSystem.lean | The transition system is that of C73 with panics of the connection. C114_exact and C114_goes_on ask for a connection that always comes back. Logging does not panic in the model. |
| C115 | A handler that panics when it is dropped harms nothing | proved | Props/WildHandler.lean | What an assignment and a dropped future do while a destructor unwinds is modelled from the documentation of Rust, and the lock of tokio as in C80. |
| C116 | Shutting down the runtime | proved | Props/Hosted.lean | That the runtime drops a task only where it waits, together with what the task owns, is taken from the documentation of tokio. fire_and_forget is not asynchronous, so a request in progress is not dropped with the runtime. |
| C117 | Log lines that panic | partial | Props/Noisy.lean | False as stated: a panic in the log line keeps the watchdog from closing the connection. What holds is exact. A line whose writing panics is counted as not written. |
| C118 | Any number of sockets with their background tasks | proved | Props/Sockets.lean | The properties of one machine with its tasks (C73, C75 and others on System.Reachable) carry over to each of the sockets by C118_one_system. |
| C119 | Each of any number of sockets is served in the end | proved | Props/SocketsLive.lean | Weak fairness (Spec/Fair.lean) is asked only for the watchdog or thread of the socket in question. |
| C120 | Everything that can go wrong, at once | proved | Props/Storm.lean | C113, C114, C116 and C117 in one model; that the watchdog closes before it ends is refuted in C117. |
| C121 | What happens in the end, whatever goes wrong | proved | Props/StormLive.lean | Weak fairness (Spec/Fair.lean) is asked only for the watchdog, the thread or the runtime in question. The connection comes back from every call, with a result or a panic, in the theorems on requests. |
| C122 | Any number of sockets, whatever goes wrong | proved | Props/Storms.lean | C118 with everything of C120. The watchdog and listener of a socket are found by the address of its connection. |
| C123 | What happens in the end to each of many sockets, whatever goes wrong | proved | Props/StormsLive.lean | C121 for each of any number of sockets; C123_one_machine carries the other statements of C121 over. |
| C124 | What the peers get, whatever goes wrong | proved | Props/WildPeer.lean | C70 over connections that panic and for each of any number of sockets. A frame at which the connection panics counts as received. |
| C125 | One request may be kept waiting for ever, but never all | proved | Props/Progress.lean | Lock-freedom: Spec/Progress.lean says what it is for a request to end in a step. The execution of C125_one_may_starve is constructed in Lemmas/Starving.lean, and so is that of C125_changing. |
| C126 | It does not matter how a connection decides | proved | Props/Whim.lean | Spec/Whim.lean says what it is to answer as one likes. This turns the remark in DESIGN.md that Transport is no restriction into a theorem. |
| C127 | What the peer gets of a connection that is closed | proved | Props/Lost.lean | C102_delivered over connections that panic, down to the buffers that the peer reassembles. Spec/Lost.lean says what it is that a connection was closed at some moment. |
| C128 | How long request handlers live | proved | Props/Tended.lean | Model/Tended.lean puts the lock of Model/WildHandler into Model/Storm, with its own reference count; a clone that is dropped drops its connection first and its lock later. That the tasks hold the handler after the last handle was dropped is the first example. A panic of a destructor while another panic unwinds aborts the process; what follows is left out. |
| C129 | The background tasks give way to others | partial | Props/Workers.lean | As stated it is false: the listener's future is never pending on a connection that does as documented. Proved: what follows from that, and exactly when a poll of the listener ends. Model/Workers.lean has the worker threads of a runtime; the fairness is in Spec/Workers.lean. |
| C130 | A runtime that is shut down gets rid of the background tasks | partial | Props/Halting.lean | As stated it is false, for the reason of C129. Proved: what follows, and exactly when a shutdown comes to its end. Model/Halting.lean is Model/Workers.lean with a shutdown. |
| C131 | Frames can be exchanged with a peer that follows the documented diagrams | partial | Props/Interop.lean | As stated it is false, for the reason of C08. Proved: exactly which frames can be exchanged, and what each side takes the flags of the others for. The diagrams are those of the code, which always have the metadata length; the RSocket protocol has it only with METADATA. |
| C132 | Frames can be exchanged with a peer that follows the RSocket protocol | partial | Props/Rsocket.lean | As stated it is false: no frame that carries a payload can be exchanged. Proved: exactly which frames can, and what the others are taken for. The layout of the protocol (Spec/Rsocket.lean) is not part of the repository; it is taken from the published RSocket protocol. |
| C133 | fire_and_forget reaches a peer that follows the RSocket protocol | partial | Props/RsocketFnf.lean, Props/RsocketSockets.lean | As stated it is false, of every call: no payload is ever read as it was sent. Proved: what such a peer reads instead, for every frame and every execution. The reader (Spec/Rsocket.lean) is not part of the repository; it is taken from the published RSocket protocol, and C133_reader shows that it reads what the protocol has for a request. |
| C134 | metadata_push reaches a peer that follows the RSocket protocol | partial | Props/RsocketPush.lean, Props/RsocketSockets.lean | Only the METADATA flag is wrong, in every frame; the metadata is proved to arrive in every execution, and in the other direction. The reader (Spec/Rsocket.lean) is taken from the published RSocket protocol. |

## Defects and surprises found

Each is a theorem about the model; the property is given in brackets.

Codecs
* A frame with type 0x3F (EXT) makes `Frame::decode` panic (`unimplemented`), so a peer can crash the
  receiver; nothing else can [C05]. Reassembly of a `BufList` has the same panic [C38].
* `len()` of SETUP is 2 too large without a resume token, although `to_bytes` promises the exact
  capacity [C03]; `to_bytes` then allocates twice [C93].
* All flags are one bit lower on the wire than in the diagrams of the documentation, and the
  metadata length is always written, also without metadata [C08].
  With a peer that follows the diagrams only frames without flags can be exchanged; it takes COMPLETE for NEXT and
  does not see NEXT, no KEEPALIVE is recognised as asking for an answer on either side, and of a SETUP frame that
  asks for just one of resumption and leases the fields after the timeouts are misread [C131].
  With a peer that follows the RSocket protocol, which has the metadata length only if there is metadata, no frame
  that carries a payload can be exchanged at all: without metadata, the first three bytes of the data are taken for a
  length, and a client that sends SETUP without a payload cannot connect [C132]. (The layout of the protocol is not in the repository; Spec/Rsocket.lean is from the published protocol.)
  So no fire-and-forget request is ever read right: the metadata length, the metadata and the data are together taken
  for data, and a request with metadata is taken for a fragment to be continued [C133].
  METADATA_PUSH is sent without the METADATA flag that the protocol wants, but with all of the metadata [C134].
* `LeaseFrame::new` does not mask its arguments in release builds; all other constructors do [C17].
* `ErrorFrame::new` cuts codes to 31 bits although codes up to 0xFFFFFFFE are documented and
  accepted when received [C19, C68]; it does not check that stream id and code fit together, which
  the decoder does [C69].
* SETUP: the RESUME flag can be set without a token, and the frame is then misread; a MIME type of
  256 bytes is announced with length 0 [C20]. A resume token above 65535 bytes is announced modulo
  2^16 [C01].
* "MUST be > 0" in the documentation is checked by debug assertions only, for request counts only
  [C69]. Of the twelve documented requirements on a frame the decoder checks six [C94].
* The decoders of SETUP, METADATA_PUSH, RESUME and RESUME_OK, called directly, accept a stream id
  other than 0; those of LEASE and KEEPALIVE do not [C67].
* A frame cut inside its last field is accepted with that field cut, since no frame says how long it
  is [C83].
* A failed decode has already consumed the header, so it cannot be retried when more bytes arrive
  [C58].
* Frames that end with a byte field swallow whatever follows in the same buffer; only frames of
  fixed length can be read back to back [C77].
* `ResumeOkFrame::last_received_server_position` returns the client position [C71]. LEASE, RESUME
  and RESUME_OK have no `TYPE` constant.
* `PartialEq` compares flag bits that no accessor shows: a received request with empty metadata and
  one without metadata look the same but are not equal [C104].

Payloads
* `PayloadChunks::len` is wrong above 2^24 bytes because of `f32` (by at most left/2^22 + 1; for every
  chunk size up to 2^24 some part of at most 2^26 bytes is counted wrong) and
  0 for a payload with a part that is present but empty, for which one chunk is produced [C28]. The
  size hint is (0, None) [C66].

Buffers
* `BufList::chunks_vectored` leaves out bytes in the middle if a buffer in it shows only part of itself, as
  every type with several chunks and the provided `chunks_vectored` does, such as VecDeque<u8> [C90].

Requests
* A fragmented fire_and_forget sends nothing for an empty payload, sends a last fragment that says
  more follows for a present but empty part, and a wrong `follows` above 2^24 bytes [C33]. A fragment
  size of 0 panics after an id was used up [C30]. No public function sets the fragment size.
  A frame can take 9 + 2 * size bytes, because metadata and data are each cut at the size [C81].
* Reassembly looks neither at stream ids nor at FOLLOWS, so missing, repeated or reordered fragments
  are not noticed [C84].
* request_response, request_stream and request_channel are `unimplemented!()` [C63].
* A server gives out stream id 0 after 2^30 − 1 draws [C43]. `next_stream_id` can be starved if
  other threads keep inserting keys just in time [C62], all calls at once with never more than one key [C125], and loops for ever when no id is free [C42].
* fire_and_forget registers its id nowhere, so a call that is still sending while 2^30 further ids
  are drawn shares its id with another, and the peer gets their fragments mixed [C88].
* A call can be overtaken between drawing its id and sending, so the peer can see stream 3 opened
  before stream 1 [C103]. So concurrent calls are not always as if made one after the other, but up
  to the numbers of streams they are [C106]. Stream by stream there is such an order also when payloads are
  sent in parts, on a connection that answers for each stream on its own [C110].
* A client never sends SETUP, and the fragments after the first are sent as REQUEST_FNF frames on a
  stream in use instead of PAYLOAD frames, so the protocol does not allow what is sent. Apart from that,
  and from stream 0, it does [C107].
* `RequestCounter` goes below zero, after which `is_zero` is false without permits, and grants
  again after about 2^31 refused requests [C45, C46].

Connection
* The keepalive watchdog closes every connection after at most two timeouts, whatever arrives:
  nothing updates `keepalive_last_received`, and the watchdog looks at its own copy [C53].
  In every fair infinite execution it has closed the connection, once, from some point on [C108].
* The status listener subscribes again in every round, so it reports a closed connection over and
  over and can miss a status between rounds [C65]. A new stream is documented to have the current status at once,
  so a poll of the listener never ends on such a connection: each socket occupies a worker thread of the runtime
  for ever. With as many sockets as worker threads (one, with the features of tokio that Cargo.toml asks for)
  nothing else on the runtime is ever polled again, the watchdogs included [C129]. Nor does the shutdown of such
  a runtime come to its end, and the listener keeps its clone of the machine, and so the connection, for ever [C130].
* Frames are handed to the connection after close() [C73]. The background tasks keep the
  connection alive after the last handle was dropped [C75].
* The watchdog logs the timeout before it closes the connection; if logging panics, the connection stays
  open [C117]. Once the runtime is shut down, nothing enforces the timeout for handles that live on [C116].
* Nothing calls `receive()`; the request handler and the subscriptions are never read, so nothing that
  the peer sends has any effect.

Texts
* `Debug` shows one bit under all its names: a REQUEST_FNF frame with FOLLOWS prints
  `FOLLOWS | RESUME | RESPOND` [C86].
* The description of `Rejected` names CONNECTION_ERROR [C48].
* Converting a MIME type into `&str` recurses for ever except for UNPARSEABLE [C51].
* `BufList`: an empty buffer in the list makes `copy_to_bytes` spin for ever in release builds [C36].

Harmless oddities: `eat_u8` asks for 2 bytes where 1 would do, which no caller can observe because
MIME lengths are followed by more data in every accepted frame.

## Trusted base

* Lean 4.33.0: its kernel. No axioms are added; the theorems use at most `propext`,
  `Classical.choice` and `Quot.sound` (AXIOMS.md lists them per theorem). There is no `sorry`, no
  `native_decide`, no `bv_decide`, no `implemented_by`, no `unsafe`.
* The reading of the source in `lean/Verif/Model`, whose comments cite file and lines.
* What is taken from libraries: bytes 1.0.1 (the methods listed above), bitflags 1.2.1 (`from_bits`,
  `from_bits_unchecked`, `bits`, `contains`, `|`, `Debug`), the texts that `#[derive(Debug)]` (with `core::fmt::builders` for the long form) and
  `Debug` of `Bytes` produce, the standard library's integer, float, atomic,
  `Arc`, `Duration` and UTF-8 functions, dashmap's `contains_key`, tokio's timer (never early) and
  `RwLock` (exclusive, first come first served, not poisoned by panics), and what Rust does while a
  panic unwinds (values in scope are dropped; an assignment whose old value panics is still made).
* Not covered: allocation failure, stack exhaustion (other than non-termination), panics
  of destructors other than those of request handlers [C115] and connections [C128], what follows an abort by a
  destructor that panics while another panic unwinds, `usize` overflow other than in `len` and `remaining` [C101], memory orderings inside
  dashmap and tokio, the scheduler beyond "every interleaving is possible".
* The theorems on infinite executions of sockets (C108, C119, C121, C123, C128) ask for a scheduler that turns to the
  watchdog. Whether a runtime with a limited number of threads can be one is the subject of C129. Those on a shutdown
  (C116, C120, C121, C123, C128) ask for a listener that waits somewhere; when it does is the subject of C130.
* Handing a frame to `send` and its answer are one step of the model. The future that `metadata_push`
  returns is the transport's own (`Mono`), so nothing is said on when it is ready; theorems on the order
  of frames are on the order in which they are handed to `send`. A `Transport` is a function of what it was
  handed before; C126 proves that this excludes no execution.
* A machine is made on a tokio runtime with a timer, and its keepalive timeout added to the current time is a
  time that `Instant` can represent. (Without a timer the watchdog panics at its first `sleep`, which is as
  if it was dropped then [C116].)
* When the runtime is shut down, it drops a background task only where the task waits, with all that the task
  owns (documentation of tokio) [C116].
* The English statements in `properties.jsonl` match the theorems by reading only; the small
  specifications in `lean/Verif/Spec` are what to compare them with.

## Tests of the theorems

`seeded/LOG.jsonl` records 1254 wrong programs: in a copy of the project one definition of the model
is changed like a realistic bug (a wrong mask, a swapped field, a missing check, an off-by-one, a
lost update, a check after the act), everything is rebuilt, and the theorems that no longer prove
are listed. A theorem counts as failing when its proof or a lemma it uses breaks. A proof can break
although its claim still holds; for 17 of the edits the negation of the claim was therefore also
proved of the edited model, and the note of the entry says so.
35 of the edits led to new or tighter theorems, which are named there. Edits that nothing notices
and that should have been noticed are what drove several of the later properties.

448 of the entries are generated edits: one line of the model is changed by a small rule (another
constant, another comparison, another constructor, a neighbouring line repeated). For these the build
stops at the first failing theorem, and only that one is listed; edits that do not type-check are left
out. An entry with no failing theorem is either the same program as before, as its note says, or names
the theorem that was added because of it.
