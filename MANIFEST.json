{
 "claims": [
  {
   "property": "C01",
   "status": "proved",
   "theorems": [
    "Binate.C01_round_trip",
    "Binate.C01_round_trip_iff"
   ],
   "note": ""
  },
  {
   "property": "C02",
   "status": "proved",
   "theorems": [
    "Binate.C02_empty_vs_absent",
    "Binate.C02_sendable_iff"
   ],
   "note": ""
  },
  {
   "property": "C03",
   "status": "partial",
   "theorems": [
    "Binate.C03_len_false",
    "Binate.C03_len_partial"
   ],
   "note": "False as stated: SETUP without resume token reports 2 bytes too many; every other frame is exact."
  },
  {
   "property": "C04",
   "status": "proved",
   "theorems": [
    "Binate.C04_encode_appends",
    "Binate.C04_encode_many",
    "Binate.C04_encode_panics_iff",
    "Binate.C04_values"
   ],
   "note": ""
  },
  {
   "property": "C05",
   "status": "partial",
   "theorems": [
    "Binate.C05_no_panic_false",
    "Binate.C05_no_panic_partial"
   ],
   "note": "False as stated: frame type 0x3F panics; the set of panicking inputs is characterised exactly, and decode always terminates."
  },
  {
   "property": "C06",
   "status": "proved",
   "theorems": [
    "Binate.C06_reencode"
   ],
   "note": ""
  },
  {
   "property": "C07",
   "status": "proved",
   "theorems": [
    "Binate.C07_any_buffer",
    "Binate.C07_segmentation",
    "Binate.C07_two_cuts"
   ],
   "note": "For every buffer type that keeps the Buf contract, in particular BufList over Bytes and nested BufLists."
  },
  {
   "property": "C08",
   "status": "partial",
   "theorems": [
    "Binate.C08_layout_false",
    "Binate.C08_layout_partial"
   ],
   "note": "False as documented: flags one bit lower; everything else as in the diagrams."
  },
  {
   "property": "C09",
   "status": "proved",
   "theorems": [
    "Binate.C09_reserved_bits"
   ],
   "note": ""
  },
  {
   "property": "C10",
   "status": "proved",
   "theorems": [
    "Binate.C10_connection_frames"
   ],
   "note": ""
  },
  {
   "property": "C100",
   "status": "proved",
   "theorems": [
    "Binate.C100_later",
    "Binate.C100_order",
    "Binate.C100_push"
   ],
   "note": "For fragment sizes other than 0; with 0 no frame is sent (C57_zero_size)."
  },
  {
   "property": "C101",
   "status": "proved",
   "theorems": [
    "Binate.C101_len",
    "Binate.C101_payload",
    "Binate.C101_len_exact",
    "Binate.C101_len_overflow",
    "Binate.C101_remaining",
    "Binate.C101_decode",
    "Binate.C101_decode_checked",
    "Binate.C101_decode_unchecked",
    "Binate.C101_decode_false"
   ],
   "note": "C101_decode_false is the refutation of the bound being unnecessary, which the statement says."
  },
  {
   "property": "C102",
   "status": "proved",
   "theorems": [
    "Binate.C102_after",
    "Binate.C102_quiet",
    "Binate.C102_dropped",
    "Binate.C102_close",
    "Binate.C102_delivered"
   ],
   "note": ""
  },
  {
   "property": "C103",
   "status": "partial",
   "theorems": [
    "Binate.C103_ascending_false",
    "Binate.C103_late",
    "Binate.C103_drawn_partial",
    "Binate.C103_overlap_partial",
    "Binate.C103_quiet_partial",
    "Binate.C103_turns_partial"
   ],
   "note": "False as stated: ids are drawn in order but a call can be overtaken before it sends (C103_ascending_false). Proved: exactly which ids can still be sent after any moment, for any number of draws (C103_late), and, until the counter wraps around, that a lower id after a higher one needs overlapping calls."
  },
  {
   "property": "C104",
   "status": "partial",
   "theorems": [
    "Binate.C104_received_false",
    "Binate.C104_flags_false",
    "Binate.C104_mime_false",
    "Binate.C104_hidden",
    "Binate.C104_equal_partial",
    "Binate.C104_constructors",
    "Binate.C104_built_partial"
   ],
   "note": "False as stated: hidden flag bits are compared, and MIME types that are not ASCII have no text. Proved: exactly which frames look the same, for all frames (C104_hidden), and that frames made by the constructors are told apart."
  },
  {
   "property": "C105",
   "status": "proved",
   "theorems": [
    "Binate.C105_history",
    "Binate.C105_declared",
    "Binate.C105_collect",
    "Binate.C105_queries",
    "Binate.C105_from_bits",
    "Binate.C105_order",
    "Binate.C105_hash",
    "Binate.C105_numbers"
   ],
   "note": "What bitflags 1.2.1 generates is modelled from its documentation and source."
  },
  {
   "property": "C106",
   "status": "partial",
   "theorems": [
    "Binate.C106_frames_false",
    "Binate.C106_results_false",
    "Binate.C106_fragments_false",
    "Binate.C106_unnumbered_partial",
    "Binate.C106_exact_partial",
    "Binate.C106_new_partial"
   ],
   "note": "False as stated, with three witnesses: frames (C106_frames_false), results with a connection that looks at stream numbers (C106_results_false), and fragments, even up to stream numbers (C106_fragments_false). Proved for machines without fragmentation, which are all that the crate makes: serializable up to stream numbers with an order that respects time (C106_unnumbered_partial, C106_new_partial), and exactly serializable if and only if the streams are numbered in order (C106_exact_partial). The receivers may be in use and change at any time, only one id has to be free at first (C106_unnumbered_partial)."
  },
  {
   "property": "C107",
   "status": "partial",
   "theorems": [
    "Binate.C107_setup_false",
    "Binate.C107_zero_false",
    "Binate.C107_fragments_false",
    "Binate.C107_kinds",
    "Binate.C107_exact_partial",
    "Binate.C107_whole_partial",
    "Binate.C107_client_partial",
    "Binate.C107_server_partial",
    "Binate.C107_fragments_partial"
   ],
   "note": "False as stated, with three causes: no client machine ever sends SETUP, so nothing that it sends is allowed (C107_setup_false, about every execution); a server sends a request on stream 0 after 2^30 - 1 calls (C107_zero_false); with a fragment size the later fragments are sent as REQUEST_FNF instead of PAYLOAD frames (C107_fragments_false). Proved under the assumption that somebody else opens the connection: the exact condition for every machine (C107_exact_partial), and that new clients conform for ever (C107_client_partial) and new servers for fewer than 2^30 draws (C107_server_partial)."
  },
  {
   "property": "C108",
   "status": "proved",
   "theorems": [
    "Binate.C108_closes",
    "Binate.C108_returns",
    "Binate.C108_returns_keys",
    "Binate.C108_request",
    "Binate.C108_released",
    "Binate.C108_kept"
   ],
   "note": "Executions are sequences of states indexed by the natural numbers (Spec/Live.lean); fairness is a hypothesis about the sequence, not a part of the model. It is weak fairness (Spec/Fair.lean): only what can be done from some point on for ever must be done, so that the program never gets stuck is part of what is proved."
  },
  {
   "property": "C109",
   "status": "proved",
   "theorems": [
    "Binate.C109_returns",
    "Binate.C109_made",
    "Binate.C109_last"
   ],
   "note": "Infinite executions of the model of set_request_handler; the two fairness conditions (weak fairness of grant and done, Spec/HandlerLive.lean) are hypotheses about the sequence of states."
  },
  {
   "property": "C11",
   "status": "proved",
   "theorems": [
    "Binate.C11_error_accepted",
    "Binate.C11_error_rejected"
   ],
   "note": ""
  },
  {
   "property": "C110",
   "status": "proved",
   "theorems": [
    "Binate.C110_streams",
    "Binate.C110_needs_apart"
   ],
   "note": "What holds of sockets that send in parts, beside C106, which is false of them. The order is that in which the calls draw the ids they keep. The conditions on the ids in use and on the number of draws are hypotheses of the theorem."
  },
  {
   "property": "C111",
   "status": "proved",
   "theorems": [
    "Binate.C111_one_machine",
    "Binate.C111_clones",
    "Binate.C111_clone",
    "Binate.C111_drop",
    "Binate.C111_apart",
    "Binate.C111_new",
    "Binate.C111_can",
    "Binate.C111_ids"
   ],
   "note": "Handles are values with addresses for the fields behind an Arc (Model/World.lean); the request handler and the background tasks are not part of this model (C80, C109 and Model/System). By C111_one_machine every theorem on ConcReachable holds of each of several sockets."
  },
  {
   "property": "C112",
   "status": "partial",
   "theorems": [
    "Binate.C112_encode_same",
    "Binate.C112_encode_partial",
    "Binate.C112_encode_false",
    "Binate.C112_swallowed",
    "Binate.C112_decode_partial",
    "Binate.C112_decode_false",
    "Binate.C112_advance_partial",
    "Binate.C112_advance_false",
    "Binate.C112_copy",
    "Binate.C112_push",
    "Binate.C112_fnf_partial",
    "Binate.C112_fnf_zero",
    "Binate.C112_fnf_false",
    "Binate.C112_metadata_push"
   ],
   "note": "False: encode leaves the part of the frame before its payload in the buffer (and the peer takes the next frame for the data of the broken one), decode has taken the header, advance has emptied the list, a request has used up a stream id. What is left behind is proved exactly for each of them. It holds for copy_to_bytes, push and metadata_push. Calls of the machine are taken alone here, on buffers of bytes."
  },
  {
   "property": "C113",
   "status": "proved",
   "theorems": [
    "Binate.C113_as_refused",
    "Binate.C113_exact",
    "Binate.C113_own_frames",
    "Binate.C113_panicked",
    "Binate.C113_progress",
    "Binate.C113_pushes",
    "Binate.C113_hangs"
   ],
   "note": "The step relation is that of C57 with panics of the connection. C113_hangs shows that progress needs a connection that comes back."
  },
  {
   "property": "C114",
   "status": "proved",
   "theorems": [
    "Binate.C114_as_calm",
    "Binate.C114_exact",
    "Binate.C114_goes_on",
    "Binate.C114_requests",
    "Binate.C114_closes",
    "Binate.C114_log",
    "Binate.C114_released",
    "Binate.C114_panics"
   ],
   "note": "The transition system is that of C73 with panics of the connection. C114_exact and C114_goes_on ask for a connection that always comes back. Logging does not panic in the model."
  },
  {
   "property": "C115",
   "status": "proved",
   "theorems": [
    "Binate.C115_as_calm",
    "Binate.C115_any_panic",
    "Binate.C115_current",
    "Binate.C115_kept",
    "Binate.C115_no_deadlock",
    "Binate.C115_returns"
   ],
   "note": "What an assignment and a dropped future do while a destructor unwinds is modelled from the documentation of Rust, and the lock of tokio as in C80."
  },
  {
   "property": "C116",
   "status": "proved",
   "theorems": [
    "Binate.C116_as_asleep",
    "Binate.C116_requests",
    "Binate.C116_closes",
    "Binate.C116_released_iff",
    "Binate.C116_no_use_after_drop",
    "Binate.C116_tasks_end",
    "Binate.C116_user_goes_on",
    "Binate.C116_watched_iff",
    "Binate.C116_unwatched"
   ],
   "note": "That the runtime drops a task only where it waits, together with what the task owns, is taken from the documentation of tokio. fire_and_forget is not asynchronous, so a request in progress is not dropped with the runtime."
  },
  {
   "property": "C117",
   "status": "partial",
   "theorems": [
    "Binate.C117_requests",
    "Binate.C117_user_goes_on",
    "Binate.C117_released",
    "Binate.C117_closes_false",
    "Binate.C117_closes_partial",
    "Binate.C117_listener"
   ],
   "note": "False as stated: a panic in the log line keeps the watchdog from closing the connection. What holds is exact. A line whose writing panics is counted as not written."
  },
  {
   "property": "C118",
   "status": "proved",
   "theorems": [
    "Binate.C118_one_system",
    "Binate.C118_handles",
    "Binate.C118_apart",
    "Binate.C118_steps",
    "Binate.C118_new",
    "Binate.C118_can",
    "Binate.C118_released_iff",
    "Binate.C118_closes"
   ],
   "note": "The properties of one machine with its tasks (C73, C75 and others on System.Reachable) carry over to each of the sockets by C118_one_system."
  },
  {
   "property": "C119",
   "status": "proved",
   "theorems": [
    "Binate.C119_closes",
    "Binate.C119_released",
    "Binate.C119_request"
   ],
   "note": "Weak fairness (Spec/Fair.lean) is asked only for the watchdog or thread of the socket in question."
  },
  {
   "property": "C12",
   "status": "proved",
   "theorems": [
    "Binate.C12_unknown_type"
   ],
   "note": ""
  },
  {
   "property": "C120",
   "status": "proved",
   "theorems": [
    "Binate.C120_as_calm",
    "Binate.C120_exact",
    "Binate.C120_requests",
    "Binate.C120_closes",
    "Binate.C120_log",
    "Binate.C120_released",
    "Binate.C120_user_goes_on",
    "Binate.C120_unwatched",
    "Binate.C120_watched_iff",
    "Binate.C120_tasks_end"
   ],
   "note": "C113, C114, C116 and C117 in one model; that the watchdog closes before it ends is refuted in C117."
  },
  {
   "property": "C121",
   "status": "proved",
   "theorems": [
    "Binate.C121_watchdog",
    "Binate.C121_closes",
    "Binate.C121_released",
    "Binate.C121_shutdown",
    "Binate.C121_returns",
    "Binate.C121_returns_keys",
    "Binate.C121_request"
   ],
   "note": "Weak fairness (Spec/Fair.lean) is asked only for the watchdog, the thread or the runtime in question. The connection comes back from every call, with a result or a panic, in the theorems on requests."
  },
  {
   "property": "C122",
   "status": "proved",
   "theorems": [
    "Binate.C122_one_machine",
    "Binate.C122_exact",
    "Binate.C122_handles",
    "Binate.C122_apart",
    "Binate.C122_steps",
    "Binate.C122_new",
    "Binate.C122_can",
    "Binate.C122_requests",
    "Binate.C122_shutdown",
    "Binate.C122_unwatched",
    "Binate.C122_released_iff",
    "Binate.C122_closes"
   ],
   "note": "C118 with everything of C120. The watchdog and listener of a socket are found by the address of its connection."
  },
  {
   "property": "C123",
   "status": "proved",
   "theorems": [
    "Binate.C123_one_machine",
    "Binate.C123_watchdog",
    "Binate.C123_closes",
    "Binate.C123_released",
    "Binate.C123_shutdown",
    "Binate.C123_request"
   ],
   "note": "C121 for each of any number of sockets; C123_one_machine carries the other statements of C121 over."
  },
  {
   "property": "C124",
   "status": "proved",
   "theorems": [
    "Binate.C124_end_to_end",
    "Binate.C124_panicked",
    "Binate.C124_no_other_stream",
    "Binate.C124_whole",
    "Binate.C124_pushes",
    "Binate.C124_encodes",
    "Binate.C124_sockets",
    "Binate.C124_no_other_socket",
    "Binate.C124_pushes_apart"
   ],
   "note": "C70 over connections that panic and for each of any number of sockets. A frame at which the connection panics counts as received."
  },
  {
   "property": "C125",
   "status": "proved",
   "theorems": [
    "Binate.C125_some_end",
    "Binate.C125_panics",
    "Binate.C125_sockets",
    "Binate.C125_one_may_starve",
    "Binate.C125_all_in_use",
    "Binate.C125_changing"
   ],
   "note": "Lock-freedom: Spec/Progress.lean says what it is for a request to end in a step. The execution of C125_one_may_starve is constructed in Lemmas/Starving.lean, and so is that of C125_changing."
  },
  {
   "property": "C126",
   "status": "proved",
   "theorems": [
    "Binate.C126_calls",
    "Binate.C126_panics",
    "Binate.C126_machine",
    "Binate.C126_hosted",
    "Binate.C126_noisy",
    "Binate.C126_storm",
    "Binate.C126_tended",
    "Binate.C126_wild",
    "Binate.C126_sockets",
    "Binate.C126_storms",
    "Binate.C126_reachable"
   ],
   "note": "Spec/Whim.lean says what it is to answer as one likes. This turns the remark in DESIGN.md that Transport is no restriction into a theorem."
  },
  {
   "property": "C127",
   "status": "proved",
   "theorems": [
    "Binate.C127_moment",
    "Binate.C127_delivered",
    "Binate.C127_request",
    "Binate.C127_pushes",
    "Binate.C127_no_other_stream",
    "Binate.C127_ok_lost",
    "Binate.C127_sockets_moment",
    "Binate.C127_sockets"
   ],
   "note": "C102_delivered over connections that panic, down to the buffers that the peer reassembles. Spec/Lost.lean says what it is that a connection was closed at some moment."
  },
  {
   "property": "C128",
   "status": "proved",
   "theorems": [
    "Binate.C128_machine",
    "Binate.C128_apart",
    "Binate.C128_as_calm",
    "Binate.C128_any_panic",
    "Binate.C128_lock",
    "Binate.C128_gone",
    "Binate.C128_current",
    "Binate.C128_once",
    "Binate.C128_no_use_after_drop",
    "Binate.C128_pending",
    "Binate.C128_returns",
    "Binate.C128_end",
    "Binate.C128_shutdown"
   ],
   "note": "Model/Tended.lean puts the lock of Model/WildHandler into Model/Storm, with its own reference count; a clone that is dropped drops its connection first and its lock later. That the tasks hold the handler after the last handle was dropped is the first example. A panic of a destructor while another panic unwinds aborts the process; what follows is left out."
  },
  {
   "property": "C129",
   "status": "partial",
   "theorems": [
    "Binate.C129_gives_way_false",
    "Binate.C129_occupied",
    "Binate.C129_nothing_else",
    "Binate.C129_comes_about",
    "Binate.C129_lost",
    "Binate.C129_inevitable",
    "Binate.C129_gives_way_partial",
    "Binate.C129_watchdog_partial",
    "Binate.C129_floods",
    "Binate.C129_heard",
    "Binate.C129_barked"
   ],
   "note": "As stated it is false: the listener's future is never pending on a connection that does as documented. Proved: what follows from that, and exactly when a poll of the listener ends. Model/Workers.lean has the worker threads of a runtime; the fairness is in Spec/Workers.lean."
  },
  {
   "property": "C13",
   "status": "proved",
   "theorems": [
    "Binate.C13_incomplete_iff"
   ],
   "note": ""
  },
  {
   "property": "C130",
   "status": "partial",
   "theorems": [
    "Binate.C130_shutdown_false",
    "Binate.C130_never",
    "Binate.C130_quiet",
    "Binate.C130_tasks_partial",
    "Binate.C130_shutdown_partial"
   ],
   "note": "As stated it is false, for the reason of C129. Proved: what follows, and exactly when a shutdown comes to its end. Model/Halting.lean is Model/Workers.lean with a shutdown."
  },
  {
   "property": "C131",
   "status": "partial",
   "theorems": [
    "Binate.C131_interop_false",
    "Binate.C131_sent_partial",
    "Binate.C131_flags_seen",
    "Binate.C131_read_partial",
    "Binate.C131_flags_read",
    "Binate.C131_token",
    "Binate.C131_token_wrong",
    "Binate.C131_keepalive"
   ],
   "note": "As stated it is false, for the reason of C08. Proved: exactly which frames can be exchanged, and what each side takes the flags of the others for. The diagrams are those of the code, which always have the metadata length; the RSocket protocol has it only with METADATA."
  },
  {
   "property": "C132",
   "status": "partial",
   "theorems": [
    "Binate.C132_interop_false",
    "Binate.C132_sent_partial",
    "Binate.C132_no_request",
    "Binate.C132_read_partial",
    "Binate.C132_metadata",
    "Binate.C132_taken",
    "Binate.C132_setup",
    "Binate.C132_data_split",
    "Binate.C132_short"
   ],
   "note": "As stated it is false: no frame that carries a payload can be exchanged. Proved: exactly which frames can, and what the others are taken for. The layout of the protocol (Spec/Rsocket.lean) is not part of the repository; it is taken from the published RSocket protocol."
  },
  {
   "property": "C133",
   "status": "partial",
   "theorems": [
    "Binate.C133_calls_false",
    "Binate.C133_calls_partial",
    "Binate.C133_panics_partial",
    "Binate.C133_sockets_partial",
    "Binate.C133_fragments",
    "Binate.C133_frame",
    "Binate.C133_never",
    "Binate.C133_reader"
   ],
   "note": "As stated it is false, of every call: no payload is ever read as it was sent. Proved: what such a peer reads instead, for every frame and every execution. The reader (Spec/Rsocket.lean) is not part of the repository; it is taken from the published RSocket protocol, and C133_reader shows that it reads what the protocol has for a request."
  },
  {
   "property": "C134",
   "status": "partial",
   "theorems": [
    "Binate.C134_flag_false",
    "Binate.C134_pushes_partial",
    "Binate.C134_panics_partial",
    "Binate.C134_sockets_partial",
    "Binate.C134_frame",
    "Binate.C134_reader",
    "Binate.C134_received"
   ],
   "note": "Only the METADATA flag is wrong, in every frame; the metadata is proved to arrive in every execution, and in the other direction. The reader (Spec/Rsocket.lean) is taken from the published RSocket protocol."
  },
  {
   "property": "C14",
   "status": "proved",
   "theorems": [
    "Binate.C14_extension",
    "Binate.C14_extension_error"
   ],
   "note": ""
  },
  {
   "property": "C15",
   "status": "proved",
   "theorems": [
    "Binate.C15_consumes_front"
   ],
   "note": ""
  },
  {
   "property": "C16",
   "status": "proved",
   "theorems": [
    "Binate.C16_injective"
   ],
   "note": ""
  },
  {
   "property": "C17",
   "status": "partial",
   "theorems": [
    "Binate.C17_debug",
    "Binate.C17_in_range",
    "Binate.C17_release_partial",
    "Binate.C17_release_false",
    "Binate.C17_lease_release"
   ],
   "note": "False for LEASE in release builds (values kept whole); everything else proved."
  },
  {
   "property": "C18",
   "status": "proved",
   "theorems": [
    "Binate.C18_flags_survive"
   ],
   "note": ""
  },
  {
   "property": "C19",
   "status": "partial",
   "theorems": [
    "Binate.C19_error_codes_false",
    "Binate.C19_error_codes_partial",
    "Binate.C19_error_codes_high"
   ],
   "note": "False for codes above 0x7FFFFFFF; proved for all codes up to it, and the behaviour above is characterised."
  },
  {
   "property": "C20",
   "status": "partial",
   "theorems": [
    "Binate.C20_setup_round_trip_false",
    "Binate.C20_setup_round_trip_partial",
    "Binate.C20_up_to_empty_partial"
   ],
   "note": "False as stated (RESUME flag without token, 256-byte MIME types); exact characterisation proved."
  },
  {
   "property": "C21",
   "status": "proved",
   "theorems": [
    "Binate.C21_last_write_wins",
    "Binate.C21_accepts",
    "Binate.C21_order"
   ],
   "note": ""
  },
  {
   "property": "C22",
   "status": "proved",
   "theorems": [
    "Binate.C22_u32",
    "Binate.C22_usize",
    "Binate.C22_inverse",
    "Binate.C22_bounds"
   ],
   "note": ""
  },
  {
   "property": "C23",
   "status": "proved",
   "theorems": [
    "Binate.C23_lexicographic",
    "Binate.C23_total_order"
   ],
   "note": ""
  },
  {
   "property": "C24",
   "status": "proved",
   "theorems": [
    "Binate.C24_values",
    "Binate.C24_from_bits",
    "Binate.C24_from_bits_or"
   ],
   "note": ""
  },
  {
   "property": "C25",
   "status": "proved",
   "theorems": [
    "Binate.C25_safe_iff",
    "Binate.C25_type_and_flags",
    "Binate.C25_predicates"
   ],
   "note": ""
  },
  {
   "property": "C26",
   "status": "proved",
   "theorems": [
    "Binate.C26_nothing_lost",
    "Binate.C26_presence"
   ],
   "note": ""
  },
  {
   "property": "C27",
   "status": "proved",
   "theorems": [
    "Binate.C27_zero",
    "Binate.C27_nth",
    "Binate.C27_terminates",
    "Binate.C27_count",
    "Binate.C27_sizes"
   ],
   "note": ""
  },
  {
   "property": "C28",
   "status": "partial",
   "theorems": [
    "Binate.C28_len_exact_false",
    "Binate.C28_every_size_false",
    "Binate.C28_empty_false",
    "Binate.C28_len_exact_partial",
    "Binate.C28_len_long_partial",
    "Binate.C28_len_error"
   ],
   "note": "False above 2^24 bytes (f32 rounding) and for present-but-empty parts; exact for all other payloads, all chunk sizes, after any number of next() calls. C28_every_size_false: a wrong count of a part of at most 2^26 bytes exists for every chunk size up to 2^24. C28_len_long_partial: longer parts that are still counted right. C28_len_error bounds the error for every payload; C98 gives the value."
  },
  {
   "property": "C29",
   "status": "proved",
   "theorems": [
    "Binate.C29_unfragmented",
    "Binate.C29_frame"
   ],
   "note": ""
  },
  {
   "property": "C30",
   "status": "proved",
   "theorems": [
    "Binate.C30_fragmented",
    "Binate.C30_fragmented_open",
    "Binate.C30_every_payload",
    "Binate.C30_long",
    "Binate.C30_zero_panics"
   ],
   "note": "Fragment size 0 panics; the public API never sets a fragment size."
  },
  {
   "property": "C31",
   "status": "proved",
   "theorems": [
    "Binate.C31_first_error",
    "Binate.C31_ok_iff"
   ],
   "note": ""
  },
  {
   "property": "C32",
   "status": "proved",
   "theorems": [
    "Binate.C32_end_to_end",
    "Binate.C32_too_big"
   ],
   "note": ""
  },
  {
   "property": "C33",
   "status": "partial",
   "theorems": [
    "Binate.C33_nothing_sent_false",
    "Binate.C33_empty_part_false",
    "Binate.C33_big_part_false",
    "Binate.C33_every_size_false",
    "Binate.C33_last_final_partial",
    "Binate.C33_long_partial",
    "Binate.C33_iff"
   ],
   "note": "False for empty payloads, present-but-empty parts and parts above 2^24 bytes; proved for all other payloads, with the exact condition in C33_iff. C33_every_size_false: a failing payload of at most 2^26 bytes for every fragment size up to 2^24; C33_long_partial: longer payloads for which it holds."
  },
  {
   "property": "C34",
   "status": "proved",
   "theorems": [
    "Binate.C34_metadata_push"
   ],
   "note": ""
  },
  {
   "property": "C35",
   "status": "proved",
   "theorems": [
    "Binate.C35_one_sequence",
    "Binate.C35_pieces",
    "Binate.C35_push_empty"
   ],
   "note": ""
  },
  {
   "property": "C36",
   "status": "proved",
   "theorems": [
    "Binate.C36_overrun",
    "Binate.C36_empty_buffers"
   ],
   "note": "The lists on which copy_to_bytes loops for ever are characterised exactly."
  },
  {
   "property": "C37",
   "status": "proved",
   "theorems": [
    "Binate.C37_leading",
    "Binate.C37_prefix"
   ],
   "note": ""
  },
  {
   "property": "C38",
   "status": "proved",
   "theorems": [
    "Binate.C38_all_decode",
    "Binate.C38_first_failure",
    "Binate.C38_ok_iff"
   ],
   "note": "A buffer with the EXT frame type makes the conversion panic instead of returning an error."
  },
  {
   "property": "C39",
   "status": "proved",
   "theorems": [
    "Binate.C39_range_parity",
    "Binate.C39_client_odd",
    "Binate.C39_server_even"
   ],
   "note": ""
  },
  {
   "property": "C40",
   "status": "proved",
   "theorems": [
    "Binate.C40_free_at_check",
    "Binate.C40_all_returned"
   ],
   "note": ""
  },
  {
   "property": "C41",
   "status": "proved",
   "theorems": [
    "Binate.C41_unique",
    "Binate.C41_sharp"
   ],
   "note": "The bound of 2^30 draws is shown to be sharp."
  },
  {
   "property": "C42",
   "status": "proved",
   "theorems": [
    "Binate.C42_terminates",
    "Binate.C42_first_free",
    "Binate.C42_exhausted"
   ],
   "note": ""
  },
  {
   "property": "C43",
   "status": "partial",
   "theorems": [
    "Binate.C43_client_nonzero",
    "Binate.C43_server_zero_false",
    "Binate.C43_server_nonzero_partial"
   ],
   "note": "False for servers after 2^30-1 draws; proved for clients for ever and for servers before that."
  },
  {
   "property": "C44",
   "status": "proved",
   "theorems": [
    "Binate.C44_exact",
    "Binate.C44_results",
    "Binate.C44_interleaving",
    "Binate.C44_initial"
   ],
   "note": ""
  },
  {
   "property": "C45",
   "status": "partial",
   "theorems": [
    "Binate.C45_no_over_grant_partial",
    "Binate.C45_no_over_grant_false",
    "Binate.C45_sharp"
   ],
   "note": "False after about 2^31 refused decs, which wrap the counter to a positive value; proved up to 2^31 + 1 dec calls more than initial permits, which is shown to be the best possible bound."
  },
  {
   "property": "C46",
   "status": "partial",
   "theorems": [
    "Binate.C46_is_zero_false",
    "Binate.C46_is_zero_partial",
    "Binate.C46_is_zero_iff"
   ],
   "note": "False as stated after a dec at zero; exact while no overdraw happens. C46_is_zero_iff says what it means in every case."
  },
  {
   "property": "C47",
   "status": "proved",
   "theorems": [
    "Binate.C47_partition",
    "Binate.C47_specific",
    "Binate.C47_names"
   ],
   "note": ""
  },
  {
   "property": "C48",
   "status": "partial",
   "theorems": [
    "Binate.C48_names_code_false",
    "Binate.C48_names_code_partial",
    "Binate.C48_rejected",
    "Binate.C48_distinct",
    "Binate.C48_display",
    "Binate.C48_codes"
   ],
   "note": "False for REJECTED, described as CONNECTION_ERROR; proved for the other nine kinds; codes and distinctness proved for all."
  },
  {
   "property": "C49",
   "status": "proved",
   "theorems": [
    "Binate.C49_conversion",
    "Binate.C49_distinct",
    "Binate.C49_io",
    "Binate.C49_texts"
   ],
   "note": ""
  },
  {
   "property": "C50",
   "status": "proved",
   "theorems": [
    "Binate.C50_listed",
    "Binate.C50_injective",
    "Binate.C50_names",
    "Binate.C50_all_types"
   ],
   "note": ""
  },
  {
   "property": "C51",
   "status": "partial",
   "theorems": [
    "Binate.C51_into_str_false",
    "Binate.C51_never_returns",
    "Binate.C51_unparseable_partial"
   ],
   "note": "False: the conversion calls itself for ever for every type except UNPARSEABLE."
  },
  {
   "property": "C52",
   "status": "proved",
   "theorems": [
    "Binate.C52_closes_iff",
    "Binate.C52_not_early",
    "Binate.C52_by_second",
    "Binate.C52_actions"
   ],
   "note": ""
  },
  {
   "property": "C53",
   "status": "partial",
   "theorems": [
    "Binate.C53_kept_open_false",
    "Binate.C53_always_closed",
    "Binate.C53_kept_open_partial"
   ],
   "note": "False: the connection is closed whatever arrives; it stays open only until the first wake-up after the timeout."
  },
  {
   "property": "C54",
   "status": "proved",
   "theorems": [
    "Binate.C54_mime_str",
    "Binate.C54_accessors",
    "Binate.C54_is_some"
   ],
   "note": ""
  },
  {
   "property": "C55",
   "status": "proved",
   "theorems": [
    "Binate.C55_payload",
    "Binate.C55_error_frame"
   ],
   "note": ""
  },
  {
   "property": "C56",
   "status": "proved",
   "theorems": [
    "Binate.C56_grammar"
   ],
   "note": ""
  },
  {
   "property": "C57",
   "status": "proved",
   "theorems": [
    "Binate.C57_own_frames",
    "Binate.C57_every_age",
    "Binate.C57_can_ask",
    "Binate.C57_distinct_ids",
    "Binate.C57_no_stray_frame",
    "Binate.C57_history",
    "Binate.C57_answers",
    "Binate.C57_zero_size",
    "Binate.C57_progress",
    "Binate.C57_completes"
   ],
   "note": ""
  },
  {
   "property": "C58",
   "status": "partial",
   "theorems": [
    "Binate.C58_retry_false",
    "Binate.C58_retry_partial",
    "Binate.C58_retry_never"
   ],
   "note": "False as stated when at least 6 bytes were present (and then a retry never yields the frame); true below 6 bytes."
  },
  {
   "property": "C59",
   "status": "proved",
   "theorems": [
    "Binate.C59_builder",
    "Binate.C59_accessors",
    "Binate.C59_encode"
   ],
   "note": ""
  },
  {
   "property": "C60",
   "status": "proved",
   "theorems": [
    "Binate.C60_listener"
   ],
   "note": ""
  },
  {
   "property": "C61",
   "status": "proved",
   "theorems": [
    "Binate.C61_initial",
    "Binate.C61_sequence",
    "Binate.C61_every_age",
    "Binate.C61_ids",
    "Binate.C61_frames",
    "Binate.C61_one_frame",
    "Binate.C61_no_collision"
   ],
   "note": "C61_one_frame, which identifies the frame by its stream id, is for at most 2^30 draws; the others have no such limit."
  },
  {
   "property": "C62",
   "status": "proved",
   "theorems": [
    "Binate.C62_accounting",
    "Binate.C62_failed_checks",
    "Binate.C62_progress",
    "Binate.C62_starvation"
   ],
   "note": ""
  },
  {
   "property": "C63",
   "status": "partial",
   "theorems": [
    "Binate.C63_unimplemented_false",
    "Binate.C63_usable_partial"
   ],
   "note": "False: three of five methods are unimplemented!(); proved for fire_and_forget and metadata_push."
  },
  {
   "property": "C64",
   "status": "proved",
   "theorems": [
    "Binate.C64_same_type",
    "Binate.C64_listed",
    "Binate.C64_flag_needed"
   ],
   "note": ""
  },
  {
   "property": "C65",
   "status": "partial",
   "theorems": [
    "Binate.C65_once_false",
    "Binate.C65_reports_partial",
    "Binate.C65_missed"
   ],
   "note": "False: one report for each round after the close; the exact reports are proved."
  },
  {
   "property": "C66",
   "status": "partial",
   "theorems": [
    "Binate.C66_exact_false",
    "Binate.C66_valid_partial",
    "Binate.C66_never"
   ],
   "note": "False as stated: the hint is (0, None). It is a valid bound for every iterator."
  },
  {
   "property": "C67",
   "status": "partial",
   "theorems": [
    "Binate.C67_total",
    "Binate.C67_kept",
    "Binate.C67_frame_decode",
    "Binate.C67_refused_false",
    "Binate.C67_refused_partial"
   ],
   "note": "The stream id check is missing for SETUP, METADATA_PUSH, RESUME and RESUME_OK when their decoders are called directly; the rest is proved for all types."
  },
  {
   "property": "C68",
   "status": "proved",
   "theorems": [
    "Binate.C68_values",
    "Binate.C68_disjoint",
    "Binate.C68_received",
    "Binate.C68_anywhere_iff"
   ],
   "note": "The sending side, where ErrorFrame::new cuts the code to 31 bits, is C19."
  },
  {
   "property": "C69",
   "status": "partial",
   "theorems": [
    "Binate.C69_sender_false",
    "Binate.C69_receiver_false",
    "Binate.C69_counts_partial",
    "Binate.C69_setup_partial",
    "Binate.C69_payload_partial"
   ],
   "note": "False as stated. The partial theorems say exactly which arguments violate the documentation."
  },
  {
   "property": "C70",
   "status": "proved",
   "theorems": [
    "Binate.C70_encodes",
    "Binate.C70_end_to_end",
    "Binate.C70_no_other_stream",
    "Binate.C70_too_big"
   ],
   "note": "C70_end_to_end is for at most 2^30 draws, after which two calls may share a stream; the others have no such limit."
  },
  {
   "property": "C71",
   "status": "proved",
   "theorems": [
    "Binate.C71_accessors",
    "Binate.C71_before_sending",
    "Binate.C71_setup_before_sending",
    "Binate.C71_setup",
    "Binate.C71_constants"
   ],
   "note": ""
  },
  {
   "property": "C72",
   "status": "proved",
   "theorems": [
    "Binate.C72_as_if_alone",
    "Binate.C72_schedule_independent"
   ],
   "note": ""
  },
  {
   "property": "C73",
   "status": "partial",
   "theorems": [
    "Binate.C73_requests",
    "Binate.C73_closes",
    "Binate.C73_watchdog",
    "Binate.C73_watchdog_steps",
    "Binate.C73_tasks_go_on",
    "Binate.C73_user_goes_on",
    "Binate.C73_log",
    "Binate.C73_silent_false"
   ],
   "note": "Everything is proved except the last clause. It is false: the machine does not remember that it closed the connection and hands later frames to it (C73_silent_false); whether they are refused is up to the transport."
  },
  {
   "property": "C74",
   "status": "proved",
   "theorems": [
    "Binate.C74_version"
   ],
   "note": ""
  },
  {
   "property": "C75",
   "status": "partial",
   "theorems": [
    "Binate.C75_released_iff",
    "Binate.C75_dropped_false",
    "Binate.C75_listener_keeps_partial",
    "Binate.C75_no_use_after_drop",
    "Binate.C75_calls_ended",
    "Binate.C75_can_drop"
   ],
   "note": "The first clause is false: both background tasks hold a clone of the machine, so the connection is dropped only when both have ended as well (C75_released_iff, C75_dropped_false), and never as long as the status stream goes on (C75_listener_keeps_partial). The rest is proved."
  },
  {
   "property": "C76",
   "status": "proved",
   "theorems": [
    "Binate.C76_source",
    "Binate.C76_debug",
    "Binate.C76_decode_distinct"
   ],
   "note": ""
  },
  {
   "property": "C77",
   "status": "partial",
   "theorems": [
    "Binate.C77_back_to_back_false",
    "Binate.C77_back_to_back_partial",
    "Binate.C77_swallowed"
   ],
   "note": "False as stated: a fire-and-forget request followed by CANCEL is read as one request. The partial theorem gives the exact boundary as an iff."
  },
  {
   "property": "C78",
   "status": "proved",
   "theorems": [
    "Binate.C78_ignored",
    "Binate.C78_same_frame_iff",
    "Binate.C78_reencode"
   ],
   "note": ""
  },
  {
   "property": "C79",
   "status": "proved",
   "theorems": [
    "Binate.C79_not_empty"
   ],
   "note": ""
  },
  {
   "property": "C80",
   "status": "proved",
   "theorems": [
    "Binate.C80_current",
    "Binate.C80_own",
    "Binate.C80_order",
    "Binate.C80_once",
    "Binate.C80_kept",
    "Binate.C80_no_deadlock",
    "Binate.C80_call_and_cancel",
    "Binate.C80_served",
    "Binate.C80_finish"
   ],
   "note": "Relies on the documented fairness and exclusion of tokio::sync::RwLock, which is not modelled from its source."
  },
  {
   "property": "C81",
   "status": "partial",
   "theorems": [
    "Binate.C81_total",
    "Binate.C81_frame_size_false",
    "Binate.C81_frame_size_partial"
   ],
   "note": "The bound size + 9 is refuted for every fragment size below 2^24; proved: the total is 9 bytes per frame plus the payload, each frame takes at most 9 + min(size, metadata) + min(size, data) bytes, and size + 9 holds when one part is absent."
  },
  {
   "property": "C82",
   "status": "proved",
   "theorems": [
    "Binate.C82_size",
    "Binate.C82_no_amplification"
   ],
   "note": "Closed form of the length for all 14 kinds, on both sides; at least 6 bytes of every decoded frame are header."
  },
  {
   "property": "C83",
   "status": "partial",
   "theorems": [
    "Binate.C83_truncation_false",
    "Binate.C83_truncation_partial"
   ],
   "note": "Refuted by an ERROR frame without its last byte; proved for every accepted byte string and every cut: exactly what decode returns."
  },
  {
   "property": "C84",
   "status": "partial",
   "theorems": [
    "Binate.C84_detected_false",
    "Binate.C84_never_detected",
    "Binate.C84_lost_partial"
   ],
   "note": "The FOLLOWS flags and stream ids are not looked at, so nothing is ever detected; proved: what the result is for any selection of fragments."
  },
  {
   "property": "C85",
   "status": "proved",
   "theorems": [
    "Binate.C85_new",
    "Binate.C85_new_release",
    "Binate.C85_builder"
   ],
   "note": ""
  },
  {
   "property": "C86",
   "status": "proved",
   "theorems": [
    "Binate.C86_injective",
    "Binate.C86_printable",
    "Binate.C86_text",
    "Binate.C86_values",
    "Binate.C86_literal"
   ],
   "note": "The texts of bytes and bitflags are written down from those crates."
  },
  {
   "property": "C87",
   "status": "proved",
   "theorems": [
    "Binate.C87_wait_free",
    "Binate.C87_draws",
    "Binate.C87_alone",
    "Binate.C87_limit_needed"
   ],
   "note": "One atomic access, one check of the map or one send is a step; waiting inside the transport or on the map's locks is not counted."
  },
  {
   "property": "C88",
   "status": "partial",
   "theorems": [
    "Binate.C88_own_frames_partial",
    "Binate.C88_distinct_partial",
    "Binate.C88_mixed_false",
    "Binate.C88_covers_short",
    "Binate.C88_covers_sequential",
    "Binate.C88_next_draw"
   ],
   "note": "False as stated: the id of a call in progress is drawn again after 2^30 further draws, because fire_and_forget registers its id nowhere, and the two requests mix on the wire (C88_mixed_false). Proved for every execution, of any length, in which at most 2^30 ids are drawn during one call, its own included."
  },
  {
   "property": "C89",
   "status": "proved",
   "theorems": [
    "Binate.C89_copy",
    "Binate.C89_decode",
    "Binate.C89_deque"
   ],
   "note": "Any type whose remaining, chunk and advance keep the contract (LawfulCore); VecDeque<u8> is modelled as its two slices."
  },
  {
   "property": "C90",
   "status": "partial",
   "theorems": [
    "Binate.C90_gap_false",
    "Binate.C90_no_gap_partial",
    "Binate.C90_chunks_partial"
   ],
   "note": "False for buffers that keep the provided chunks_vectored and have more than one chunk, such as VecDeque<u8> (C90_gap_false). Proved for buffers that expose everything unless they run out of slots, and the exact result is given for the provided method."
  },
  {
   "property": "C91",
   "status": "proved",
   "theorems": [
    "Binate.C91_linearizable",
    "Binate.C91_seqcst",
    "Binate.C91_final",
    "Binate.C91_no_over_grant"
   ],
   "note": "Executions are event graphs with reads-from, modification order and happens-before; nothing is assumed about the memory orderings used."
  },
  {
   "property": "C92",
   "status": "proved",
   "theorems": [
    "Binate.C92_interleaving",
    "Binate.C92_unique",
    "Binate.C92_range_parity",
    "Binate.C92_positions"
   ],
   "note": "The map is used as a lock-based one: a change of a key is ordered by happens-before with every other operation on that key."
  },
  {
   "property": "C93",
   "status": "partial",
   "theorems": [
    "Binate.C93_never_grows",
    "Binate.C93_least",
    "Binate.C93_exact_false",
    "Binate.C93_allocations_partial",
    "Binate.C93_types_partial"
   ],
   "note": "False for SETUP frames without a resume token, whose len() is 2 too large (C93_exact_false); proved, with the exact number of allocations, for all frames (C93_allocations_partial) and all other implementors of Encode (C93_types_partial). BytesMut and freeze are modelled from bytes 1.0.1."
  },
  {
   "property": "C94",
   "status": "partial",
   "theorems": [
    "Binate.C94_accepts_iff",
    "Binate.C94_protocol_false",
    "Binate.C94_enforced_partial"
   ],
   "note": "False: decode checks six of the twelve requirements (C94_protocol_false); C94_enforced_partial says exactly which, and C94_accepts_iff which frames are returned."
  },
  {
   "property": "C95",
   "status": "proved",
   "theorems": [
    "Binate.C95_lines",
    "Binate.C95_same",
    "Binate.C95_named",
    "Binate.C95_injective",
    "Binate.C95_printable",
    "Binate.C95_breaks"
   ],
   "note": "The two forms follow from core::fmt::builders, which is modelled (Model/Pretty). Bits without a name, which safe code cannot set, would be shown with a doubled prefix by bitflags in the long form."
  },
  {
   "property": "C96",
   "status": "proved",
   "theorems": [
    "Binate.C96_values",
    "Binate.C96_payloadBuilder",
    "Binate.C96_chunks",
    "Binate.C96_setupBuilder",
    "Binate.C96_counter",
    "Binate.C96_streamIds",
    "Binate.C96_streamIds_after",
    "Binate.C96_frameType",
    "Binate.C96_timeout",
    "Binate.C96_status",
    "Binate.C96_decodeError",
    "Binate.C96_error"
   ],
   "note": "Debug of strings and of a boxed source are parameters; the long form of an Error is stated without a source and for decode errors."
  },
  {
   "property": "C97",
   "status": "proved",
   "theorems": [
    "Binate.C97_appends",
    "Binate.C97_frame_types",
    "Binate.C97_u24",
    "Binate.C97_version",
    "Binate.C97_payload",
    "Binate.C97_payload_no_decoder"
   ],
   "note": ""
  },
  {
   "property": "C98",
   "status": "proved",
   "theorems": [
    "Binate.C98_len",
    "Binate.C98_rounding",
    "Binate.C98_never_grows",
    "Binate.C98_zero"
   ],
   "note": ""
  },
  {
   "property": "C99",
   "status": "proved",
   "theorems": [
    "Binate.C99_frame",
    "Binate.C99_rejected",
    "Binate.C99_bounded",
    "Binate.C99_account"
   ],
   "note": ""
  }
 ]
}