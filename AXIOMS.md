# Axioms of the property theorems

What `#print axioms` reports for each theorem of `lean/Verif/Props` (namespace `Binate`).
`propext`, `Classical.choice` and `Quot.sound` are the standard axioms of Lean.

* 489 theorems: Classical.choice, Quot.sound, propext
* 76 theorems: Quot.sound, propext
* 18 theorems: propext
* 13 theorems: none

| theorem | file | axioms |
|---|---|---|
| `C01_round_trip` | Props/Codec.lean | Classical.choice, Quot.sound, propext |
| `C01_round_trip_iff` | Props/Codec.lean | Classical.choice, Quot.sound, propext |
| `C02_empty_vs_absent` | Props/Codec.lean | Classical.choice, Quot.sound, propext |
| `C02_sendable_iff` | Props/Codec.lean | Classical.choice, Quot.sound, propext |
| `C03_len_false` | Props/Codec.lean | Quot.sound, propext |
| `C03_len_partial` | Props/Codec.lean | Classical.choice, Quot.sound, propext |
| `C04_encode_appends` | Props/Codec.lean | Classical.choice, Quot.sound, propext |
| `C04_encode_many` | Props/Codec.lean | Classical.choice, Quot.sound, propext |
| `C04_encode_panics_iff` | Props/Codec.lean | Classical.choice, Quot.sound, propext |
| `C04_values` | Props/Small.lean | Quot.sound, propext |
| `C05_no_panic_false` | Props/Codec.lean | Quot.sound, propext |
| `C05_no_panic_partial` | Props/Codec.lean | Classical.choice, Quot.sound, propext |
| `C06_reencode` | Props/Codec.lean | Classical.choice, Quot.sound, propext |
| `C07_any_buffer` | Props/BufList.lean | Classical.choice, Quot.sound, propext |
| `C07_segmentation` | Props/BufList.lean | Classical.choice, Quot.sound, propext |
| `C07_two_cuts` | Props/BufList.lean | Classical.choice, Quot.sound, propext |
| `C08_layout_false` | Props/Codec.lean | Quot.sound, propext |
| `C08_layout_partial` | Props/Codec.lean | Classical.choice, Quot.sound, propext |
| `C09_reserved_bits` | Props/Codec.lean | Classical.choice, Quot.sound, propext |
| `C100_later` | Props/Order.lean | Classical.choice, Quot.sound, propext |
| `C100_order` | Props/Order.lean | Classical.choice, Quot.sound, propext |
| `C100_push` | Props/Order.lean | Classical.choice, Quot.sound, propext |
| `C101_decode` | Props/Usize.lean | Classical.choice, Quot.sound, propext |
| `C101_decode_checked` | Props/Usize.lean | Quot.sound, propext |
| `C101_decode_false` | Props/Usize.lean | Classical.choice, Quot.sound, propext |
| `C101_decode_unchecked` | Props/Usize.lean | Quot.sound, propext |
| `C101_len` | Props/Usize.lean | Quot.sound, propext |
| `C101_len_exact` | Props/Usize.lean | Classical.choice, Quot.sound, propext |
| `C101_len_overflow` | Props/Usize.lean | Quot.sound, propext |
| `C101_payload` | Props/Usize.lean | Quot.sound, propext |
| `C101_remaining` | Props/Usize.lean | Quot.sound, propext |
| `C102_after` | Props/Closing.lean | Classical.choice, Quot.sound, propext |
| `C102_close` | Props/Closing.lean | Classical.choice, Quot.sound, propext |
| `C102_delivered` | Props/Closing.lean | Classical.choice, Quot.sound, propext |
| `C102_dropped` | Props/Closing.lean | Classical.choice, Quot.sound, propext |
| `C102_quiet` | Props/Closing.lean | Classical.choice, Quot.sound, propext |
| `C103_ascending_false` | Props/Ascending.lean | Classical.choice, Quot.sound, propext |
| `C103_drawn_partial` | Props/Ascending.lean | Classical.choice, Quot.sound, propext |
| `C103_late` | Props/Ascending.lean | Classical.choice, Quot.sound, propext |
| `C103_overlap_partial` | Props/Ascending.lean | Classical.choice, Quot.sound, propext |
| `C103_quiet_partial` | Props/Ascending.lean | Classical.choice, Quot.sound, propext |
| `C103_turns_partial` | Props/Ascending.lean | Classical.choice, Quot.sound, propext |
| `C104_built_partial` | Props/View.lean | Classical.choice, Quot.sound, propext |
| `C104_constructors` | Props/View.lean | Classical.choice, Quot.sound, propext |
| `C104_equal_partial` | Props/View.lean | Classical.choice, Quot.sound, propext |
| `C104_flags_false` | Props/View.lean | Classical.choice, Quot.sound, propext |
| `C104_hidden` | Props/View.lean | Classical.choice, Quot.sound, propext |
| `C104_mime_false` | Props/View.lean | Classical.choice, Quot.sound, propext |
| `C104_received_false` | Props/View.lean | Classical.choice, Quot.sound, propext |
| `C105_collect` | Props/FlagSet.lean | Quot.sound, propext |
| `C105_declared` | Props/FlagSet.lean | Quot.sound, propext |
| `C105_from_bits` | Props/FlagSet.lean | Classical.choice, Quot.sound, propext |
| `C105_hash` | Props/FlagSet.lean | Quot.sound, propext |
| `C105_history` | Props/FlagSet.lean | Classical.choice, Quot.sound, propext |
| `C105_numbers` | Props/FlagSet.lean | Classical.choice, Quot.sound, propext |
| `C105_order` | Props/FlagSet.lean | Classical.choice, Quot.sound, propext |
| `C105_queries` | Props/FlagSet.lean | Classical.choice, Quot.sound, propext |
| `C106_exact_partial` | Props/Serial.lean | Classical.choice, Quot.sound, propext |
| `C106_fragments_false` | Props/Serial.lean | Classical.choice, Quot.sound, propext |
| `C106_frames_false` | Props/Serial.lean | Classical.choice, Quot.sound, propext |
| `C106_new_partial` | Props/Serial.lean | Classical.choice, Quot.sound, propext |
| `C106_results_false` | Props/Serial.lean | Classical.choice, Quot.sound, propext |
| `C106_unnumbered_partial` | Props/Serial.lean | Classical.choice, Quot.sound, propext |
| `C107_client_partial` | Props/Session.lean | Classical.choice, Quot.sound, propext |
| `C107_exact_partial` | Props/Session.lean | Classical.choice, Quot.sound, propext |
| `C107_fragments_false` | Props/Session.lean | Classical.choice, Quot.sound, propext |
| `C107_fragments_partial` | Props/Session.lean | Classical.choice, Quot.sound, propext |
| `C107_kinds` | Props/Session.lean | Classical.choice, Quot.sound, propext |
| `C107_server_partial` | Props/Session.lean | Classical.choice, Quot.sound, propext |
| `C107_setup_false` | Props/Session.lean | Classical.choice, Quot.sound, propext |
| `C107_whole_partial` | Props/Session.lean | Classical.choice, Quot.sound, propext |
| `C107_zero_false` | Props/Session.lean | Classical.choice, Quot.sound, propext |
| `C108_closes` | Props/Live.lean | Classical.choice, Quot.sound, propext |
| `C108_kept` | Props/Live.lean | Classical.choice, Quot.sound, propext |
| `C108_released` | Props/Live.lean | Classical.choice, Quot.sound, propext |
| `C108_request` | Props/Live.lean | Classical.choice, Quot.sound, propext |
| `C108_returns` | Props/Live.lean | Classical.choice, Quot.sound, propext |
| `C108_returns_keys` | Props/Live.lean | Classical.choice, Quot.sound, propext |
| `C109_last` | Props/HandlerLive.lean | Classical.choice, Quot.sound, propext |
| `C109_made` | Props/HandlerLive.lean | Classical.choice, Quot.sound, propext |
| `C109_returns` | Props/HandlerLive.lean | Classical.choice, Quot.sound, propext |
| `C10_connection_frames` | Props/Codec.lean | Classical.choice, Quot.sound, propext |
| `C110_needs_apart` | Props/Apart.lean | Classical.choice, Quot.sound, propext |
| `C110_streams` | Props/Apart.lean | Classical.choice, Quot.sound, propext |
| `C111_apart` | Props/World.lean | Classical.choice, Quot.sound, propext |
| `C111_can` | Props/World.lean | Classical.choice, Quot.sound, propext |
| `C111_clone` | Props/World.lean | Classical.choice, Quot.sound, propext |
| `C111_clones` | Props/World.lean | Classical.choice, Quot.sound, propext |
| `C111_drop` | Props/World.lean | Classical.choice, Quot.sound, propext |
| `C111_ids` | Props/World.lean | Classical.choice, Quot.sound, propext |
| `C111_new` | Props/World.lean | Classical.choice, Quot.sound, propext |
| `C111_one_machine` | Props/World.lean | Classical.choice, Quot.sound, propext |
| `C112_advance_false` | Props/Unwind.lean | Quot.sound, propext |
| `C112_advance_partial` | Props/Unwind.lean | Quot.sound, propext |
| `C112_copy` | Props/Unwind.lean | Classical.choice, Quot.sound, propext |
| `C112_decode_false` | Props/Unwind.lean | Classical.choice, Quot.sound, propext |
| `C112_decode_partial` | Props/Unwind.lean | Classical.choice, Quot.sound, propext |
| `C112_encode_false` | Props/Unwind.lean | Classical.choice, Quot.sound, propext |
| `C112_encode_partial` | Props/Unwind.lean | Classical.choice, Quot.sound, propext |
| `C112_encode_same` | Props/Unwind.lean | Classical.choice, Quot.sound, propext |
| `C112_fnf_false` | Props/Unwind.lean | Classical.choice, Quot.sound, propext |
| `C112_fnf_partial` | Props/Unwind.lean | Classical.choice, Quot.sound, propext |
| `C112_fnf_zero` | Props/Unwind.lean | Classical.choice, Quot.sound, propext |
| `C112_metadata_push` | Props/Unwind.lean | propext |
| `C112_push` | Props/Unwind.lean | none |
| `C112_swallowed` | Props/Unwind.lean | Classical.choice, Quot.sound, propext |
| `C113_as_refused` | Props/WildConc.lean | Classical.choice, Quot.sound, propext |
| `C113_exact` | Props/WildConc.lean | Classical.choice, Quot.sound, propext |
| `C113_hangs` | Props/WildConc.lean | Classical.choice, Quot.sound, propext |
| `C113_own_frames` | Props/WildConc.lean | Classical.choice, Quot.sound, propext |
| `C113_panicked` | Props/WildConc.lean | Classical.choice, Quot.sound, propext |
| `C113_progress` | Props/WildConc.lean | Classical.choice, Quot.sound, propext |
| `C113_pushes` | Props/WildConc.lean | Classical.choice, Quot.sound, propext |
| `C114_as_calm` | Props/WildSystem.lean | Classical.choice, Quot.sound, propext |
| `C114_closes` | Props/WildSystem.lean | Classical.choice, Quot.sound, propext |
| `C114_exact` | Props/WildSystem.lean | Classical.choice, Quot.sound, propext |
| `C114_goes_on` | Props/WildSystem.lean | Classical.choice, Quot.sound, propext |
| `C114_log` | Props/WildSystem.lean | Classical.choice, Quot.sound, propext |
| `C114_panics` | Props/WildSystem.lean | Classical.choice, Quot.sound, propext |
| `C114_released` | Props/WildSystem.lean | Classical.choice, Quot.sound, propext |
| `C114_requests` | Props/WildSystem.lean | Classical.choice, Quot.sound, propext |
| `C115_any_panic` | Props/WildHandler.lean | Quot.sound, propext |
| `C115_as_calm` | Props/WildHandler.lean | propext |
| `C115_current` | Props/WildHandler.lean | Classical.choice, Quot.sound, propext |
| `C115_kept` | Props/WildHandler.lean | Classical.choice, Quot.sound, propext |
| `C115_no_deadlock` | Props/WildHandler.lean | propext |
| `C115_returns` | Props/WildHandler.lean | Classical.choice, Quot.sound, propext |
| `C116_as_asleep` | Props/Hosted.lean | Classical.choice, Quot.sound, propext |
| `C116_closes` | Props/Hosted.lean | Classical.choice, Quot.sound, propext |
| `C116_no_use_after_drop` | Props/Hosted.lean | Classical.choice, Quot.sound, propext |
| `C116_released_iff` | Props/Hosted.lean | Classical.choice, Quot.sound, propext |
| `C116_requests` | Props/Hosted.lean | Classical.choice, Quot.sound, propext |
| `C116_tasks_end` | Props/Hosted.lean | Classical.choice, Quot.sound, propext |
| `C116_unwatched` | Props/Hosted.lean | Classical.choice, Quot.sound, propext |
| `C116_user_goes_on` | Props/Hosted.lean | Classical.choice, Quot.sound, propext |
| `C116_watched_iff` | Props/Hosted.lean | Classical.choice, Quot.sound, propext |
| `C117_closes_false` | Props/Noisy.lean | Classical.choice, Quot.sound, propext |
| `C117_closes_partial` | Props/Noisy.lean | Classical.choice, Quot.sound, propext |
| `C117_listener` | Props/Noisy.lean | Classical.choice, Quot.sound, propext |
| `C117_released` | Props/Noisy.lean | Classical.choice, Quot.sound, propext |
| `C117_requests` | Props/Noisy.lean | Classical.choice, Quot.sound, propext |
| `C117_user_goes_on` | Props/Noisy.lean | Classical.choice, Quot.sound, propext |
| `C118_apart` | Props/Sockets.lean | Classical.choice, Quot.sound, propext |
| `C118_can` | Props/Sockets.lean | Classical.choice, Quot.sound, propext |
| `C118_closes` | Props/Sockets.lean | Classical.choice, Quot.sound, propext |
| `C118_handles` | Props/Sockets.lean | Classical.choice, Quot.sound, propext |
| `C118_new` | Props/Sockets.lean | Classical.choice, Quot.sound, propext |
| `C118_one_system` | Props/Sockets.lean | Classical.choice, Quot.sound, propext |
| `C118_released_iff` | Props/Sockets.lean | Classical.choice, Quot.sound, propext |
| `C118_steps` | Props/Sockets.lean | Classical.choice, Quot.sound, propext |
| `C119_closes` | Props/SocketsLive.lean | Classical.choice, Quot.sound, propext |
| `C119_released` | Props/SocketsLive.lean | Classical.choice, Quot.sound, propext |
| `C119_request` | Props/SocketsLive.lean | Classical.choice, Quot.sound, propext |
| `C11_error_accepted` | Props/Codec.lean | Classical.choice, Quot.sound, propext |
| `C11_error_rejected` | Props/Codec.lean | Classical.choice, Quot.sound, propext |
| `C120_as_calm` | Props/Storm.lean | Classical.choice, Quot.sound, propext |
| `C120_closes` | Props/Storm.lean | Classical.choice, Quot.sound, propext |
| `C120_exact` | Props/Storm.lean | Classical.choice, Quot.sound, propext |
| `C120_log` | Props/Storm.lean | Classical.choice, Quot.sound, propext |
| `C120_released` | Props/Storm.lean | Classical.choice, Quot.sound, propext |
| `C120_requests` | Props/Storm.lean | Classical.choice, Quot.sound, propext |
| `C120_tasks_end` | Props/Storm.lean | Classical.choice, Quot.sound, propext |
| `C120_unwatched` | Props/Storm.lean | Classical.choice, Quot.sound, propext |
| `C120_user_goes_on` | Props/Storm.lean | Classical.choice, Quot.sound, propext |
| `C120_watched_iff` | Props/Storm.lean | Classical.choice, Quot.sound, propext |
| `C121_closes` | Props/StormLive.lean | Classical.choice, Quot.sound, propext |
| `C121_released` | Props/StormLive.lean | Classical.choice, Quot.sound, propext |
| `C121_request` | Props/StormLive.lean | Classical.choice, Quot.sound, propext |
| `C121_returns` | Props/StormLive.lean | Classical.choice, Quot.sound, propext |
| `C121_returns_keys` | Props/StormLive.lean | Classical.choice, Quot.sound, propext |
| `C121_shutdown` | Props/StormLive.lean | Classical.choice, Quot.sound, propext |
| `C121_watchdog` | Props/StormLive.lean | Classical.choice, Quot.sound, propext |
| `C122_apart` | Props/Storms.lean | Classical.choice, Quot.sound, propext |
| `C122_can` | Props/Storms.lean | Classical.choice, Quot.sound, propext |
| `C122_closes` | Props/Storms.lean | Classical.choice, Quot.sound, propext |
| `C122_exact` | Props/Storms.lean | Classical.choice, Quot.sound, propext |
| `C122_handles` | Props/Storms.lean | Classical.choice, Quot.sound, propext |
| `C122_new` | Props/Storms.lean | Classical.choice, Quot.sound, propext |
| `C122_one_machine` | Props/Storms.lean | Classical.choice, Quot.sound, propext |
| `C122_released_iff` | Props/Storms.lean | Classical.choice, Quot.sound, propext |
| `C122_requests` | Props/Storms.lean | Classical.choice, Quot.sound, propext |
| `C122_shutdown` | Props/Storms.lean | Classical.choice, Quot.sound, propext |
| `C122_steps` | Props/Storms.lean | Classical.choice, Quot.sound, propext |
| `C122_unwatched` | Props/Storms.lean | Classical.choice, Quot.sound, propext |
| `C123_closes` | Props/StormsLive.lean | Classical.choice, Quot.sound, propext |
| `C123_one_machine` | Props/StormsLive.lean | Classical.choice, Quot.sound, propext |
| `C123_released` | Props/StormsLive.lean | Classical.choice, Quot.sound, propext |
| `C123_request` | Props/StormsLive.lean | Classical.choice, Quot.sound, propext |
| `C123_shutdown` | Props/StormsLive.lean | Classical.choice, Quot.sound, propext |
| `C123_watchdog` | Props/StormsLive.lean | Classical.choice, Quot.sound, propext |
| `C124_encodes` | Props/WildPeer.lean | Classical.choice, Quot.sound, propext |
| `C124_end_to_end` | Props/WildPeer.lean | Classical.choice, Quot.sound, propext |
| `C124_no_other_socket` | Props/WildPeer.lean | Classical.choice, Quot.sound, propext |
| `C124_no_other_stream` | Props/WildPeer.lean | Classical.choice, Quot.sound, propext |
| `C124_panicked` | Props/WildPeer.lean | Classical.choice, Quot.sound, propext |
| `C124_pushes` | Props/WildPeer.lean | Classical.choice, Quot.sound, propext |
| `C124_pushes_apart` | Props/WildPeer.lean | Classical.choice, Quot.sound, propext |
| `C124_sockets` | Props/WildPeer.lean | Classical.choice, Quot.sound, propext |
| `C124_whole` | Props/WildPeer.lean | Classical.choice, Quot.sound, propext |
| `C125_all_in_use` | Props/Progress.lean | Classical.choice, Quot.sound, propext |
| `C125_changing` | Props/Progress.lean | Classical.choice, Quot.sound, propext |
| `C125_one_may_starve` | Props/Progress.lean | Classical.choice, Quot.sound, propext |
| `C125_panics` | Props/Progress.lean | Classical.choice, Quot.sound, propext |
| `C125_sockets` | Props/Progress.lean | Classical.choice, Quot.sound, propext |
| `C125_some_end` | Props/Progress.lean | Classical.choice, Quot.sound, propext |
| `C126_calls` | Props/Whim.lean | Classical.choice, Quot.sound, propext |
| `C126_hosted` | Props/Whim.lean | Classical.choice, Quot.sound, propext |
| `C126_machine` | Props/Whim.lean | Classical.choice, Quot.sound, propext |
| `C126_noisy` | Props/Whim.lean | Classical.choice, Quot.sound, propext |
| `C126_panics` | Props/Whim.lean | Classical.choice, Quot.sound, propext |
| `C126_reachable` | Props/Whim.lean | Classical.choice, Quot.sound, propext |
| `C126_sockets` | Props/Whim.lean | Classical.choice, Quot.sound, propext |
| `C126_storm` | Props/Whim.lean | Classical.choice, Quot.sound, propext |
| `C126_storms` | Props/Whim.lean | Classical.choice, Quot.sound, propext |
| `C126_tended` | Props/Whim.lean | Classical.choice, Quot.sound, propext |
| `C126_wild` | Props/Whim.lean | Classical.choice, Quot.sound, propext |
| `C127_delivered` | Props/Lost.lean | Classical.choice, Quot.sound, propext |
| `C127_moment` | Props/Lost.lean | Classical.choice, Quot.sound, propext |
| `C127_no_other_stream` | Props/Lost.lean | Classical.choice, Quot.sound, propext |
| `C127_ok_lost` | Props/Lost.lean | Classical.choice, Quot.sound, propext |
| `C127_pushes` | Props/Lost.lean | Classical.choice, Quot.sound, propext |
| `C127_request` | Props/Lost.lean | Classical.choice, Quot.sound, propext |
| `C127_sockets` | Props/Lost.lean | Classical.choice, Quot.sound, propext |
| `C127_sockets_moment` | Props/Lost.lean | Classical.choice, Quot.sound, propext |
| `C128_any_panic` | Props/Tended.lean | Classical.choice, Quot.sound, propext |
| `C128_apart` | Props/Tended.lean | Classical.choice, Quot.sound, propext |
| `C128_as_calm` | Props/Tended.lean | Classical.choice, Quot.sound, propext |
| `C128_current` | Props/Tended.lean | Classical.choice, Quot.sound, propext |
| `C128_end` | Props/Tended.lean | Classical.choice, Quot.sound, propext |
| `C128_gone` | Props/Tended.lean | Classical.choice, Quot.sound, propext |
| `C128_lock` | Props/Tended.lean | Classical.choice, Quot.sound, propext |
| `C128_machine` | Props/Tended.lean | Classical.choice, Quot.sound, propext |
| `C128_no_use_after_drop` | Props/Tended.lean | Classical.choice, Quot.sound, propext |
| `C128_once` | Props/Tended.lean | Classical.choice, Quot.sound, propext |
| `C128_pending` | Props/Tended.lean | Classical.choice, Quot.sound, propext |
| `C128_returns` | Props/Tended.lean | Classical.choice, Quot.sound, propext |
| `C128_shutdown` | Props/Tended.lean | Classical.choice, Quot.sound, propext |
| `C129_barked` | Props/Workers.lean | Quot.sound, propext |
| `C129_comes_about` | Props/Workers.lean | Quot.sound, propext |
| `C129_floods` | Props/Workers.lean | Quot.sound, propext |
| `C129_gives_way_false` | Props/Workers.lean | Classical.choice, Quot.sound, propext |
| `C129_gives_way_partial` | Props/Workers.lean | Classical.choice, Quot.sound, propext |
| `C129_heard` | Props/Workers.lean | Quot.sound, propext |
| `C129_inevitable` | Props/Workers.lean | Classical.choice, Quot.sound, propext |
| `C129_lost` | Props/Workers.lean | Classical.choice, Quot.sound, propext |
| `C129_nothing_else` | Props/Workers.lean | Classical.choice, Quot.sound, propext |
| `C129_occupied` | Props/Workers.lean | propext |
| `C129_watchdog_partial` | Props/Workers.lean | Classical.choice, Quot.sound, propext |
| `C12_unknown_type` | Props/Codec.lean | Classical.choice, Quot.sound, propext |
| `C130_never` | Props/Halting.lean | propext |
| `C130_quiet` | Props/Halting.lean | propext |
| `C130_shutdown_false` | Props/Halting.lean | Quot.sound, propext |
| `C130_shutdown_partial` | Props/Halting.lean | Classical.choice, Quot.sound, propext |
| `C130_tasks_partial` | Props/Halting.lean | Classical.choice, Quot.sound, propext |
| `C131_flags_read` | Props/Interop.lean | Classical.choice, Quot.sound, propext |
| `C131_flags_seen` | Props/Interop.lean | Classical.choice, Quot.sound, propext |
| `C131_interop_false` | Props/Interop.lean | Quot.sound, propext |
| `C131_keepalive` | Props/Interop.lean | Classical.choice, Quot.sound, propext |
| `C131_read_partial` | Props/Interop.lean | Classical.choice, Quot.sound, propext |
| `C131_sent_partial` | Props/Interop.lean | Classical.choice, Quot.sound, propext |
| `C131_token` | Props/Interop.lean | Classical.choice, Quot.sound, propext |
| `C131_token_wrong` | Props/Interop.lean | Classical.choice, Quot.sound, propext |
| `C132_data_split` | Props/Rsocket.lean | Classical.choice, Quot.sound, propext |
| `C132_interop_false` | Props/Rsocket.lean | Quot.sound, propext |
| `C132_metadata` | Props/Rsocket.lean | Classical.choice, Quot.sound, propext |
| `C132_no_request` | Props/Rsocket.lean | Classical.choice, Quot.sound, propext |
| `C132_read_partial` | Props/Rsocket.lean | Classical.choice, Quot.sound, propext |
| `C132_sent_partial` | Props/Rsocket.lean | Classical.choice, Quot.sound, propext |
| `C132_setup` | Props/Rsocket.lean | Classical.choice, Quot.sound, propext |
| `C132_short` | Props/Rsocket.lean | Classical.choice, Quot.sound, propext |
| `C132_taken` | Props/Rsocket.lean | Classical.choice, Quot.sound, propext |
| `C133_calls_false` | Props/RsocketFnf.lean | Classical.choice, Quot.sound, propext |
| `C133_calls_partial` | Props/RsocketFnf.lean | Classical.choice, Quot.sound, propext |
| `C133_fragments` | Props/RsocketFnf.lean | Classical.choice, Quot.sound, propext |
| `C133_frame` | Props/RsocketFnf.lean | Classical.choice, Quot.sound, propext |
| `C133_never` | Props/RsocketFnf.lean | Classical.choice, Quot.sound, propext |
| `C133_panics_partial` | Props/RsocketSockets.lean | Classical.choice, Quot.sound, propext |
| `C133_reader` | Props/RsocketFnf.lean | Classical.choice, Quot.sound, propext |
| `C133_sockets_partial` | Props/RsocketSockets.lean | Classical.choice, Quot.sound, propext |
| `C134_flag_false` | Props/RsocketPush.lean | Classical.choice, Quot.sound, propext |
| `C134_frame` | Props/RsocketPush.lean | Classical.choice, Quot.sound, propext |
| `C134_panics_partial` | Props/RsocketSockets.lean | Classical.choice, Quot.sound, propext |
| `C134_pushes_partial` | Props/RsocketPush.lean | Classical.choice, Quot.sound, propext |
| `C134_reader` | Props/RsocketPush.lean | Quot.sound, propext |
| `C134_received` | Props/RsocketPush.lean | Classical.choice, Quot.sound, propext |
| `C134_sockets_partial` | Props/RsocketSockets.lean | Classical.choice, Quot.sound, propext |
| `C13_incomplete_iff` | Props/Codec.lean | Classical.choice, Quot.sound, propext |
| `C14_extension` | Props/Codec.lean | Classical.choice, Quot.sound, propext |
| `C14_extension_error` | Props/Codec.lean | Classical.choice, Quot.sound, propext |
| `C15_consumes_front` | Props/Codec.lean | Classical.choice, Quot.sound, propext |
| `C16_injective` | Props/Codec.lean | Classical.choice, Quot.sound, propext |
| `C17_debug` | Props/Constructors.lean | Classical.choice, Quot.sound, propext |
| `C17_in_range` | Props/Constructors.lean | Classical.choice, Quot.sound, propext |
| `C17_lease_release` | Props/Constructors.lean | Quot.sound, propext |
| `C17_release_false` | Props/Constructors.lean | Quot.sound, propext |
| `C17_release_partial` | Props/Constructors.lean | Classical.choice, Quot.sound, propext |
| `C18_flags_survive` | Props/Constructors.lean | Classical.choice, Quot.sound, propext |
| `C19_error_codes_false` | Props/Constructors.lean | Quot.sound, propext |
| `C19_error_codes_high` | Props/Constructors.lean | Classical.choice, Quot.sound, propext |
| `C19_error_codes_partial` | Props/Constructors.lean | Classical.choice, Quot.sound, propext |
| `C20_setup_round_trip_false` | Props/Constructors.lean | Classical.choice, Quot.sound, propext |
| `C20_setup_round_trip_partial` | Props/Constructors.lean | Classical.choice, Quot.sound, propext |
| `C20_up_to_empty_partial` | Props/Constructors.lean | Classical.choice, Quot.sound, propext |
| `C21_accepts` | Props/Constructors.lean | Classical.choice, Quot.sound, propext |
| `C21_last_write_wins` | Props/Constructors.lean | Classical.choice, Quot.sound, propext |
| `C21_order` | Props/Constructors.lean | Classical.choice, Quot.sound, propext |
| `C22_bounds` | Props/Small.lean | Quot.sound, propext |
| `C22_inverse` | Props/Small.lean | Quot.sound, propext |
| `C22_u32` | Props/Small.lean | Quot.sound, propext |
| `C22_usize` | Props/Small.lean | Quot.sound, propext |
| `C23_lexicographic` | Props/Small.lean | Classical.choice, Quot.sound, propext |
| `C23_total_order` | Props/Small.lean | Classical.choice, Quot.sound, propext |
| `C24_from_bits` | Props/Small.lean | propext |
| `C24_from_bits_or` | Props/Small.lean | Quot.sound, propext |
| `C24_values` | Props/Small.lean | none |
| `C25_predicates` | Props/Small.lean | Classical.choice, Quot.sound, propext |
| `C25_safe_iff` | Props/Small.lean | Classical.choice, Quot.sound, propext |
| `C25_type_and_flags` | Props/Small.lean | Classical.choice, Quot.sound, propext |
| `C26_nothing_lost` | Props/Chunks.lean | Classical.choice, Quot.sound, propext |
| `C26_presence` | Props/Chunks.lean | Classical.choice, Quot.sound, propext |
| `C27_count` | Props/Chunks.lean | Quot.sound, propext |
| `C27_nth` | Props/Chunks.lean | Classical.choice, Quot.sound, propext |
| `C27_sizes` | Props/Chunks.lean | Classical.choice, Quot.sound, propext |
| `C27_terminates` | Props/Chunks.lean | Classical.choice, Quot.sound, propext |
| `C27_zero` | Props/Chunks.lean | Quot.sound, propext |
| `C28_empty_false` | Props/Chunks.lean | Classical.choice, Quot.sound, propext |
| `C28_every_size_false` | Props/ChunkCount.lean | Classical.choice, Quot.sound, propext |
| `C28_len_error` | Props/Chunks.lean | Classical.choice, Quot.sound, propext |
| `C28_len_exact_false` | Props/Chunks.lean | Classical.choice, Quot.sound, propext |
| `C28_len_exact_partial` | Props/Chunks.lean | Classical.choice, Quot.sound, propext |
| `C28_len_long_partial` | Props/ChunkCount.lean | Classical.choice, Quot.sound, propext |
| `C29_frame` | Props/Socket.lean | Classical.choice, Quot.sound, propext |
| `C29_unfragmented` | Props/Socket.lean | Classical.choice, Quot.sound, propext |
| `C30_every_payload` | Props/Socket.lean | Classical.choice, Quot.sound, propext |
| `C30_fragmented` | Props/Socket.lean | Classical.choice, Quot.sound, propext |
| `C30_fragmented_open` | Props/Socket.lean | Classical.choice, Quot.sound, propext |
| `C30_long` | Props/ChunkCount.lean | Classical.choice, Quot.sound, propext |
| `C30_zero_panics` | Props/Socket.lean | Classical.choice, Quot.sound, propext |
| `C31_first_error` | Props/Socket.lean | Classical.choice, Quot.sound, propext |
| `C31_ok_iff` | Props/Socket.lean | Quot.sound, propext |
| `C32_end_to_end` | Props/Socket.lean | Classical.choice, Quot.sound, propext |
| `C32_too_big` | Props/Socket.lean | Classical.choice, Quot.sound, propext |
| `C33_big_part_false` | Props/Socket.lean | Classical.choice, Quot.sound, propext |
| `C33_empty_part_false` | Props/Socket.lean | Classical.choice, Quot.sound, propext |
| `C33_every_size_false` | Props/ChunkCount.lean | Classical.choice, Quot.sound, propext |
| `C33_iff` | Props/Socket.lean | Classical.choice, Quot.sound, propext |
| `C33_last_final_partial` | Props/Socket.lean | Classical.choice, Quot.sound, propext |
| `C33_long_partial` | Props/ChunkCount.lean | Classical.choice, Quot.sound, propext |
| `C33_nothing_sent_false` | Props/Socket.lean | Classical.choice, Quot.sound, propext |
| `C34_metadata_push` | Props/Socket.lean | Classical.choice, Quot.sound, propext |
| `C35_one_sequence` | Props/BufList.lean | Classical.choice, Quot.sound, propext |
| `C35_pieces` | Props/BufList.lean | Classical.choice, Quot.sound, propext |
| `C35_push_empty` | Props/BufList.lean | none |
| `C36_empty_buffers` | Props/BufList.lean | Classical.choice, Quot.sound, propext |
| `C36_overrun` | Props/BufList.lean | Classical.choice, Quot.sound, propext |
| `C37_leading` | Props/BufList.lean | Quot.sound, propext |
| `C37_prefix` | Props/BufList.lean | Classical.choice, Quot.sound, propext |
| `C38_all_decode` | Props/BufList.lean | Classical.choice, Quot.sound, propext |
| `C38_first_failure` | Props/BufList.lean | Classical.choice, Quot.sound, propext |
| `C38_ok_iff` | Props/BufList.lean | Classical.choice, Quot.sound, propext |
| `C39_client_odd` | Props/StreamId.lean | Classical.choice, Quot.sound, propext |
| `C39_range_parity` | Props/StreamId.lean | Classical.choice, Quot.sound, propext |
| `C39_server_even` | Props/StreamId.lean | Classical.choice, Quot.sound, propext |
| `C40_all_returned` | Props/StreamId.lean | Classical.choice, Quot.sound, propext |
| `C40_free_at_check` | Props/StreamId.lean | Quot.sound, propext |
| `C41_sharp` | Props/StreamId.lean | Classical.choice, Quot.sound, propext |
| `C41_unique` | Props/StreamId.lean | Classical.choice, Quot.sound, propext |
| `C42_exhausted` | Props/StreamId.lean | Classical.choice, Quot.sound, propext |
| `C42_first_free` | Props/StreamId.lean | Classical.choice, Quot.sound, propext |
| `C42_terminates` | Props/StreamId.lean | Classical.choice, Quot.sound, propext |
| `C43_client_nonzero` | Props/StreamId.lean | Classical.choice, Quot.sound, propext |
| `C43_server_nonzero_partial` | Props/StreamId.lean | Classical.choice, Quot.sound, propext |
| `C43_server_zero_false` | Props/StreamId.lean | Classical.choice, Quot.sound, propext |
| `C44_exact` | Props/Counter.lean | Quot.sound, propext |
| `C44_initial` | Props/Counter.lean | Classical.choice, Quot.sound, propext |
| `C44_interleaving` | Props/Counter.lean | Quot.sound, propext |
| `C44_results` | Props/Counter.lean | Quot.sound, propext |
| `C45_no_over_grant_false` | Props/Counter.lean | Classical.choice, Quot.sound, propext |
| `C45_no_over_grant_partial` | Props/Counter.lean | Classical.choice, Quot.sound, propext |
| `C45_sharp` | Props/Counter.lean | Classical.choice, Quot.sound, propext |
| `C46_is_zero_false` | Props/Counter.lean | Quot.sound, propext |
| `C46_is_zero_iff` | Props/Counter.lean | Classical.choice, Quot.sound, propext |
| `C46_is_zero_partial` | Props/Counter.lean | Classical.choice, Quot.sound, propext |
| `C47_names` | Props/Error.lean | Quot.sound, propext |
| `C47_partition` | Props/Error.lean | propext |
| `C47_specific` | Props/Error.lean | propext |
| `C48_codes` | Props/Error.lean | none |
| `C48_display` | Props/Error.lean | Quot.sound, propext |
| `C48_distinct` | Props/Error.lean | Classical.choice, Quot.sound, propext |
| `C48_names_code_false` | Props/Error.lean | propext |
| `C48_names_code_partial` | Props/Error.lean | propext |
| `C48_rejected` | Props/Error.lean | propext |
| `C49_conversion` | Props/Error.lean | propext |
| `C49_distinct` | Props/Error.lean | Classical.choice, Quot.sound, propext |
| `C49_io` | Props/Error.lean | propext |
| `C49_texts` | Props/Error.lean | Classical.choice, Quot.sound, propext |
| `C50_all_types` | Props/Mime.lean | Quot.sound, propext |
| `C50_injective` | Props/Mime.lean | Quot.sound, propext |
| `C50_listed` | Props/Mime.lean | Quot.sound, propext |
| `C50_names` | Props/Mime.lean | Classical.choice, Quot.sound, propext |
| `C51_into_str_false` | Props/Mime.lean | none |
| `C51_never_returns` | Props/Mime.lean | none |
| `C51_unparseable_partial` | Props/Mime.lean | none |
| `C52_actions` | Props/Socket.lean | Quot.sound, propext |
| `C52_by_second` | Props/Socket.lean | Quot.sound, propext |
| `C52_closes_iff` | Props/Socket.lean | Quot.sound, propext |
| `C52_not_early` | Props/Socket.lean | Quot.sound, propext |
| `C53_always_closed` | Props/Socket.lean | Classical.choice, Quot.sound, propext |
| `C53_kept_open_false` | Props/Socket.lean | Quot.sound, propext |
| `C53_kept_open_partial` | Props/Socket.lean | Quot.sound, propext |
| `C54_accessors` | Props/Text.lean | Classical.choice, Quot.sound, propext |
| `C54_is_some` | Props/Text.lean | Classical.choice, Quot.sound, propext |
| `C54_mime_str` | Props/Text.lean | Classical.choice, Quot.sound, propext |
| `C55_error_frame` | Props/Text.lean | Classical.choice, Quot.sound, propext |
| `C55_payload` | Props/Text.lean | Classical.choice, Quot.sound, propext |
| `C56_grammar` | Props/Codec.lean | Classical.choice, Quot.sound, propext |
| `C57_answers` | Props/Conc.lean | Classical.choice, Quot.sound, propext |
| `C57_can_ask` | Props/Conc.lean | Classical.choice, Quot.sound, propext |
| `C57_completes` | Props/Conc.lean | Classical.choice, Quot.sound, propext |
| `C57_distinct_ids` | Props/Conc.lean | Classical.choice, Quot.sound, propext |
| `C57_every_age` | Props/Conc.lean | Classical.choice, Quot.sound, propext |
| `C57_history` | Props/Conc.lean | Classical.choice, Quot.sound, propext |
| `C57_no_stray_frame` | Props/Conc.lean | Classical.choice, Quot.sound, propext |
| `C57_own_frames` | Props/Conc.lean | Classical.choice, Quot.sound, propext |
| `C57_progress` | Props/Conc.lean | Classical.choice, Quot.sound, propext |
| `C57_zero_size` | Props/Conc.lean | Classical.choice, Quot.sound, propext |
| `C58_retry_false` | Props/Codec.lean | Quot.sound, propext |
| `C58_retry_never` | Props/Codec.lean | Classical.choice, Quot.sound, propext |
| `C58_retry_partial` | Props/Codec.lean | Quot.sound, propext |
| `C59_accessors` | Props/Text.lean | Quot.sound, propext |
| `C59_builder` | Props/Text.lean | propext |
| `C59_encode` | Props/Text.lean | Quot.sound, propext |
| `C60_listener` | Props/Socket.lean | Quot.sound, propext |
| `C61_every_age` | Props/Machine.lean | Classical.choice, Quot.sound, propext |
| `C61_frames` | Props/Machine.lean | Classical.choice, Quot.sound, propext |
| `C61_ids` | Props/Machine.lean | Classical.choice, Quot.sound, propext |
| `C61_initial` | Props/Machine.lean | Quot.sound, propext |
| `C61_no_collision` | Props/Machine.lean | Classical.choice, Quot.sound, propext |
| `C61_one_frame` | Props/Machine.lean | Classical.choice, Quot.sound, propext |
| `C61_sequence` | Props/Machine.lean | Classical.choice, Quot.sound, propext |
| `C62_accounting` | Props/StreamId.lean | Classical.choice, Quot.sound, propext |
| `C62_failed_checks` | Props/StreamId.lean | Classical.choice, Quot.sound, propext |
| `C62_progress` | Props/StreamId.lean | Classical.choice, Quot.sound, propext |
| `C62_starvation` | Props/StreamId.lean | Classical.choice, Quot.sound, propext |
| `C63_unimplemented_false` | Props/Machine.lean | Classical.choice, Quot.sound, propext |
| `C63_usable_partial` | Props/Machine.lean | Classical.choice, Quot.sound, propext |
| `C64_flag_needed` | Props/Display.lean | Quot.sound, propext |
| `C64_listed` | Props/Display.lean | Classical.choice, Quot.sound, propext |
| `C64_same_type` | Props/Display.lean | Classical.choice, Quot.sound, propext |
| `C65_missed` | Props/Machine.lean | Quot.sound, propext |
| `C65_once_false` | Props/Machine.lean | Quot.sound, propext |
| `C65_reports_partial` | Props/Machine.lean | Quot.sound, propext |
| `C66_exact_false` | Props/Display.lean | none |
| `C66_never` | Props/Display.lean | none |
| `C66_valid_partial` | Props/Display.lean | none |
| `C67_frame_decode` | Props/Direct.lean | Classical.choice, Quot.sound, propext |
| `C67_kept` | Props/Direct.lean | Classical.choice, Quot.sound, propext |
| `C67_refused_false` | Props/Direct.lean | Quot.sound, propext |
| `C67_refused_partial` | Props/Direct.lean | Quot.sound, propext |
| `C67_total` | Props/Direct.lean | Classical.choice, Quot.sound, propext |
| `C68_anywhere_iff` | Props/Codes.lean | Classical.choice, Quot.sound, propext |
| `C68_disjoint` | Props/Codes.lean | none |
| `C68_received` | Props/Codes.lean | Classical.choice, Quot.sound, propext |
| `C68_values` | Props/Codes.lean | none |
| `C69_counts_partial` | Props/Display.lean | Classical.choice, Quot.sound, propext |
| `C69_payload_partial` | Props/Display.lean | Classical.choice, Quot.sound, propext |
| `C69_receiver_false` | Props/Display.lean | Quot.sound, propext |
| `C69_sender_false` | Props/Display.lean | Quot.sound, propext |
| `C69_setup_partial` | Props/Display.lean | Classical.choice, Quot.sound, propext |
| `C70_encodes` | Props/Peer.lean | Classical.choice, Quot.sound, propext |
| `C70_end_to_end` | Props/Peer.lean | Classical.choice, Quot.sound, propext |
| `C70_no_other_stream` | Props/Peer.lean | Classical.choice, Quot.sound, propext |
| `C70_too_big` | Props/Peer.lean | Classical.choice, Quot.sound, propext |
| `C71_accessors` | Props/Access.lean | Classical.choice, Quot.sound, propext |
| `C71_before_sending` | Props/Access.lean | Classical.choice, Quot.sound, propext |
| `C71_constants` | Props/Access.lean | Classical.choice, Quot.sound, propext |
| `C71_setup` | Props/Access.lean | Classical.choice, Quot.sound, propext |
| `C71_setup_before_sending` | Props/Access.lean | Classical.choice, Quot.sound, propext |
| `C72_as_if_alone` | Props/StreamId.lean | Classical.choice, Quot.sound, propext |
| `C72_schedule_independent` | Props/StreamId.lean | Classical.choice, Quot.sound, propext |
| `C73_closes` | Props/System.lean | Classical.choice, Quot.sound, propext |
| `C73_log` | Props/System.lean | Classical.choice, Quot.sound, propext |
| `C73_requests` | Props/System.lean | Classical.choice, Quot.sound, propext |
| `C73_silent_false` | Props/System.lean | Classical.choice, Quot.sound, propext |
| `C73_tasks_go_on` | Props/System.lean | Classical.choice, Quot.sound, propext |
| `C73_user_goes_on` | Props/System.lean | Classical.choice, Quot.sound, propext |
| `C73_watchdog` | Props/System.lean | Classical.choice, Quot.sound, propext |
| `C73_watchdog_steps` | Props/System.lean | Classical.choice, Quot.sound, propext |
| `C74_version` | Props/Display.lean | Classical.choice, Quot.sound, propext |
| `C75_calls_ended` | Props/System.lean | Classical.choice, Quot.sound, propext |
| `C75_can_drop` | Props/System.lean | Classical.choice, Quot.sound, propext |
| `C75_dropped_false` | Props/System.lean | Classical.choice, Quot.sound, propext |
| `C75_listener_keeps_partial` | Props/System.lean | Classical.choice, Quot.sound, propext |
| `C75_no_use_after_drop` | Props/System.lean | Classical.choice, Quot.sound, propext |
| `C75_released_iff` | Props/System.lean | Classical.choice, Quot.sound, propext |
| `C76_debug` | Props/Display.lean | Classical.choice, Quot.sound, propext |
| `C76_decode_distinct` | Props/Display.lean | Classical.choice, Quot.sound, propext |
| `C76_source` | Props/Display.lean | propext |
| `C77_back_to_back_false` | Props/Canonical.lean | Classical.choice, Quot.sound, propext |
| `C77_back_to_back_partial` | Props/Canonical.lean | Classical.choice, Quot.sound, propext |
| `C77_swallowed` | Props/Canonical.lean | Classical.choice, Quot.sound, propext |
| `C78_ignored` | Props/Canonical.lean | Classical.choice, Quot.sound, propext |
| `C78_reencode` | Props/Canonical.lean | Classical.choice, Quot.sound, propext |
| `C78_same_frame_iff` | Props/Canonical.lean | Classical.choice, Quot.sound, propext |
| `C79_not_empty` | Props/Display.lean | Quot.sound, propext |
| `C80_call_and_cancel` | Props/Handler.lean | propext |
| `C80_current` | Props/Handler.lean | Classical.choice, Quot.sound, propext |
| `C80_finish` | Props/Handler.lean | Classical.choice, Quot.sound, propext |
| `C80_kept` | Props/Handler.lean | Classical.choice, Quot.sound, propext |
| `C80_no_deadlock` | Props/Handler.lean | propext |
| `C80_once` | Props/Handler.lean | Classical.choice, Quot.sound, propext |
| `C80_order` | Props/Handler.lean | Classical.choice, Quot.sound, propext |
| `C80_own` | Props/Handler.lean | Classical.choice, Quot.sound, propext |
| `C80_served` | Props/Handler.lean | Quot.sound, propext |
| `C81_frame_size_false` | Props/Sizes.lean | Classical.choice, Quot.sound, propext |
| `C81_frame_size_partial` | Props/Sizes.lean | Classical.choice, Quot.sound, propext |
| `C81_total` | Props/Sizes.lean | Classical.choice, Quot.sound, propext |
| `C82_no_amplification` | Props/Sizes.lean | Classical.choice, Quot.sound, propext |
| `C82_size` | Props/Sizes.lean | Classical.choice, Quot.sound, propext |
| `C83_truncation_false` | Props/Truncate.lean | Quot.sound, propext |
| `C83_truncation_partial` | Props/Truncate.lean | Classical.choice, Quot.sound, propext |
| `C84_detected_false` | Props/Truncate.lean | Quot.sound, propext |
| `C84_lost_partial` | Props/Truncate.lean | Classical.choice, Quot.sound, propext |
| `C84_never_detected` | Props/Truncate.lean | Classical.choice, Quot.sound, propext |
| `C85_builder` | Props/Panics.lean | Classical.choice, Quot.sound, propext |
| `C85_new` | Props/Panics.lean | Classical.choice, Quot.sound, propext |
| `C85_new_release` | Props/Panics.lean | Classical.choice, Quot.sound, propext |
| `C86_injective` | Props/Debug.lean | Classical.choice, Quot.sound, propext |
| `C86_literal` | Props/Debug.lean | Classical.choice, Quot.sound, propext |
| `C86_printable` | Props/Debug.lean | Classical.choice, Quot.sound, propext |
| `C86_text` | Props/Debug.lean | Classical.choice, Quot.sound, propext |
| `C86_values` | Props/Debug.lean | Classical.choice, Quot.sound, propext |
| `C87_alone` | Props/Wait.lean | Classical.choice, Quot.sound, propext |
| `C87_draws` | Props/Wait.lean | Classical.choice, Quot.sound, propext |
| `C87_limit_needed` | Props/Wait.lean | Classical.choice, Quot.sound, propext |
| `C87_wait_free` | Props/Wait.lean | Classical.choice, Quot.sound, propext |
| `C88_covers_sequential` | Props/Long.lean | Classical.choice, Quot.sound, propext |
| `C88_covers_short` | Props/Long.lean | Classical.choice, Quot.sound, propext |
| `C88_distinct_partial` | Props/Long.lean | Classical.choice, Quot.sound, propext |
| `C88_mixed_false` | Props/Long.lean | Classical.choice, Quot.sound, propext |
| `C88_next_draw` | Props/Long.lean | Classical.choice, Quot.sound, propext |
| `C88_own_frames_partial` | Props/Long.lean | Classical.choice, Quot.sound, propext |
| `C89_copy` | Props/Provided.lean | Classical.choice, Quot.sound, propext |
| `C89_decode` | Props/Provided.lean | Classical.choice, Quot.sound, propext |
| `C89_deque` | Props/Provided.lean | Classical.choice, Quot.sound, propext |
| `C90_chunks_partial` | Props/Provided.lean | Quot.sound, propext |
| `C90_gap_false` | Props/Provided.lean | Quot.sound, propext |
| `C90_no_gap_partial` | Props/Provided.lean | Classical.choice, Quot.sound, propext |
| `C91_final` | Props/Atomic.lean | Classical.choice, Quot.sound, propext |
| `C91_linearizable` | Props/Atomic.lean | Classical.choice, Quot.sound, propext |
| `C91_no_over_grant` | Props/Atomic.lean | Classical.choice, Quot.sound, propext |
| `C91_seqcst` | Props/Atomic.lean | Classical.choice, Quot.sound, propext |
| `C92_interleaving` | Props/Atomic.lean | Classical.choice, Quot.sound, propext |
| `C92_positions` | Props/Atomic.lean | Classical.choice, Quot.sound, propext |
| `C92_range_parity` | Props/Atomic.lean | Classical.choice, Quot.sound, propext |
| `C92_unique` | Props/Atomic.lean | Classical.choice, Quot.sound, propext |
| `C93_allocations_partial` | Props/Capacity.lean | Classical.choice, Quot.sound, propext |
| `C93_exact_false` | Props/Capacity.lean | Classical.choice, Quot.sound, propext |
| `C93_least` | Props/Capacity.lean | Classical.choice, Quot.sound, propext |
| `C93_never_grows` | Props/Capacity.lean | Classical.choice, Quot.sound, propext |
| `C93_types_partial` | Props/Capacity.lean | Classical.choice, Quot.sound, propext |
| `C94_accepts_iff` | Props/Accepts.lean | Classical.choice, Quot.sound, propext |
| `C94_enforced_partial` | Props/Accepts.lean | Classical.choice, Quot.sound, propext |
| `C94_protocol_false` | Props/Accepts.lean | Quot.sound, propext |
| `C95_breaks` | Props/Pretty.lean | Classical.choice, Quot.sound, propext |
| `C95_injective` | Props/Pretty.lean | Classical.choice, Quot.sound, propext |
| `C95_lines` | Props/Pretty.lean | Classical.choice, Quot.sound, propext |
| `C95_named` | Props/Pretty.lean | Classical.choice, Quot.sound, propext |
| `C95_printable` | Props/Pretty.lean | Classical.choice, Quot.sound, propext |
| `C95_same` | Props/Pretty.lean | Classical.choice, Quot.sound, propext |
| `C96_chunks` | Props/Pretty.lean | Classical.choice, Quot.sound, propext |
| `C96_counter` | Props/Pretty.lean | Classical.choice, Quot.sound, propext |
| `C96_decodeError` | Props/Pretty.lean | Classical.choice, Quot.sound, propext |
| `C96_error` | Props/Pretty.lean | Classical.choice, Quot.sound, propext |
| `C96_frameType` | Props/Pretty.lean | Classical.choice, Quot.sound, propext |
| `C96_payloadBuilder` | Props/Pretty.lean | Classical.choice, Quot.sound, propext |
| `C96_setupBuilder` | Props/Pretty.lean | Classical.choice, Quot.sound, propext |
| `C96_status` | Props/Pretty.lean | Classical.choice, Quot.sound, propext |
| `C96_streamIds` | Props/Pretty.lean | Classical.choice, Quot.sound, propext |
| `C96_streamIds_after` | Props/Pretty.lean | Classical.choice, Quot.sound, propext |
| `C96_timeout` | Props/Pretty.lean | Classical.choice, Quot.sound, propext |
| `C96_values` | Props/Pretty.lean | Classical.choice, Quot.sound, propext |
| `C97_appends` | Props/Encode.lean | Classical.choice, Quot.sound, propext |
| `C97_frame_types` | Props/Encode.lean | Quot.sound, propext |
| `C97_payload` | Props/Encode.lean | Quot.sound, propext |
| `C97_payload_no_decoder` | Props/Encode.lean | none |
| `C97_u24` | Props/Encode.lean | Quot.sound, propext |
| `C97_version` | Props/Encode.lean | Classical.choice, Quot.sound, propext |
| `C98_len` | Props/Float.lean | Classical.choice, Quot.sound, propext |
| `C98_never_grows` | Props/Float.lean | Classical.choice, Quot.sound, propext |
| `C98_rounding` | Props/Float.lean | Classical.choice, Quot.sound, propext |
| `C98_zero` | Props/Float.lean | Classical.choice, Quot.sound, propext |
| `C99_account` | Props/Work.lean | Classical.choice, Quot.sound, propext |
| `C99_bounded` | Props/Work.lean | Classical.choice, Quot.sound, propext |
| `C99_frame` | Props/Work.lean | Classical.choice, Quot.sound, propext |
| `C99_rejected` | Props/Work.lean | Classical.choice, Quot.sound, propext |
