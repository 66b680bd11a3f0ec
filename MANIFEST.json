{
 "claims": [
  {
   "property": "C01",
   "status": "proved",
   "theorems": [
    "Lms.FrameQueue.queue_refines_bounded_fifo",
    "Lms.FrameQueue.fifo_without_loss_or_duplication",
    "Lms.FrameQueue.refused_write_changes_nothing",
    "Lms.FrameQueue.old_frame_is_last_released",
    "Lms.FrameQueue.nearly_full_report",
    "Lms.FrameQueue.zero_capacity_is_undefined"
   ],
   "note": "All histories, all capacities >= 2 (clamped at 250 by the code); capacity 0 shown undefined."
  },
  {
   "property": "C02",
   "status": "proved",
   "theorems": [
    "Lms.FrameQueue.forced_write_drops_only_newest",
    "Lms.FrameQueue.forced_slot_terminates",
    "Lms.FrameQueue.forced_slot_hangs_with_capacity_one",
    "Lms.FrameQueue.capacity_one_holds_nothing"
   ],
   "note": "Capacity 1 is the recorded counterexample (forced request never returns)."
  },
  {
   "property": "C03",
   "status": "proved",
   "theorems": [
    "Lms.FrameQueue.lock_free_producer_consumer",
    "Lms.FrameQueue.forced_producer_breaks_consumer"
   ],
   "note": "Assumes sequentially consistent untorn index accesses. Forced use is the recorded counterexample."
  },
  {
   "property": "C04",
   "status": "proved",
   "theorems": [
    "Lms.FrameQueue.written_slot_never_read_slot",
    "Lms.FrameQueue.forced_write_aliases_reader_with_two_buffers"
   ],
   "note": "Two-buffer queues with forcing are the recorded counterexample."
  },
  {
   "property": "C05",
   "status": "proved",
   "theorems": [
    "Lms.SlicedQueue.sliced_queue_refines",
    "Lms.SlicedQueue.picture_delivered_as_slices",
    "Lms.SlicedQueue.seventeenth_slice_refused",
    "Lms.SlicedQueue.overflow_counts_every_dropped_slice",
    "Lms.SlicedQueue.abandoned_picture_blocks_encoder",
    "Lms.SlicedQueue.oversized_slice_is_undefined"
   ],
   "note": "All histories. Findings: a picture abandoned by the encoder stays in the input slot; an oversized slice overruns the slot buffer."
  },
  {
   "property": "C06",
   "status": "proved",
   "theorems": [
    "Lms.AudioRing.audio_ring_refines_streams",
    "Lms.AudioRing.bytes_delivered_in_order",
    "Lms.AudioRing.refused_push_changes_nothing",
    "Lms.AudioRing.count_of_empty_frames_is_ub"
   ],
   "note": "All safe histories (Safe spells out what the code relies on: frame planes long enough, fewer than 2^32 samples since synchronisation, gaps to fill of at most 100 ms)."
  },
  {
   "property": "C07",
   "status": "proved",
   "theorems": [
    "Lms.AudioRing.output_time_is_sync_plus_duration",
    "Lms.AudioRing.push_decision",
    "Lms.AudioRing.gap_over_100ms_reads_out_of_bounds",
    "Lms.AudioRing.repeated_frame_gets_next_time",
    "Lms.AudioRing.on_time_frame_resets_after_a_day"
   ],
   "note": "Counterexamples: gaps between 100 ms and the reset limit read out of bounds; a repeated frame gets the next frame's time; the 32-bit sample clock wraps after 2^32 samples."
  },
  {
   "property": "C49",
   "status": "proved",
   "theorems": [
    "Lms.AudioRing.Conc.count_in_every_schedule",
    "Lms.AudioRing.Conc.bytes_right_without_overlap",
    "Lms.AudioRing.Conc.paired_loses_nothing",
    "Lms.AudioRing.Conc.overlapping_updates_corrupt_the_count"
   ],
   "note": "Every interleaving of byte copies and counter accesses of one pushing and one popping thread, with flushes. The plain claim is false when an update is overwritten; the count is characterised exactly for those schedules too."
  },
  {
   "property": "C08",
   "status": "proved",
   "theorems": [
    "Lms.SharedReader.shared_reader_refines",
    "Lms.SharedReader.every_filter_sees_every_frame_once",
    "Lms.SharedReader.leave_can_stall_reader",
    "Lms.SharedReader.release_without_frame_is_ub",
    "Lms.SharedReader.release_answer"
   ],
   "note": "All safe histories with joins and leaves. Recorded exception proved: a leaving filter that was the last one waited for stalls the reader for good."
  },
  {
   "property": "C09",
   "status": "proved",
   "theorems": [
    "Lms.QueueLife.queue_life_refines",
    "Lms.QueueLife.deleted_exactly_once",
    "Lms.QueueLife.second_disconnect_refused",
    "Lms.QueueLife.connecting_to_busy_reader_leaks",
    "Lms.QueueLife.Race.racing_disconnects_are_safe",
    "Lms.QueueLife.Race.racing_disconnects_can_leak"
   ],
   "note": "All safe sequential histories on any number of queues, and all interleavings of two racing disconnections. Leaks are the recorded exceptions."
  },
  {
   "property": "C10",
   "status": "proved",
   "theorems": [
    "Lms.Pool.one_worker_per_filter",
    "Lms.Pool.pick_serves_in_order"
   ],
   "note": "All executions with any number of workers and filters."
  },
  {
   "property": "C11",
   "status": "proved",
   "theorems": [
    "Lms.Pool.pick_removes_front",
    "Lms.Pool.waiting_filter_is_picked_in_turn",
    "Lms.Pool.pending_filter_stays_scheduled",
    "Lms.Pool.notification_can_be_lost"
   ],
   "note": "Lost notifications are the recorded exception."
  },
  {
   "property": "C12",
   "status": "proved",
   "theorems": [
    "Lms.Pool.removed_filter_never_runs",
    "Lms.Pool.removed_filter_never_touched",
    "Lms.Pool.removal_with_pending_job_is_ub",
    "Lms.Pool.removal_races_with_completion",
    "Lms.Pool.reused_id_runs_the_removed_task"
   ],
   "note": "Positive theorems under the stated condition; three counterexamples."
  },
  {
   "property": "C13",
   "status": "proved",
   "theorems": [
    "Lms.Pipeline.registries_stay_wellformed",
    "Lms.Pipeline.graph_stays_consistent",
    "Lms.Pipeline.remove_path_keeps_consistency_iff",
    "Lms.Pipeline.accepted_requests",
    "Lms.Pipeline.refused_request_changes_nothing",
    "Lms.Pipeline.removing_path_breaks_sharing_path",
    "Lms.Pipeline.connecting_dangling_path_is_ub"
   ],
   "note": "All request histories; the results of the connections and the generated ids are arbitrary. Two recorded exceptions proved."
  },
  {
   "property": "C14",
   "status": "proved",
   "theorems": [
    "Lms.Pipeline.stop_releases_everything",
    "Lms.Pipeline.second_stop_refused",
    "Lms.Pipeline.stop_with_two_paths_fails",
    "Lms.Pipeline.stop_with_two_paths_is_ub",
    "Lms.Pipeline.refused_stop_ends_workers",
    "Lms.Pipeline.deleting_twice_is_undefined"
   ],
   "note": "Positive for at most one path; for two or more it is proved that a stop never succeeds."
  },
  {
   "property": "C15",
   "status": "proved",
   "theorems": [
    "Lms.Events.each_event_runs_exactly_once",
    "Lms.Events.events_never_run_early",
    "Lms.Events.can_iff",
    "Lms.Events.poll_runs_in_time_order",
    "Lms.Events.due_events_are_taken",
    "Lms.Events.poll_terminates",
    "Lms.Events.due_event_held_back"
   ],
   "note": "All histories of pushes and polls, any clock, every tie-break of the priority queue. Order is within a poll and relative to what is queued."
  },
  {
   "property": "C16",
   "status": "proved",
   "theorems": [
    "Lms.FilterSync.round_decision",
    "Lms.FilterSync.round_clock",
    "Lms.FilterSync.output_stamps_increase",
    "Lms.FilterSync.output_stamps_on_grid",
    "Lms.FilterSync.round_frames",
    "Lms.FilterSync.late_and_early_frames_handed_on",
    "Lms.FilterSync.early_frame_lost_with_late_one",
    "Lms.FilterSync.demand_decision"
   ],
   "note": "All input sequences, any positive frame time. Two recorded exceptions proved."
  },
  {
   "property": "C50",
   "status": "proved",
   "theorems": [
    "Lms.FilterSync.sync_takes_lagging_inputs",
    "Lms.FilterSync.newest_input_held_back",
    "Lms.FilterSync.sync_with_null_reader_is_ub",
    "Lms.FilterSync.unpaced_round",
    "Lms.FilterSync.synchronised_round",
    "Lms.FilterSync.paced_takes_all"
   ],
   "note": "All combinations of inputs."
  },
  {
   "property": "C17",
   "status": "proved",
   "theorems": [
    "Lms.SeqNum.head_numbers_consecutive",
    "Lms.SeqNum.many_to_one_numbers_consecutive",
    "Lms.SeqNum.one_to_many_copies_number",
    "Lms.SeqNum.consumer_sees_increasing_numbers",
    "Lms.SeqNum.failed_round_enqueues_stale_number"
   ],
   "note": "All histories; numbers are 64-bit. The consumer theorem is over the queue model of C01-C04."
  },
  {
   "property": "C18",
   "status": "proved",
   "theorems": [
    "Lms.Mpd.timeline_refines",
    "Lms.Mpd.window_bounded",
    "Lms.Mpd.fixed_bound_shows_last",
    "Lms.Mpd.one_dropped_one_reported",
    "Lms.Mpd.files_match_timeline",
    "Lms.Mpd.lowered_bound_leaves_files",
    "Lms.Mpd.segment_at_zero_is_never_removed",
    "Lms.Mpd.repeated_start_time_removes_listed_file",
    "Lms.Mpd.changed_folder_orphans_files",
    "Lms.Mpd.removed_representation_leaves_files",
    "Lms.Mpd.failed_write_leaves_files",
    "Lms.Mpd.buffer_time_within_window"
   ],
   "note": "All histories; files match along steady histories, one counterexample for each way of leaving them."
  },
  {
   "property": "C51",
   "status": "proved",
   "theorems": [
    "Lms.Mpd.manifest_describes_representations",
    "Lms.Mpd.frame_rate_of_last_update",
    "Lms.Mpd.maximum_covers_representations",
    "Lms.Mpd.maximum_never_shrinks",
    "Lms.Mpd.maximum_is_largest"
   ],
   "note": "All histories of updates and removals."
  },
  {
   "property": "C19",
   "status": "proved",
   "theorems": [
    "Lms.Dash.video_segments",
    "Lms.Dash.segments_follow_rule",
    "Lms.Dash.segments_abut",
    "Lms.Dash.closing_rule",
    "Lms.Dash.groups_start_intra",
    "Lms.Dash.groups_partition",
    "Lms.Dash.groups_numbered",
    "Lms.Dash.groups_meet_rule",
    "Lms.Dash.next_group_starts_with_closing_frame",
    "Lms.Dash.durations_add_up",
    "Lms.Dash.group_duration_is_distance",
    "Lms.Dash.video_no_overflow",
    "Lms.Dash.segment_one_frame_short",
    "Lms.Dash.long_frame_does_not_close",
    "Lms.Dash.reordered_frames_do_not_abut",
    "Lms.Dash.audio_segments",
    "Lms.Dash.audio_partition",
    "Lms.Dash.audio_reaches_target",
    "Lms.Dash.audio_start_truncated",
    "Lms.Dash.video_frame_refused_iff",
    "Lms.Dash.audio_frame_refused_iff"
   ],
   "note": "All frame sequences and targets. Outputs are compared through an independent demultiplexer. Recorded exceptions proved as counterexamples."
  },
  {
   "property": "C20",
   "status": "proved",
   "theorems": [
    "Lms.Isoff.init_segment_is_box_tree",
    "Lms.Isoff.init_segment_values",
    "Lms.Isoff.audio_decoder_info",
    "Lms.Isoff.segment_is_box_tree",
    "Lms.Isoff.segment_written_iff",
    "Lms.Isoff.collected_data_can_overflow_output",
    "Lms.Isoff.long_audio_config_is_unreadable",
    "Lms.Isoff.init_segment_fields",
    "Lms.Isoff.segment_fields",
    "Lms.Isoff.read_stream_desc",
    "Lms.Isoff.init_stream_desc",
    "Lms.Isoff.next_track_is_in_use",
    "Lms.Isoff.init_needs_record"
   ],
   "note": "All contexts; output parsed by an independent box parser. Two recorded exceptions proved."
  },
  {
   "property": "C21",
   "status": "proved",
   "theorems": [
    "Lms.Isoff.segment_plays_back"
   ],
   "note": "All sample lists and both media types; read back by an independent demultiplexer."
  },
  {
   "property": "C22",
   "status": "proved",
   "theorems": [
    "Lms.Nalu.start_code_removed",
    "Lms.Nalu.appended_units_read_back",
    "Lms.Nalu.huge_unit_passes_the_check",
    "Lms.Nalu.short_unit_is_ub"
   ],
   "note": "All unit lists and limits leaving 32-bit sums room; the two recorded exceptions are proved."
  },
  {
   "property": "C23",
   "status": "proved",
   "theorems": [
    "Lms.Nalu.avc_record_reads_back",
    "Lms.Nalu.avc_record_profile_is_nal_header",
    "Lms.Nalu.avc_record_profile_wrong",
    "Lms.Nalu.short_sps_is_ub",
    "Lms.Nalu.hevc_record_reads_back"
   ],
   "note": "All parameter sets below 2^16 bytes; independent record readers; recorded exceptions proved."
  },
  {
   "property": "C52",
   "status": "proved",
   "theorems": [
    "Lms.Nalu.pictures_are_assembled",
    "Lms.Nalu.kinds_follow_standards",
    "Lms.Nalu.leading_pictures_are_lost",
    "Lms.Nalu.other_units_ignored",
    "Lms.Nalu.trailing_sei_loses_intra",
    "Lms.Nalu.same_time_pictures_merge",
    "Lms.Nalu.reordered_pictures_merge",
    "Lms.Nalu.stale_parameter_set"
   ],
   "note": "All picture sequences, both codecs; recorded exceptions proved."
  },
  {
   "property": "C24",
   "status": "proved",
   "theorems": [
    "Lms.Adts.config_of_header",
    "Lms.Adts.surround_is_misannounced",
    "Lms.Adts.sample_without_header",
    "Lms.Adts.init_segment_every_frame",
    "Lms.Adts.config_string_overflows",
    "Lms.Adts.hex_text_reads_back"
   ],
   "note": "All headers and histories; independent bit-field reader; the configuration is right exactly for channel configurations 0-3."
  },
  {
   "property": "C25",
   "status": "proved",
   "theorems": [
    "Lms.Names.sampleFmt_names_fit",
    "Lms.Names.aCodec_names_fit",
    "Lms.Names.vCodec_names_fit",
    "Lms.Names.filterType_names_fit",
    "Lms.Names.role_names_fit",
    "Lms.Names.txFormat_names_fit",
    "Lms.Names.pixel_names_do_not_fit",
    "Lms.Names.libav_audio_names",
    "Lms.Names.libav_video_names",
    "Lms.Names.bytes_of_sample"
   ],
   "note": "All values and all strings; the recorded exception (pixel formats) is characterised exactly."
  },
  {
   "property": "C26",
   "status": "proved",
   "theorems": [
    "Lms.BitStream.read_inverts_write",
    "Lms.BitStream.fields_are_read",
    "Lms.BitStream.fields_are_written",
    "Lms.BitStream.zeros_after_the_end",
    "Lms.BitStream.large_codes_cannot_be_written",
    "Lms.BitStream.long_codes_overflow",
    "Lms.BitStream.largest_code_is_lost",
    "Lms.BitStream.byte_copies_ignore_the_bit_position",
    "Lms.BitStream.skip_is_read",
    "Lms.BitStream.peek_is_read",
    "Lms.BitStream.se_out_of_range",
    "Lms.BitStream.skipping_moves"
   ],
   "note": "Every sequence of fields at every bit position of every buffer; Exp-Golomb codes specified independently; the recorded exceptions are characterised exactly."
  },
  {
   "property": "C27",
   "status": "proved",
   "theorems": [
    "Lms.Rbsp.payload_recovered",
    "Lms.Rbsp.legal_payload_recovered",
    "Lms.Rbsp.never_overflows",
    "Lms.Rbsp.refused_iff_forbidden",
    "Lms.Rbsp.odd_zeros_are_not_recovered"
   ],
   "note": "Every payload and every unit; emulation prevention specified independently; refusal characterised exactly."
  },
  {
   "property": "C28",
   "status": "proved",
   "theorems": [
    "Lms.Sps.sps_recovered",
    "Lms.Sps.reported",
    "Lms.Sps.dimensions_right",
    "Lms.Sps.progressive_420",
    "Lms.Sps.dimensions_wrong",
    "Lms.Sps.rate_is_truncated",
    "Lms.Sps.other_high_profiles_misread",
    "Lms.Sps.scaling_lists_misread",
    "Lms.Sps.interlaced_height_wrong",
    "Lms.Sps.offset_array_overflows",
    "Lms.Sps.buffers_beyond_arrays"
   ],
   "note": "Every legal parameter set with sizes up to 2^16 macroblocks, written by an independent encoder following the standard's syntax tables, through emulation prevention; recorded exceptions proved by witnesses or exactly."
  },
  {
   "property": "C29",
   "status": "proved",
   "theorems": [
    "Lms.Json.unescape_escape",
    "Lms.Json.escape_clean"
   ],
   "note": "Every string."
  },
  {
   "property": "C30",
   "status": "proved",
   "theorems": [
    "Lms.Json.parse_write",
    "Lms.Json.determineType_write",
    "Lms.Json.write_injective",
    "Lms.Json.backslash_end_lost",
    "Lms.Json.quote_in_key_lost",
    "Lms.Json.exponent_refused",
    "Lms.Json.unclosed_accepted",
    "Lms.Json.two_documents_merged",
    "Lms.Json.construction_unescapes",
    "Lms.Json.ofString_plain",
    "Lms.Json.comments_ignored",
    "Lms.Json.quote_in_comment_lost",
    "Lms.Json.blanks_ignored"
   ],
   "note": "Every tree of the stated form, every format; structural induction through whitespace removal, tokenizer and assembler. Recorded exceptions by witness."
  },
  {
   "property": "C31",
   "status": "proved",
   "theorems": [
    "Lms.AudioMixer.mixer_plays_timeline",
    "Lms.AudioMixer.push_refines",
    "Lms.AudioMixer.extract_refines",
    "Lms.AudioMixer.line_moves",
    "Lms.AudioMixer.silent_where_nothing",
    "Lms.AudioMixer.heard_is_sum",
    "Lms.AudioMixer.heard_order",
    "Lms.AudioMixer.timeline_example",
    "Lms.AudioMixer.order_matters",
    "Lms.AudioMixer.stale_after_restart",
    "Lms.AudioMixer.refused_though_place_free",
    "Lms.AudioMixer.early_frame_restarts",
    "Lms.AudioMixer.counter_end_restarts"
   ],
   "note": "Refinement to a timeline of notes, for every sample arithmetic (so also single precision), every frame and command history within 2^31 samples of the origin; the sum and order statements over every ordered field. Restart leftovers are part of the specification exactly."
  },
  {
   "property": "C32",
   "status": "proved",
   "theorems": [
    "Lms.AudioMixer.gains_in_range",
    "Lms.AudioMixer.unknown_refused",
    "Lms.AudioMixer.refused_changes_nothing",
    "Lms.AudioMixer.volume_sets",
    "Lms.AudioMixer.mute_sets",
    "Lms.AudioMixer.solo_sets",
    "Lms.AudioMixer.mute_forgets",
    "Lms.AudioMixer.solo_forgets",
    "Lms.AudioMixer.master_unlimited"
   ],
   "note": "Every command history; gains over any ordered field."
  },
  {
   "property": "C33",
   "status": "proved",
   "theorems": [
    "Lms.AudioMixer.compress_range",
    "Lms.AudioMixer.compress_open",
    "Lms.AudioMixer.compress_id",
    "Lms.AudioMixer.compress_odd",
    "Lms.AudioMixer.compress_mono",
    "Lms.AudioMixer.heard_in_range",
    "Lms.AudioMixer.conversion_fits",
    "Lms.AudioMixer.bytes_roundtrip",
    "Lms.AudioMixer.master_above_one_overflows",
    "Lms.AudioMixer.full_scale_overflows"
   ],
   "note": "Exact arithmetic over every ordered field; rounding of single precision is not modelled. 16 bit conversions over the rationals, every byte pair."
  },
  {
   "property": "C34",
   "status": "proved",
   "theorems": [
    "Lms.VideoMixer.mixed_picture",
    "Lms.VideoMixer.mem_order",
    "Lms.VideoMixer.sorted_order",
    "Lms.VideoMixer.topmost_seen",
    "Lms.VideoMixer.refused_only",
    "Lms.VideoMixer.config_accepted_iff",
    "Lms.VideoMixer.commands_ok",
    "Lms.VideoMixer.top_layer_never_painted",
    "Lms.VideoMixer.top_layer_accepted",
    "Lms.VideoMixer.channel_comes_and_goes",
    "Lms.VideoMixer.mixed_time"
   ],
   "note": "Every configuration and every set of frames; resizing and blending are parameters, positions exact rationals instead of floats."
  },
  {
   "property": "C35",
   "status": "proved",
   "theorems": [
    "Lms.VideoMixer.paste_succeeds_iff",
    "Lms.VideoMixer.painted_inside",
    "Lms.VideoMixer.never_aborts",
    "Lms.VideoMixer.commands_ok",
    "Lms.VideoMixer.crop_reachable",
    "Lms.VideoMixer.splitter_cuts",
    "Lms.VideoMixer.corner_outside_aborts",
    "Lms.VideoMixer.tiny_size_aborts",
    "Lms.VideoMixer.piece_length_is_pixels",
    "Lms.VideoMixer.crop_sum_overflows",
    "Lms.VideoMixer.crop_added_once",
    "Lms.VideoMixer.crop_results",
    "Lms.VideoMixer.pixel_fitted"
   ],
   "note": "All geometry and command histories; recorded exceptions proved."
  },
  {
   "property": "C36",
   "status": "proved",
   "theorems": [
    "Lms.SharedMem.peer_reads_offers",
    "Lms.SharedMem.no_write_while_read",
    "Lms.SharedMem.codec_codes",
    "Lms.SharedMem.run_feeds",
    "Lms.SharedMem.pictures_offered",
    "Lms.SharedMem.raw_offered",
    "Lms.SharedMem.raw_oversize",
    "Lms.SharedMem.no_delimiter_no_offer",
    "Lms.SharedMem.other_unit_lost",
    "Lms.SharedMem.header_is_next_picture",
    "Lms.SharedMem.parse_other"
   ],
   "note": "Every interleaving at byte granularity (sequentially consistent memory), every frame; independent header reader."
  },
  {
   "property": "C37",
   "status": "proved",
   "theorems": [
    "Lms.UltraGrid.frame_sent",
    "Lms.UltraGrid.frame_received",
    "Lms.UltraGrid.reassembles",
    "Lms.UltraGrid.no_progress",
    "Lms.UltraGrid.large_frame_overflows"
   ],
   "note": "Every frame, packet size and sequence of rooms offered; independent header reader and reassembly in any order; recorded exceptions proved."
  },
  {
   "property": "C38",
   "status": "proved",
   "theorems": [
    "Lms.UltraGrid.au_header",
    "Lms.UltraGrid.au_size_right_iff"
   ],
   "note": "Every fragment; the sizes announced wrongly are characterised exactly."
  },
  {
   "property": "C53",
   "status": "proved",
   "theorems": [
    "Lms.UltraGrid.audio_sent",
    "Lms.UltraGrid.swap_samples",
    "Lms.UltraGrid.audio_fragment_aborts"
   ],
   "note": "Every frame and parameter."
  },
  {
   "property": "C39",
   "status": "proved",
   "theorems": [
    "Lms.Sources.sampler_regroups",
    "Lms.Sources.lengths_read_back",
    "Lms.Sources.large_unit_lost",
    "Lms.Sources.full_buffer_overrun",
    "Lms.Sources.exact_fill_overruns"
   ],
   "note": "Every sequence of access units and every sequence of buffer sizes they fit in; recorded exceptions proved."
  },
  {
   "property": "C40",
   "status": "proved",
   "theorems": [
    "Lms.Sources.extradata264",
    "Lms.Sources.extradata265",
    "Lms.Sources.scan_units",
    "Lms.Sources.announced_whole_iff",
    "Lms.Sources.exact_allocation_overread",
    "Lms.Sources.trailing_zero_kept",
    "Lms.Sources.code_completed_behind"
   ],
   "note": "Every list of units, any mixture of start codes, any bytes behind; recorded exceptions proved."
  },
  {
   "property": "C41",
   "status": "proved",
   "theorems": [
    "Lms.Sources.once_in_order",
    "Lms.Sources.answer_is_current",
    "Lms.Sources.released_iff",
    "Lms.Sources.answered_at_once",
    "Lms.Sources.never_fails",
    "Lms.Sources.answer_right",
    "Lms.Sources.frames_given_back",
    "Lms.Sources.round_ends",
    "Lms.Sources.offer_free",
    "Lms.Sources.asked_again_answered_twice",
    "Lms.Sources.short_frame_wraps",
    "Lms.Sources.quiet_packetiser_blocks",
    "Lms.Sources.offer_entries"
   ],
   "note": "Every history of operations and every schedule of packetiser actions; recorded exceptions proved."
  },
  {
   "property": "C54",
   "status": "proved",
   "theorems": [
    "Lms.Sources.injected",
    "Lms.Sources.injected_mark"
   ],
   "note": "Every unit and buffer size."
  },
  {
   "property": "C42",
   "status": "proved",
   "theorems": [
    "Lms.Demux.demux_all",
    "Lms.Demux.demux_prefix",
    "Lms.Demux.pieces_separate",
    "Lms.Demux.opened_idle",
    "Lms.Demux.nothing_leaks",
    "Lms.Demux.ub_causes",
    "Lms.Demux.find_spec",
    "Lms.Demux.framing_iff",
    "Lms.Demux.short_last_merged",
    "Lms.Demux.end_of_stream_merged",
    "Lms.Demux.leading_zeros_spurious",
    "Lms.Demux.no_code_overread",
    "Lms.Demux.large_unit_overruns",
    "Lms.Demux.avcc_without_filter",
    "Lms.Demux.inside_cut",
    "Lms.Demux.open_answer",
    "Lms.Demux.announced_iff",
    "Lms.Demux.nopts_smallest"
   ],
   "note": "Every input over any streams; libav is an arbitrary environment; recorded exceptions proved."
  },
  {
   "property": "C55",
   "status": "proved",
   "theorems": [
    "Lms.Demux.demux_all",
    "Lms.Demux.times_in_order",
    "Lms.Demux.time_exact",
    "Lms.Demux.unstamped_time",
    "Lms.Demux.unstamped_backwards",
    "Lms.Demux.file_times",
    "Lms.Demux.file_negative_overflows",
    "Lms.Demux.missing_dts_overflows"
   ],
   "note": "Exact rational time base instead of the double computed from it."
  },
  {
   "property": "C43",
   "status": "proved",
   "theorems": [
    "Lms.Encoder.times_kept",
    "Lms.Encoder.entries_released",
    "Lms.Encoder.demo_played",
    "Lms.Encoder.first_decode_time_zero",
    "Lms.Encoder.skipped_entry_stays",
    "Lms.Encoder.reopening_leaks",
    "Lms.Encoder.overflow_leaks"
   ],
   "note": "Every order the encoder may code in, every history; recorded exceptions proved."
  },
  {
   "property": "C44",
   "status": "proved",
   "theorems": [
    "Lms.Encoder.intra_on_grid",
    "Lms.Encoder.intra_on_own_grid",
    "Lms.Encoder.same_pictures",
    "Lms.Encoder.late_joiner",
    "Lms.Encoder.force_next",
    "Lms.Encoder.no_gop_time",
    "Lms.Encoder.old_reference_floods",
    "Lms.Encoder.unset_reference_differs",
    "Lms.Encoder.failed_request_lost"
   ],
   "note": "Every time-stamp sequence without gaps above the GOP time; recorded exceptions proved."
  },
  {
   "property": "C56",
   "status": "proved",
   "theorems": [
    "Lms.Encoder.config_event",
    "Lms.Encoder.any_event_sets_frame_time",
    "Lms.Encoder.negative_accepted"
   ],
   "note": "Every settings and event."
  },
  {
   "property": "C57",
   "status": "proved",
   "theorems": [
    "Lms.Encoder.encoder_fits",
    "Lms.Encoder.encoder_opens",
    "Lms.Encoder.open_failure_sticks",
    "Lms.Encoder.open_failure_reached"
   ],
   "note": "Every history; x264's reset of the size by x264_param_default_preset is part of the model."
  },
  {
   "property": "C45",
   "status": "proved",
   "theorems": [
    "Lms.V4L.device_consistent",
    "Lms.V4L.release_closes",
    "Lms.V4L.configure_closed",
    "Lms.V4L.capture_only",
    "Lms.V4L.reconfigure_wrong_rate",
    "Lms.V4L.reconfigure_ignores_rate",
    "Lms.V4L.reconfigure_divides_by_zero",
    "Lms.V4L.zero_rate_divides_by_zero",
    "Lms.V4L.failed_stop_reports_success",
    "Lms.V4L.failed_unmap_reports_success",
    "Lms.V4L.capture_from_unmapped",
    "Lms.V4L.failed_map_leaks",
    "Lms.V4L.release_again_unmaps_twice"
   ],
   "note": "Every history and failure pattern; recorded exceptions proved."
  },
  {
   "property": "C58",
   "status": "proved",
   "theorems": [
    "Lms.V4L.picture_copied",
    "Lms.V4L.tiny_copied",
    "Lms.V4L.large_picture_overruns",
    "Lms.V4L.large_picture_reached",
    "Lms.V4L.planar_loses_chroma",
    "Lms.V4L.release_idle",
    "Lms.V4L.open_again"
   ],
   "note": "Every size and content."
  },
  {
   "property": "C59",
   "status": "proved",
   "theorems": [
    "Lms.V4L.duration_between",
    "Lms.V4L.duration_follows",
    "Lms.V4L.delay_bounded",
    "Lms.V4L.schedule_kept",
    "Lms.V4L.pause_counts"
   ],
   "note": "Every interval sequence below 2^31 microseconds on average."
  },
  {
   "property": "C47",
   "status": "proved",
   "theorems": [
    "Lms.FilterConn.writers_never_exceed",
    "Lms.FilterConn.writers_own_queues",
    "Lms.FilterConn.queues_have_ends",
    "Lms.FilterConn.history_safe",
    "Lms.FilterConn.self_connect_hangs",
    "Lms.FilterConn.refused_reader_leaves_null",
    "Lms.FilterConn.readers_never_exceed",
    "Lms.FilterConn.share_exceeds_maximum",
    "Lms.FilterConn.connect_succeeds_iff",
    "Lms.FilterConn.connect_refused",
    "Lms.FilterConn.reconnect_before_round_loses_queue",
    "Lms.FilterConn.roundW_removes",
    "Lms.FilterConn.roundR_removes",
    "Lms.FilterConn.disconnectW_removes",
    "Lms.FilterConn.disconnectR_removes",
    "Lms.FilterConn.shared_twice_stays",
    "Lms.FilterConn.connect_disconnect",
    "Lms.FilterConn.share_result",
    "Lms.FilterConn.generated_unused",
    "Lms.FilterConn.generated_found",
    "Lms.FilterConn.unknown_reader"
   ],
   "note": "All filters of a program with any limits; invariant over every history of connect, share, disconnect and rounds; hooks answer arbitrarily. The recorded exceptions are theorems (refused_reader_leaves_null, share_exceeds_maximum, reconnect_before_round_loses_queue, shared_twice_stays, self_connect_hangs)."
  },
  {
   "property": "C46",
   "status": "proved",
   "theorems": [
    "Lms.Sink.never_ub",
    "Lms.Sink.connections_consistent",
    "Lms.Sink.server_consistent",
    "Lms.Sink.refused_connection",
    "Lms.Sink.accepted_connection",
    "Lms.Sink.std_accepted",
    "Lms.Sink.ultragrid_accepted",
    "Lms.Sink.mpegts_accepted",
    "Lms.Sink.rtsp_accepted",
    "Lms.Sink.rtsp_ts_accepted",
    "Lms.Sink.remove_connection",
    "Lms.Sink.delete_reader",
    "Lms.Sink.add_reader",
    "Lms.Sink.name_reused",
    "Lms.Sink.refused_unregisters",
    "Lms.Sink.video_left_out",
    "Lms.Sink.source_kept",
    "Lms.Sink.minus_one",
    "Lms.Sink.refused_reader"
   ],
   "note": "Invariant over every history of requests that does not reuse the name of a present RTSP connection, delete a refused reader or number a reader -1; the recorded exceptions show what happens otherwise."
  },
  {
   "property": "C48",
   "status": "proved",
   "theorems": [
    "Lms.Recv.round_receives",
    "Lms.Recv.received_in_order",
    "Lms.Recv.never_ub",
    "Lms.Recv.connect_steady",
    "Lms.Recv.first_frame_misplaced",
    "Lms.Recv.never_resumes",
    "Lms.Recv.disconnect_dead",
    "Lms.Recv.first_frame_garbage",
    "Lms.Recv.first_frame_too_long",
    "Lms.Recv.reconnect_silent",
    "Lms.Recv.freed_under_fetch"
   ],
   "note": "Every order of library actions within a round and every history of rounds, takes, connects, disconnects and frees; invariant over four situations of a stream. The end-to-end theorem assumes a free place at every round; a full queue loses its newest frame as C02 says."
  },
  {
   "property": "C60",
   "status": "proved",
   "theorems": [
    "Lms.Sdp.description_reads_back",
    "Lms.Sdp.refused_iff",
    "Lms.Sdp.example_reads_back",
    "Lms.Sdp.unchecked_medium",
    "Lms.Sdp.negative_port"
   ],
   "note": "Round trip against an independent reader of session descriptions, for every request."
  },
  {
   "property": "C61",
   "status": "proved",
   "theorems": [
    "Lms.Sdp.rename_keeps_lines",
    "Lms.Sdp.rename_example",
    "Lms.Sdp.lf_lines_run_together",
    "Lms.Sdp.lf_loses_media"
   ],
   "note": "For every text of lines; the recorded exception is proved for all descriptions with newlines alone."
  },
  {
   "property": "C62",
   "status": "proved",
   "theorems": [
    "Lms.Sdp.extradata_of_records",
    "Lms.Sdp.units_prefixed",
    "Lms.Sdp.received_sets_announced",
    "Lms.Sdp.example_sets",
    "Lms.Sdp.too_long_records",
    "Lms.Sdp.one_long_record",
    "Lms.Sdp.short_buffer",
    "Lms.Sdp.connected_early"
   ],
   "note": "Induction over requests; composed with the extradata parser of the transmitter (C40), whose reading of three bytes behind the extradata is a hypothesis here and recorded there."
  },
  {
   "property": "C63",
   "status": "proved",
   "theorems": [
    "Lms.Sessions.polite_from_start",
    "Lms.Sessions.polite_history",
    "Lms.Sessions.polite_example",
    "Lms.Sessions.consistent",
    "Lms.Sessions.used_id_refused",
    "Lms.Sessions.add_registers",
    "Lms.Sessions.add_answer_iff",
    "Lms.Sessions.remove_defined_iff",
    "Lms.Sessions.remove_effect",
    "Lms.Sessions.round_defined_iff",
    "Lms.Sessions.disconnect_defined_iff",
    "Lms.Sessions.connect_first_time",
    "Lms.Sessions.remove_text_session",
    "Lms.Sessions.closed_not_removable",
    "Lms.Sessions.failed_session_stays",
    "Lms.Sessions.remove_connected",
    "Lms.Sessions.remove_undescribed",
    "Lms.Sessions.remove_failed",
    "Lms.Sessions.ended_stream",
    "Lms.Sessions.ended_remove",
    "Lms.Sessions.connect_waiting",
    "Lms.Sessions.unreadable_text",
    "Lms.Sessions.refused_keeps_id",
    "Lms.Sessions.stale_description",
    "Lms.Sessions.foreign_sink"
   ],
   "note": "Invariant over every history; removal, rounds and disconnections are characterised exactly (defined if and only if) in every reachable state."
  },
  {
   "property": "C64",
   "status": "proved",
   "theorems": [
    "Lms.NetStats.keep_alives_in_time",
    "Lms.NetStats.keep_alives_go_on",
    "Lms.NetStats.keepDelay_in_time",
    "Lms.NetStats.keepDelay_exact",
    "Lms.NetStats.stream_ends_after_duration",
    "Lms.NetStats.no_duration_no_end",
    "Lms.NetStats.play_example",
    "Lms.NetStats.end_example",
    "Lms.NetStats.long_stream_undefined",
    "Lms.NetStats.keep_alive_after_end",
    "Lms.NetStats.long_timeouts",
    "Lms.NetStats.not_asked_no_keep_alives"
   ],
   "note": "Invariant over histories of timer events with arbitrary delays; doubles are exact rationals."
  },
  {
   "property": "C65",
   "status": "proved",
   "theorems": [
    "Lms.NetStats.stats_do_not_drift",
    "Lms.NetStats.statDelay_exact",
    "Lms.NetStats.rates_told",
    "Lms.NetStats.no_rate_told",
    "Lms.NetStats.average_rate",
    "Lms.NetStats.losses_told",
    "Lms.NetStats.average_loss",
    "Lms.NetStats.jitter_told",
    "Lms.NetStats.secsBetween_exact",
    "Lms.NetStats.sub32_exact",
    "Lms.NetStats.aStream_runs",
    "Lms.NetStats.aStream_rates",
    "Lms.NetStats.aStream_losses",
    "Lms.NetStats.negative_loss",
    "Lms.NetStats.average_above_greatest",
    "Lms.NetStats.clock_set_back",
    "Lms.NetStats.pause_then_silence",
    "Lms.NetStats.rateNow_eq",
    "Lms.NetStats.rates_not_negative"
   ],
   "note": "Induction over measurements; weighted averages by invariants; doubles are exact rationals."
  },
  {
   "property": "C66",
   "status": "proved",
   "theorems": [
    "Lms.NetStats.extremes_told",
    "Lms.NetStats.present_told",
    "Lms.NetStats.rate_exact",
    "Lms.NetStats.last_members",
    "Lms.NetStats.first_members",
    "Lms.NetStats.send_example",
    "Lms.NetStats.shadow_example",
    "Lms.NetStats.rate_wraps",
    "Lms.NetStats.loss_capped"
   ],
   "note": "Induction over measurements and reports, and over the streams of a connection."
  },
  {
   "property": "C67",
   "status": "proved",
   "theorems": [
    "Lms.DashTop.files_are_segments_in_order",
    "Lms.DashTop.in_step_nothing_lost",
    "Lms.DashTop.audio_closed_with_video",
    "Lms.DashTop.video_listed_iff",
    "Lms.DashTop.as_many_audio_as_video",
    "Lms.DashTop.reference_when_apart",
    "Lms.DashTop.readers_consistent",
    "Lms.DashTop.readers_change",
    "Lms.DashTop.late_stream_loses_segments",
    "Lms.DashTop.failed_write_mixes_sets",
    "Lms.DashTop.silent_audio_stream_loses_others"
   ],
   "note": "Segmenters' answers are inputs (their model: Dash, Isoff); what stays on disk: Mpd."
  },
  {
   "property": "C68",
   "status": "proved",
   "theorems": [
    "Lms.DashTop.one_origin",
    "Lms.DashTop.origin_is_first_frame",
    "Lms.DashTop.time_since_origin",
    "Lms.DashTop.time_order",
    "Lms.DashTop.origin_moves_from_zero",
    "Lms.DashTop.before_origin_wraps"
   ],
   "note": ""
  },
  {
   "property": "C69",
   "status": "proved",
   "theorems": [
    "Lms.FrameAlloc.pixOf_libav",
    "Lms.FrameAlloc.video_refused_iff",
    "Lms.FrameAlloc.video_coded_frames",
    "Lms.FrameAlloc.video_raw_frames",
    "Lms.FrameAlloc.video_raw_room_exact",
    "Lms.FrameAlloc.rgb24_holds",
    "Lms.FrameAlloc.rgb24_does_not_hold",
    "Lms.FrameAlloc.audio_frames",
    "Lms.FrameAlloc.audio_refused_iff",
    "Lms.FrameAlloc.defaults_framed",
    "Lms.FrameAlloc.audio_null_slots",
    "Lms.FrameAlloc.audio_rate_overflow",
    "Lms.FrameAlloc.force_returns",
    "Lms.FrameAlloc.force_never_returns",
    "Lms.FrameAlloc.mp3_planar_blocks",
    "Lms.FrameAlloc.planar_clear",
    "Lms.FrameAlloc.interleaved_clear",
    "Lms.FrameAlloc.twenty_milliseconds",
    "Lms.FrameAlloc.codec_defaults"
   ],
   "note": "libav's picture layout (imageSize) is trusted."
  },
  {
   "property": "C70",
   "status": "proved",
   "theorems": [
    "Lms.Resampler.conversion",
    "Lms.Resampler.rate_back",
    "Lms.Resampler.overrun",
    "Lms.Resampler.overrun_rgb32",
    "Lms.Resampler.uninitialised_format",
    "Lms.Resampler.stale_context",
    "Lms.Resampler.yuvj420p_refused",
    "Lms.Resampler.no_format_takes_effect"
   ],
   "note": "The library's answers are inputs."
  },
  {
   "property": "C71",
   "status": "proved",
   "theorems": [
    "Lms.VideoDec.decoding",
    "Lms.VideoDec.refused_then_taken",
    "Lms.VideoDec.failed_setup_then_used",
    "Lms.VideoDec.no_progress_loops",
    "Lms.VideoDec.picture_overruns",
    "Lms.VideoDec.unknown_format_delivered"
   ],
   "note": "The library's answers, per codec, are inputs."
  },
  {
   "property": "C72",
   "status": "proved",
   "theorems": [
    "Lms.AudioDec.decoding",
    "Lms.AudioDec.reached_unique",
    "Lms.AudioDec.first_conversion_stays",
    "Lms.AudioDec.late_configuration_accepted",
    "Lms.AudioDec.refused_then_taken",
    "Lms.AudioDec.failed_setup_then_used",
    "Lms.AudioDec.no_progress_loops",
    "Lms.AudioDec.unknown_format_crashes",
    "Lms.AudioDec.silent_frame_delivered",
    "Lms.AudioDec.channels_change_unnoticed",
    "Lms.AudioDec.configured_after_queue_overruns",
    "Lms.AudioDec.length_told",
    "Lms.AudioDec.failed_conversion_refuses"
   ],
   "note": "The libraries' answers are inputs; sample values are not modelled. Trusted: libswresample keeps converting with the parameters of its last swr_init."
  },
  {
   "property": "C73",
   "status": "proved",
   "theorems": [
    "Lms.AudioEnc.configure_accepted_iff",
    "Lms.AudioEnc.configured_for_good",
    "Lms.AudioEnc.history_codec",
    "Lms.AudioEnc.reader_accepted_iff",
    "Lms.AudioEnc.encoding",
    "Lms.AudioEnc.frames_right",
    "Lms.AudioEnc.same_rate_whole_frames",
    "Lms.AudioEnc.slower_output_repeats_samples",
    "Lms.AudioEnc.faster_output_falls_behind",
    "Lms.AudioEnc.no_frame_size_unusable",
    "Lms.AudioEnc.first_conversion_stays",
    "Lms.AudioEnc.failed_resampler_then_used",
    "Lms.AudioEnc.interleaved_input_misused",
    "Lms.AudioEnc.ring_overrun",
    "Lms.AudioEnc.half_of_the_samples",
    "Lms.AudioEnc.other_ring_misread",
    "Lms.AudioEnc.failed_configuration_bars",
    "Lms.AudioEnc.failed_conversion_refuses"
   ],
   "note": "The libraries' answers are inputs; that a resampler gives no more samples than its input lasts is a hypothesis of the theorem on lower rates."
  },
  {
   "property": "C74",
   "status": "proved",
   "theorems": [
    "Lms.JsonStream.reading_is_defined",
    "Lms.JsonStream.parse_defined",
    "Lms.JsonStream.understood_alone",
    "Lms.JsonStream.refused_request_is_read_later",
    "Lms.JsonStream.out_of_step_for_good",
    "Lms.JsonStream.last_value_not_seen",
    "Lms.JsonStream.typing_error_delays_requests"
   ],
   "note": "Texts are sequences of characters up to the first NUL, as the code treats the receive buffer."
  },
  {
   "property": "C75",
   "status": "proved",
   "theorems": [
    "Lms.JsonStream.cut_request_all_or_nothing",
    "Lms.JsonStream.cut_request_examples",
    "Lms.Control.cut_request_carried_out_or_not"
   ],
   "note": "For a parser in step (see C74)."
  },
  {
   "property": "C76",
   "status": "proved",
   "theorems": [
    "Lms.Control.event_answered",
    "Lms.Control.dies_iff_fatal",
    "Lms.Control.failure_changes_nothing",
    "Lms.Control.success_is_carried_out",
    "Lms.Control.results_in_order",
    "Lms.Control.one_verdict_each",
    "Lms.Control.only_first_verdict_seen",
    "Lms.Control.fatal_event_ends_all",
    "Lms.Control.fatal_events",
    "Lms.Control.delivered_is_not_executed",
    "Lms.Control.event_keeps_order",
    "Lms.Control.request_defined",
    "Lms.Control.ordinary_events",
    "Lms.Control.readInt_showInt",
    "Lms.Control.readInt_fits",
    "Lms.Control.numbers_taken_for_others",
    "Lms.Control.report_tells_registries",
    "Lms.Control.answered_once_or_left_open",
    "Lms.Control.connection_by_itself",
    "Lms.Control.next_client_gets_others_results",
    "Lms.Control.session_example",
    "Lms.Control.second_verdict_hidden",
    "Lms.Control.unconnected_path_stays",
    "Lms.Control.stray_example"
   ],
   "note": "What filters answer is an environment; writing the reply to the socket is not modelled. The registries are those of C13 and C14."
  },
  {
   "property": "C77",
   "status": "proved",
   "theorems": [
    "Lms.ReaderDelay.average_of_last_window",
    "Lms.ReaderDelay.average_between",
    "Lms.ReaderDelay.frame_time_and_delay",
    "Lms.ReaderDelay.path_report_delay_and_loss",
    "Lms.ReaderDelay.average_example",
    "Lms.ReaderDelay.future_frames_enormous",
    "Lms.ReaderDelay.negative_times_not_counted",
    "Lms.ReaderDelay.told_cut"
   ],
   "note": "The clock enters as the age of each released frame; overflow of 64 bit sums is undefined and excluded by the run being defined."
  },
  {
   "property": "C78",
   "status": "proved",
   "theorems": [
    "Lms.FilterEvents.event_read",
    "Lms.FilterEvents.event_by_table",
    "Lms.FilterEvents.unknown_action",
    "Lms.FilterEvents.action_no_text",
    "Lms.FilterEvents.no_params_needed",
    "Lms.FilterEvents.only_named_members",
    "Lms.FilterEvents.well_typed",
    "Lms.FilterEvents.delay_ignored",
    "Lms.FilterEvents.addSession_read",
    "Lms.FilterEvents.wrong_type_ends",
    "Lms.FilterEvents.wrong_type_ignored",
    "Lms.FilterEvents.null_taken",
    "Lms.FilterEvents.no_params_undefined"
   ],
   "note": "The controller itself refuses events without parameters (C76), so the three null pointers are reached only by events made in C++. Fractions are kept as the text of the number. Events carried out in the caller's thread race with the filter; that is not modelled."
  },
  {
   "property": "C79",
   "status": "proved",
   "theorems": [
    "Lms.FilterEvents.call_arrives",
    "Lms.FilterEvents.backslash_changed",
    "Lms.FilterEvents.reference_text",
    "Lms.FilterEvents.reference_round_trip",
    "Lms.FilterEvents.dash_reference",
    "Lms.FilterEvents.reference_wrong",
    "Lms.FilterEvents.stoull_digits",
    "Lms.FilterEvents.stoull_minus"
   ],
   "note": "A float is given by the text it is printed as (six significant digits); the call returns true before the event is carried out."
  },
  {
   "property": "C80",
   "status": "proved",
   "theorems": [
    "Lms.Manifest.manifest_says_what_is_known",
    "Lms.Manifest.read_document",
    "Lms.Manifest.listed_is_written",
    "Lms.Manifest.closed_is_described",
    "Lms.Manifest.failed_not_listed",
    "Lms.Manifest.media_address",
    "Lms.Manifest.init_address",
    "Lms.Manifest.names_differ",
    "Lms.Manifest.dollar_in_base",
    "Lms.Manifest.late_joiner",
    "Lms.Manifest.history_outcome",
    "Lms.Manifest.removed_still_counts",
    "Lms.Manifest.other_kind",
    "Lms.Manifest.textual_order",
    "Lms.Manifest.depth_is_cut",
    "Lms.Manifest.unconfigured"
   ],
   "note": "The document is a tree of elements; how tinyxml2 prints it and whether the file can be written are not modelled. Readers are numbered from zero. Which files are removed is C18, when segments are complete C67."
  },
  {
   "property": "C81",
   "status": "proved",
   "theorems": [
    "Lms.Reports.encoder_told",
    "Lms.Reports.encoder_refused_unchanged",
    "Lms.Reports.encoder_restored",
    "Lms.Reports.encoder_reference_restored",
    "Lms.Reports.Enc.ok_events",
    "Lms.Reports.untimed_reported_as_25",
    "Lms.Reports.negative_reported",
    "Lms.Reports.decoder_told",
    "Lms.Reports.decoder_restored",
    "Lms.Reports.decoder_failure_reported",
    "Lms.Reports.audio_encoder_told",
    "Lms.Reports.audio_encoder_restored",
    "Lms.Reports.bitrate_not_reported",
    "Lms.Reports.refused_encoder_reported",
    "Lms.Reports.gain_told",
    "Lms.Reports.gains_restored",
    "Lms.Reports.gain_rounded",
    "Lms.Reports.tenths_ok",
    "Lms.Reports.channel_told",
    "Lms.Reports.channels_restored",
    "Lms.Reports.vmix_ok_new",
    "Lms.Reports.split_ok_event",
    "Lms.Reports.vmix_ok_event",
    "Lms.Reports.vmix_ok_add",
    "Lms.Reports.vmix_ok_remove",
    "Lms.Reports.mixer_time_not_reported",
    "Lms.Reports.crop_told",
    "Lms.Reports.crops_restored",
    "Lms.Reports.unconfigured_crop_refused",
    "Lms.Reports.splitter_entry_resets_time",
    "Lms.Reports.dash_told",
    "Lms.Reports.dash_partly_told",
    "Lms.Reports.dash_restored",
    "Lms.Reports.dash_ok_events",
    "Lms.Reports.segments_not_restored",
    "Lms.Reports.new_dash_reports_anything",
    "Lms.Reports.mute_told",
    "Lms.Reports.solo_told",
    "Lms.Reports.mute_master_told",
    "Lms.Reports.unknown_changes_nothing",
    "Lms.Reports.new_encoder_report"
   ],
   "note": "Printing and reading of floating-point numbers is a parameter with four stated properties (printing what was read back prints the same, signs and the bound one are kept), met by a printer of tenths given beside. Restoring needs the same channels or outputs on both sides, and for the DASH filter a folder that may be written to."
  },
  {
   "property": "C82",
   "status": "proved",
   "theorems": [
    "Lms.Offer.rtsp_as_plain",
    "Lms.Offer.understood_is_sent",
    "Lms.Offer.understood_iff",
    "Lms.Offer.understood_is_sent_plain",
    "Lms.Offer.understood_iff_plain",
    "Lms.Offer.transport_not_understood",
    "Lms.Offer.number_of_stream",
    "Lms.Offer.numbers_are_rfc",
    "Lms.Offer.clock_announced",
    "Lms.Offer.accepted_iff",
    "Lms.Offer.transport_accepts",
    "Lms.Offer.plain_loop",
    "Lms.Offer.plain_only",
    "Lms.Offer.fmtp_fits",
    "Lms.Offer.fmtp_reads",
    "Lms.Offer.aac_description_undefined",
    "Lms.Offer.aac_description_repaired",
    "Lms.Offer.bandwidth_told",
    "Lms.Offer.bandwidth_an_eighth",
    "Lms.Offer.alaw_announced_as_mulaw",
    "Lms.Offer.sample_format_lost",
    "Lms.Offer.plain_numbers_differ",
    "Lms.Offer.renamed_iff",
    "Lms.Offer.transport_types",
    "Lms.Offer.transport_clock",
    "Lms.Offer.video_names",
    "Lms.Offer.bandwidth_of_bytes"
   ],
   "note": "What the network library announces for a sink and reads from an announcement is taken from its documentation (names and clocks of its sinks, rtpmap line from number 96 on, static numbers otherwise)."
  },
  {
   "property": "C83",
   "status": "proved",
   "theorems": [
    "Lms.Relay.sent_on",
    "Lms.Relay.relayed",
    "Lms.Relay.unit_sent",
    "Lms.Relay.frame_sent",
    "Lms.Relay.arriving_parsed",
    "Lms.Relay.arriving_fits",
    "Lms.Relay.receive_ok",
    "Lms.Relay.transmit_ok",
    "Lms.Relay.transmit_agrees",
    "Lms.Relay.serve_one",
    "Lms.Relay.stopped_unsent",
    "Lms.Relay.asked_twice",
    "Lms.Relay.cut_untold"
   ],
   "note": "One reader and one source; rounds of the two filters do not overlap (a frame being sent stays in its slot, where the writer never gets it: C04)."
  },
  {
   "property": "C84",
   "status": "proved",
   "theorems": [
    "Lms.UltraGrid.stream_sent",
    "Lms.UltraGrid.waits_sent",
    "Lms.UltraGrid.unit_sent",
    "Lms.UltraGrid.empty_not_sent",
    "Lms.UltraGrid.group_received",
    "Lms.UltraGrid.size_in_force",
    "Lms.UltraGrid.no_delimiter_no_video",
    "Lms.UltraGrid.no_size_no_video",
    "Lms.UltraGrid.first_picture_lost",
    "Lms.UltraGrid.rate_from_memory",
    "Lms.UltraGrid.oversized_unknown",
    "Lms.UltraGrid.untold_rate"
   ],
   "note": "Between two units all packets of the completed access unit are sent; the comparison that detects rates divided by 1.001 is taken exactly."
  },
  {
   "property": "C85",
   "status": "proved",
   "theorems": [
    "Lms.Record.recording_plays_back",
    "Lms.Record.shown_at_its_time",
    "Lms.Record.tick_is_time",
    "Lms.Record.received_stream_not_written",
    "Lms.Record.init_files_describe",
    "Lms.Record.shown_late",
    "Lms.Record.unwritable_init_loses_pictures",
    "Lms.Record.ticks_defined",
    "Lms.Record.recording_succeeds",
    "Lms.Record.init_comes_first",
    "Lms.Record.segments_without_init",
    "Lms.Record.unwritable_only_matters_for_init"
   ],
   "note": "One video input; how several inputs are joined is C67 and C68, which files the manifest leads to C80."
  },
  {
   "property": "C86",
   "status": "proved",
   "theorems": [
    "Lms.RecordAudio.recording_plays_back",
    "Lms.RecordAudio.recording_follows_video",
    "Lms.RecordAudio.heard_at_its_time",
    "Lms.RecordAudio.init_describes",
    "Lms.RecordAudio.unwritable_loses_all",
    "Lms.RecordAudio.gap_closed_up",
    "Lms.RecordAudio.times_start_again",
    "Lms.RecordAudio.recording_with_video_succeeds",
    "Lms.RecordAudio.recording_alone_succeeds",
    "Lms.RecordAudio.ticks_defined"
   ],
   "note": "One audio input; how several inputs are joined is C67 and C68, which files the manifest leads to C80."
  },
  {
   "property": "C87",
   "status": "proved",
   "theorems": [
    "Lms.Live.recording_can_be_followed",
    "Lms.Live.recording_goes_through",
    "Lms.Live.done_both",
    "Lms.Live.done_sound"
   ],
   "note": "Files of segments can be opened and removed, and a file is written at once; the other cases are in C67, C68 and C80."
  },
  {
   "property": "C88",
   "status": "proved",
   "theorems": [
    "Lms.Flow.frames_flow_in_order",
    "Lms.Flow.frames_arrive_in_order",
    "Lms.Flow.no_frame_left_behind",
    "Lms.Flow.source_stays_scheduled",
    "Lms.Flow.path_at_rest_is_empty",
    "Lms.Flow.silent_path_drains",
    "Lms.Flow.run_processes_one_frame",
    "Lms.Flow.two_buffers_miscount"
   ],
   "note": "Regular filters that take frames as they come; each call on a queue is one step, so the race inside the forced call recorded in C03 is outside; no filter is removed."
  },
  {
   "property": "C89",
   "status": "proved",
   "theorems": [
    "Lms.Net.frames_flow_in_order",
    "Lms.Net.no_frame_left_behind",
    "Lms.Net.periodic_stays_scheduled",
    "Lms.Net.network_at_rest_is_empty",
    "Lms.Net.frame_found_is_handled",
    "Lms.Net.sharers_get_the_same_frames",
    "Lms.Net.only_the_ends_take_part"
   ],
   "note": "What the filters do with their frames is left open; each call on a queue is one step, so the race inside the forced call recorded in C03 is outside; no filter is removed, no connection changed."
  },
  {
   "property": "C90",
   "status": "proved",
   "theorems": [
    "Lms.Wired.connections_make_a_network",
    "Lms.Wired.network_exists",
    "Lms.Wired.connect_lets_frames_flow",
    "Lms.Wired.share_lets_both_have_the_frames",
    "Lms.Wired.disconnected_reader_gets_nothing",
    "Lms.Wired.disconnected_writer_gives_nothing"
   ],
   "note": "The connections stay as they are while the frames flow; no filter is given the same reader twice (Plain)."
  },
  {
   "property": "C91",
   "status": "proved",
   "theorems": [
    "Lms.LinkRace.careful_schedules_are_safe",
    "Lms.LinkRace.careful_answers_are_true",
    "Lms.LinkRace.connection_lasts",
    "Lms.LinkRace.queues_are_deleted_in_time",
    "Lms.LinkRace.rounds_get_frames",
    "Lms.LinkRace.next_round_cleans_up",
    "Lms.LinkRace.success_without_connection",
    "Lms.LinkRace.sync_round_in_connect",
    "Lms.LinkRace.round_before_flag",
    "Lms.LinkRace.round_between_looks",
    "Lms.LinkRace.cut_while_asking",
    "Lms.LinkRace.asking_while_cut",
    "Lms.LinkRace.writer_cut_while_writing",
    "Lms.LinkRace.reader_cut_while_reading",
    "Lms.LinkRace.reader_replaced_in_round"
   ],
   "note": "One writer id and one reader id, no sharing, hooks agree; reads and writes of the connected flag are atomic."
  },
  {
   "property": "C92",
   "status": "proved",
   "theorems": [
    "Lms.Rewire.frames_flow_while_connections_change",
    "Lms.Rewire.no_frame_left_behind",
    "Lms.Rewire.periodic_stays_scheduled",
    "Lms.Rewire.frames_go_along_connections",
    "Lms.Rewire.connections_fit",
    "Lms.Rewire.changed_network_at_rest_is_empty",
    "Lms.Rewire.newcomer_not_woken",
    "Lms.Rewire.leaving_last_stalls",
    "Lms.Rewire.calls_are_changes",
    "Lms.Rewire.called_network_is_reached"
   ],
   "note": "A change is one step, made while no filter concerned is at work (C91 treats the other schedules); no filter is removed from the pool (C94 adds that)."
  },
  {
   "property": "C93",
   "status": "proved",
   "theorems": [
    "Lms.JsonTree.trees_are_values",
    "Lms.JsonTree.copy_is_independent",
    "Lms.JsonTree.added_is_found",
    "Lms.JsonTree.each_node_has_one_owner",
    "Lms.JsonTree.nothing_leaks",
    "Lms.JsonTree.references_stay",
    "Lms.JsonTree.removed_name_may_remain",
    "Lms.JsonTree.assigned_node_deleted_twice"
   ],
   "note": "An allocation never fails and never returns a place used before, so that use after deletion is always seen; names and texts are values."
  },
  {
   "property": "C94",
   "status": "proved",
   "theorems": [
    "Lms.Retire.frames_flow_while_filters_go",
    "Lms.Retire.no_frame_left_behind",
    "Lms.Retire.periodic_stays_scheduled",
    "Lms.Retire.network_at_rest_is_empty",
    "Lms.Retire.deleted_filter_is_nowhere",
    "Lms.Retire.removed_stays_out",
    "Lms.Retire.removed_source_is_still_queued",
    "Lms.Retire.source_deleted_while_queued",
    "Lms.Retire.filter_deleted_too_soon"
   ],
   "note": "The network of C92; a call that changes connections is one step (C91). The destructor's disconnecting of readers is taken as changes of connections before the deletion."
  },
  {
   "property": "C95",
   "status": "proved",
   "theorems": [
    "Lms.Paths.path_calls_are_safe",
    "Lms.Paths.no_reader_given_twice",
    "Lms.Paths.connected_path_leads",
    "Lms.Paths.connecting_changes_only_the_path",
    "Lms.Paths.free_path_is_connected",
    "Lms.Paths.deleted_path_is_gone",
    "Lms.Paths.refused_deletion_cuts_the_end",
    "Lms.Paths.path_comes_and_goes",
    "Lms.Paths.deleted_filter_is_cut_from_others",
    "Lms.Paths.failed_path_stays_half_connected",
    "Lms.Paths.path_to_itself_hangs",
    "Lms.Paths.deleting_cuts_another_path",
    "Lms.Paths.rounds_change_nothing"
   ],
   "note": "On the connections of C47. The readers noted with a queue are taken from the filters of its reader, with which the code keeps them in step. The destructor leaves and drops each reader in turn where the code leaves all before dropping all. Which ends go with a deleted path is given (see the registry of filters and paths)."
  },
  {
   "property": "C96",
   "status": "proved",
   "theorems": [
    "Lms.Paths.requests_are_safe",
    "Lms.Paths.connected_paths_stay",
    "Lms.Paths.no_stray_connections",
    "Lms.Paths.nothing_joined_without_paths",
    "Lms.Paths.removal_removes",
    "Lms.Paths.removing_failed_path_cuts_another"
   ],
   "note": "The registry of paths on top of C95; all filters named exist (the registry of filters is the subject of the pipeline property)."
  },
  {
   "property": "C97",
   "status": "proved",
   "theorems": [
    "Lms.Demux.Streams.reports_current",
    "Lms.Demux.Streams.connect_iff",
    "Lms.Demux.Streams.description_until_uri",
    "Lms.Demux.Streams.sound_described",
    "Lms.Demux.Streams.others_refused"
   ],
   "note": "Connections are the making of the queue only (the filters' side is the subject of the connection properties); codec data and log messages are left out."
  },
  {
   "property": "C98",
   "status": "proved",
   "theorems": [
    "Lms.V4L.described_right_iff",
    "Lms.V4L.connects_iff",
    "Lms.V4L.stale_codec",
    "Lms.V4L.asked_format",
    "Lms.V4L.reported_asks_again_iff"
   ],
   "note": "A history is the list of formats settled on; the device's states are the subject of C45."
  }
 ]
}