import Verif.Common.Bits
import Verif.Common.Bytes
import Verif.Common.ListAux
import Verif.Common.Mem
import Verif.Common.Outcome
import Verif.Adts.Model
import Verif.Adts.Props
import Verif.AudioDec.Model
import Verif.AudioDec.Props
import Verif.AudioEnc.Model
import Verif.AudioEnc.Props
import Verif.AudioMixer.Model
import Verif.AudioMixer.Spec
import Verif.AudioMixer.Gains
import Verif.AudioMixer.Level
import Verif.AudioMixer.Props
import Verif.AudioRing.Model
import Verif.AudioRing.Spec
import Verif.AudioRing.Lemmas
import Verif.AudioRing.Concurrent
import Verif.AudioRing.Examples
import Verif.AudioRing.Props
import Verif.AudioRing.Wrap
import Verif.BitStream.Model
import Verif.BitStream.Lemmas
import Verif.BitStream.Props
import Verif.Control.Model
import Verif.Control.Spec
import Verif.Control.Props
import Verif.Control.Report
import Verif.Control.Requests
import Verif.Control.Server
import Verif.Dash.Model
import Verif.Dash.Lemmas
import Verif.Dash.Audio
import Verif.Dash.Props
import Verif.DashTop.Model
import Verif.DashTop.Lemmas
import Verif.DashTop.More
import Verif.DashTop.Props
import Verif.Demux.Model
import Verif.Demux.Props
import Verif.Demux.Run
import Verif.Demux.Split
import Verif.Demux.Streams
import Verif.Encoder.Model
import Verif.Encoder.Config
import Verif.Encoder.Gop
import Verif.Encoder.Times
import Verif.Events.Model
import Verif.Events.Props
import Verif.FilterConn.Model
import Verif.FilterConn.Lemmas
import Verif.FilterConn.Props
import Verif.FilterConn.Steps
import Verif.FilterEvents.Model
import Verif.FilterEvents.Spec
import Verif.FilterEvents.Lemmas
import Verif.FilterEvents.Api
import Verif.FilterEvents.Deliver
import Verif.FilterEvents.Forms
import Verif.FilterEvents.Props
import Verif.FilterEvents.Session
import Verif.FilterSync.Model
import Verif.FilterSync.Lemmas
import Verif.FilterSync.Props
import Verif.Flow.Model
import Verif.Flow.Spec
import Verif.Flow.Lemmas
import Verif.Flow.Cases
import Verif.Flow.Drain
import Verif.Flow.Props
import Verif.FrameAlloc.Model
import Verif.FrameAlloc.Props
import Verif.FrameQueue.Model
import Verif.FrameQueue.Spec
import Verif.FrameQueue.Lemmas
import Verif.FrameQueue.Concurrent
import Verif.FrameQueue.Props
import Verif.Isoff.Model
import Verif.Isoff.Spec
import Verif.Isoff.Lemmas
import Verif.Isoff.Props
import Verif.Isoff.Segment
import Verif.Isoff.Standard
import Verif.Json.Model
import Verif.Json.Props
import Verif.JsonStream.Model
import Verif.JsonStream.Cut
import Verif.JsonStream.Props
import Verif.JsonTree.Model
import Verif.JsonTree.Spec
import Verif.JsonTree.Lemmas
import Verif.JsonTree.Cases
import Verif.JsonTree.Props
import Verif.JsonTree.Sim
import Verif.LinkRace.Model
import Verif.LinkRace.Spec
import Verif.LinkRace.Lemmas
import Verif.LinkRace.Cases
import Verif.LinkRace.Props
import Verif.Live.Model
import Verif.Live.Spec
import Verif.Live.Lemmas
import Verif.Live.Cases
import Verif.Live.Props
import Verif.Live.Publish
import Verif.Live.Run
import Verif.Manifest.Model
import Verif.Manifest.Spec
import Verif.Manifest.Lemmas
import Verif.Manifest.Cases
import Verif.Manifest.Names
import Verif.Manifest.Props
import Verif.Manifest.Stream
import Verif.Mpd.Model
import Verif.Mpd.Lemmas
import Verif.Mpd.Props
import Verif.Nalu.Model
import Verif.Nalu.Spec
import Verif.Nalu.Assembly
import Verif.Nalu.Props
import Verif.Names.Model
import Verif.Names.Props
import Verif.Net.Model
import Verif.Net.Spec
import Verif.Net.Lemmas
import Verif.Net.Cases
import Verif.Net.Ends
import Verif.Net.Props
import Verif.Net.Round
import Verif.NetStats.Model
import Verif.NetStats.Recv
import Verif.NetStats.Send
import Verif.NetStats.Timers
import Verif.Offer.Model
import Verif.Offer.Spec
import Verif.Offer.Aac
import Verif.Offer.Props
import Verif.Paths.Model
import Verif.Paths.Spec
import Verif.Paths.Lemmas
import Verif.Paths.Cases
import Verif.Paths.Net
import Verif.Paths.NetCases
import Verif.Paths.Props
import Verif.Paths.Rounds
import Verif.Pipeline.Model
import Verif.Pipeline.Spec
import Verif.Pipeline.Lemmas
import Verif.Pipeline.Props
import Verif.Pool.Model
import Verif.Pool.Lemmas
import Verif.Pool.Props
import Verif.QueueLife.Model
import Verif.QueueLife.Spec
import Verif.QueueLife.Lemmas
import Verif.QueueLife.Props
import Verif.Rbsp.Model
import Verif.Rbsp.Props
import Verif.ReaderDelay.Model
import Verif.ReaderDelay.Spec
import Verif.ReaderDelay.Props
import Verif.Record.Model
import Verif.Record.Begin
import Verif.Record.Init
import Verif.Record.Props
import Verif.Record.Received
import Verif.Record.Success
import Verif.RecordAudio.Model
import Verif.RecordAudio.Init
import Verif.RecordAudio.Props
import Verif.RecordAudio.Success
import Verif.Recv.Model
import Verif.Recv.Lemmas
import Verif.Recv.Props
import Verif.Relay.Model
import Verif.Relay.Chain
import Verif.Relay.Props
import Verif.Reports.Model
import Verif.Reports.Audio
import Verif.Reports.Dash
import Verif.Reports.Encoder
import Verif.Reports.Mixers
import Verif.Reports.Read
import Verif.Resampler.Model
import Verif.Resampler.Props
import Verif.Retire.Model
import Verif.Retire.Spec
import Verif.Retire.Lemmas
import Verif.Retire.Cases
import Verif.Retire.Props
import Verif.Rewire.Model
import Verif.Rewire.Spec
import Verif.Rewire.Lemmas
import Verif.Rewire.Calls
import Verif.Rewire.Cases
import Verif.Rewire.Props
import Verif.Rewire.Steps
import Verif.Sdp.Model
import Verif.Sdp.Spec
import Verif.Sdp.Lemmas
import Verif.Sdp.Parser
import Verif.Sdp.Props
import Verif.Sdp.Rename
import Verif.SeqNum.Model
import Verif.SeqNum.Props
import Verif.Sessions.Model
import Verif.Sessions.Lemmas
import Verif.Sessions.Live
import Verif.Sessions.Props
import Verif.SharedMem.Model
import Verif.SharedMem.Pictures
import Verif.SharedMem.Props
import Verif.SharedReader.Model
import Verif.SharedReader.Spec
import Verif.SharedReader.Lemmas
import Verif.SharedReader.Props
import Verif.Sink.Model
import Verif.Sink.Lemmas
import Verif.Sink.Mux
import Verif.Sink.Props
import Verif.Sink.Steps
import Verif.SlicedQueue.Model
import Verif.SlicedQueue.Spec
import Verif.SlicedQueue.Lemmas
import Verif.SlicedQueue.Props
import Verif.Sources.Model
import Verif.Sources.Extradata
import Verif.Sources.Loop
import Verif.Sources.Queue
import Verif.Sources.Sampler
import Verif.Sps.Model
import Verif.Sps.Spec
import Verif.Sps.Dims
import Verif.Sps.Props
import Verif.UltraGrid.Model
import Verif.UltraGrid.Props
import Verif.UltraGrid.Sink
import Verif.UltraGrid.Stream
import Verif.V4L.Model
import Verif.V4L.Announced
import Verif.V4L.Props
import Verif.VideoDec.Model
import Verif.VideoDec.Props
import Verif.VideoMixer.Model
import Verif.VideoMixer.Props
import Verif.Wired.Spec
import Verif.Wired.Lemmas
import Verif.Wired.Cases
import Verif.Wired.Props
import Lean

/-! Checks, when built, that every theorem listed in MANIFEST.json rests on no axioms but
`propext`, `Classical.choice` and `Quot.sound`. -/

open Lean Elab Command in
elab "#only_standard_axioms " id:ident : command => do
  let name ← liftCoreM <| realizeGlobalConstNoOverloadWithInfo id
  let axs ← collectAxioms name
  for a in axs do
    unless a ∈ [``propext, ``Classical.choice, ``Quot.sound] do
      throwError "{name} depends on {a}"

#only_standard_axioms Lms.FrameQueue.queue_refines_bounded_fifo
#only_standard_axioms Lms.FrameQueue.fifo_without_loss_or_duplication
#only_standard_axioms Lms.FrameQueue.refused_write_changes_nothing
#only_standard_axioms Lms.FrameQueue.old_frame_is_last_released
#only_standard_axioms Lms.FrameQueue.nearly_full_report
#only_standard_axioms Lms.FrameQueue.zero_capacity_is_undefined
#only_standard_axioms Lms.FrameQueue.forced_write_drops_only_newest
#only_standard_axioms Lms.FrameQueue.forced_slot_terminates
#only_standard_axioms Lms.FrameQueue.forced_slot_hangs_with_capacity_one
#only_standard_axioms Lms.FrameQueue.capacity_one_holds_nothing
#only_standard_axioms Lms.FrameQueue.lock_free_producer_consumer
#only_standard_axioms Lms.FrameQueue.forced_producer_breaks_consumer
#only_standard_axioms Lms.FrameQueue.written_slot_never_read_slot
#only_standard_axioms Lms.FrameQueue.forced_write_aliases_reader_with_two_buffers
#only_standard_axioms Lms.SlicedQueue.sliced_queue_refines
#only_standard_axioms Lms.SlicedQueue.picture_delivered_as_slices
#only_standard_axioms Lms.SlicedQueue.seventeenth_slice_refused
#only_standard_axioms Lms.SlicedQueue.overflow_counts_every_dropped_slice
#only_standard_axioms Lms.SlicedQueue.abandoned_picture_blocks_encoder
#only_standard_axioms Lms.SlicedQueue.oversized_slice_is_undefined
#only_standard_axioms Lms.AudioRing.audio_ring_refines_streams
#only_standard_axioms Lms.AudioRing.bytes_delivered_in_order
#only_standard_axioms Lms.AudioRing.refused_push_changes_nothing
#only_standard_axioms Lms.AudioRing.count_of_empty_frames_is_ub
#only_standard_axioms Lms.AudioRing.output_time_is_sync_plus_duration
#only_standard_axioms Lms.AudioRing.push_decision
#only_standard_axioms Lms.AudioRing.gap_over_100ms_reads_out_of_bounds
#only_standard_axioms Lms.AudioRing.repeated_frame_gets_next_time
#only_standard_axioms Lms.AudioRing.on_time_frame_resets_after_a_day
#only_standard_axioms Lms.AudioRing.Conc.count_in_every_schedule
#only_standard_axioms Lms.AudioRing.Conc.bytes_right_without_overlap
#only_standard_axioms Lms.AudioRing.Conc.paired_loses_nothing
#only_standard_axioms Lms.AudioRing.Conc.overlapping_updates_corrupt_the_count
#only_standard_axioms Lms.SharedReader.shared_reader_refines
#only_standard_axioms Lms.SharedReader.every_filter_sees_every_frame_once
#only_standard_axioms Lms.SharedReader.leave_can_stall_reader
#only_standard_axioms Lms.SharedReader.release_without_frame_is_ub
#only_standard_axioms Lms.SharedReader.release_answer
#only_standard_axioms Lms.QueueLife.queue_life_refines
#only_standard_axioms Lms.QueueLife.deleted_exactly_once
#only_standard_axioms Lms.QueueLife.second_disconnect_refused
#only_standard_axioms Lms.QueueLife.connecting_to_busy_reader_leaks
#only_standard_axioms Lms.QueueLife.Race.racing_disconnects_are_safe
#only_standard_axioms Lms.QueueLife.Race.racing_disconnects_can_leak
#only_standard_axioms Lms.Pool.one_worker_per_filter
#only_standard_axioms Lms.Pool.pick_serves_in_order
#only_standard_axioms Lms.Pool.pick_removes_front
#only_standard_axioms Lms.Pool.waiting_filter_is_picked_in_turn
#only_standard_axioms Lms.Pool.pending_filter_stays_scheduled
#only_standard_axioms Lms.Pool.notification_can_be_lost
#only_standard_axioms Lms.Pool.removed_filter_never_runs
#only_standard_axioms Lms.Pool.removed_filter_never_touched
#only_standard_axioms Lms.Pool.removal_with_pending_job_is_ub
#only_standard_axioms Lms.Pool.removal_races_with_completion
#only_standard_axioms Lms.Pool.reused_id_runs_the_removed_task
#only_standard_axioms Lms.Pipeline.registries_stay_wellformed
#only_standard_axioms Lms.Pipeline.graph_stays_consistent
#only_standard_axioms Lms.Pipeline.remove_path_keeps_consistency_iff
#only_standard_axioms Lms.Pipeline.accepted_requests
#only_standard_axioms Lms.Pipeline.refused_request_changes_nothing
#only_standard_axioms Lms.Pipeline.removing_path_breaks_sharing_path
#only_standard_axioms Lms.Pipeline.connecting_dangling_path_is_ub
#only_standard_axioms Lms.Pipeline.stop_releases_everything
#only_standard_axioms Lms.Pipeline.second_stop_refused
#only_standard_axioms Lms.Pipeline.stop_with_two_paths_fails
#only_standard_axioms Lms.Pipeline.stop_with_two_paths_is_ub
#only_standard_axioms Lms.Pipeline.refused_stop_ends_workers
#only_standard_axioms Lms.Pipeline.deleting_twice_is_undefined
#only_standard_axioms Lms.Events.each_event_runs_exactly_once
#only_standard_axioms Lms.Events.events_never_run_early
#only_standard_axioms Lms.Events.can_iff
#only_standard_axioms Lms.Events.poll_runs_in_time_order
#only_standard_axioms Lms.Events.due_events_are_taken
#only_standard_axioms Lms.Events.poll_terminates
#only_standard_axioms Lms.Events.due_event_held_back
#only_standard_axioms Lms.FilterSync.round_decision
#only_standard_axioms Lms.FilterSync.round_clock
#only_standard_axioms Lms.FilterSync.output_stamps_increase
#only_standard_axioms Lms.FilterSync.output_stamps_on_grid
#only_standard_axioms Lms.FilterSync.round_frames
#only_standard_axioms Lms.FilterSync.late_and_early_frames_handed_on
#only_standard_axioms Lms.FilterSync.early_frame_lost_with_late_one
#only_standard_axioms Lms.FilterSync.demand_decision
#only_standard_axioms Lms.FilterSync.sync_takes_lagging_inputs
#only_standard_axioms Lms.FilterSync.newest_input_held_back
#only_standard_axioms Lms.FilterSync.sync_with_null_reader_is_ub
#only_standard_axioms Lms.FilterSync.unpaced_round
#only_standard_axioms Lms.FilterSync.synchronised_round
#only_standard_axioms Lms.FilterSync.paced_takes_all
#only_standard_axioms Lms.SeqNum.head_numbers_consecutive
#only_standard_axioms Lms.SeqNum.many_to_one_numbers_consecutive
#only_standard_axioms Lms.SeqNum.one_to_many_copies_number
#only_standard_axioms Lms.SeqNum.consumer_sees_increasing_numbers
#only_standard_axioms Lms.SeqNum.failed_round_enqueues_stale_number
#only_standard_axioms Lms.Mpd.timeline_refines
#only_standard_axioms Lms.Mpd.window_bounded
#only_standard_axioms Lms.Mpd.fixed_bound_shows_last
#only_standard_axioms Lms.Mpd.one_dropped_one_reported
#only_standard_axioms Lms.Mpd.files_match_timeline
#only_standard_axioms Lms.Mpd.lowered_bound_leaves_files
#only_standard_axioms Lms.Mpd.segment_at_zero_is_never_removed
#only_standard_axioms Lms.Mpd.repeated_start_time_removes_listed_file
#only_standard_axioms Lms.Mpd.changed_folder_orphans_files
#only_standard_axioms Lms.Mpd.removed_representation_leaves_files
#only_standard_axioms Lms.Mpd.failed_write_leaves_files
#only_standard_axioms Lms.Mpd.buffer_time_within_window
#only_standard_axioms Lms.Mpd.manifest_describes_representations
#only_standard_axioms Lms.Mpd.frame_rate_of_last_update
#only_standard_axioms Lms.Mpd.maximum_covers_representations
#only_standard_axioms Lms.Mpd.maximum_never_shrinks
#only_standard_axioms Lms.Mpd.maximum_is_largest
#only_standard_axioms Lms.Dash.video_segments
#only_standard_axioms Lms.Dash.segments_follow_rule
#only_standard_axioms Lms.Dash.segments_abut
#only_standard_axioms Lms.Dash.closing_rule
#only_standard_axioms Lms.Dash.groups_start_intra
#only_standard_axioms Lms.Dash.groups_partition
#only_standard_axioms Lms.Dash.groups_numbered
#only_standard_axioms Lms.Dash.groups_meet_rule
#only_standard_axioms Lms.Dash.next_group_starts_with_closing_frame
#only_standard_axioms Lms.Dash.durations_add_up
#only_standard_axioms Lms.Dash.group_duration_is_distance
#only_standard_axioms Lms.Dash.video_no_overflow
#only_standard_axioms Lms.Dash.segment_one_frame_short
#only_standard_axioms Lms.Dash.long_frame_does_not_close
#only_standard_axioms Lms.Dash.reordered_frames_do_not_abut
#only_standard_axioms Lms.Dash.audio_segments
#only_standard_axioms Lms.Dash.audio_partition
#only_standard_axioms Lms.Dash.audio_reaches_target
#only_standard_axioms Lms.Dash.audio_start_truncated
#only_standard_axioms Lms.Dash.video_frame_refused_iff
#only_standard_axioms Lms.Dash.audio_frame_refused_iff
#only_standard_axioms Lms.Isoff.init_segment_is_box_tree
#only_standard_axioms Lms.Isoff.init_segment_values
#only_standard_axioms Lms.Isoff.audio_decoder_info
#only_standard_axioms Lms.Isoff.segment_is_box_tree
#only_standard_axioms Lms.Isoff.segment_written_iff
#only_standard_axioms Lms.Isoff.collected_data_can_overflow_output
#only_standard_axioms Lms.Isoff.long_audio_config_is_unreadable
#only_standard_axioms Lms.Isoff.init_segment_fields
#only_standard_axioms Lms.Isoff.segment_fields
#only_standard_axioms Lms.Isoff.read_stream_desc
#only_standard_axioms Lms.Isoff.init_stream_desc
#only_standard_axioms Lms.Isoff.next_track_is_in_use
#only_standard_axioms Lms.Isoff.init_needs_record
#only_standard_axioms Lms.Isoff.segment_plays_back
#only_standard_axioms Lms.Nalu.start_code_removed
#only_standard_axioms Lms.Nalu.appended_units_read_back
#only_standard_axioms Lms.Nalu.huge_unit_passes_the_check
#only_standard_axioms Lms.Nalu.short_unit_is_ub
#only_standard_axioms Lms.Nalu.avc_record_reads_back
#only_standard_axioms Lms.Nalu.avc_record_profile_is_nal_header
#only_standard_axioms Lms.Nalu.avc_record_profile_wrong
#only_standard_axioms Lms.Nalu.short_sps_is_ub
#only_standard_axioms Lms.Nalu.hevc_record_reads_back
#only_standard_axioms Lms.Nalu.pictures_are_assembled
#only_standard_axioms Lms.Nalu.kinds_follow_standards
#only_standard_axioms Lms.Nalu.leading_pictures_are_lost
#only_standard_axioms Lms.Nalu.other_units_ignored
#only_standard_axioms Lms.Nalu.trailing_sei_loses_intra
#only_standard_axioms Lms.Nalu.same_time_pictures_merge
#only_standard_axioms Lms.Nalu.reordered_pictures_merge
#only_standard_axioms Lms.Nalu.stale_parameter_set
#only_standard_axioms Lms.Adts.config_of_header
#only_standard_axioms Lms.Adts.surround_is_misannounced
#only_standard_axioms Lms.Adts.sample_without_header
#only_standard_axioms Lms.Adts.init_segment_every_frame
#only_standard_axioms Lms.Adts.config_string_overflows
#only_standard_axioms Lms.Adts.hex_text_reads_back
#only_standard_axioms Lms.Names.sampleFmt_names_fit
#only_standard_axioms Lms.Names.aCodec_names_fit
#only_standard_axioms Lms.Names.vCodec_names_fit
#only_standard_axioms Lms.Names.filterType_names_fit
#only_standard_axioms Lms.Names.role_names_fit
#only_standard_axioms Lms.Names.txFormat_names_fit
#only_standard_axioms Lms.Names.pixel_names_do_not_fit
#only_standard_axioms Lms.Names.libav_audio_names
#only_standard_axioms Lms.Names.libav_video_names
#only_standard_axioms Lms.Names.bytes_of_sample
#only_standard_axioms Lms.BitStream.read_inverts_write
#only_standard_axioms Lms.BitStream.fields_are_read
#only_standard_axioms Lms.BitStream.fields_are_written
#only_standard_axioms Lms.BitStream.zeros_after_the_end
#only_standard_axioms Lms.BitStream.large_codes_cannot_be_written
#only_standard_axioms Lms.BitStream.long_codes_overflow
#only_standard_axioms Lms.BitStream.largest_code_is_lost
#only_standard_axioms Lms.BitStream.byte_copies_ignore_the_bit_position
#only_standard_axioms Lms.BitStream.skip_is_read
#only_standard_axioms Lms.BitStream.peek_is_read
#only_standard_axioms Lms.BitStream.se_out_of_range
#only_standard_axioms Lms.BitStream.skipping_moves
#only_standard_axioms Lms.Rbsp.payload_recovered
#only_standard_axioms Lms.Rbsp.legal_payload_recovered
#only_standard_axioms Lms.Rbsp.never_overflows
#only_standard_axioms Lms.Rbsp.refused_iff_forbidden
#only_standard_axioms Lms.Rbsp.odd_zeros_are_not_recovered
#only_standard_axioms Lms.Sps.sps_recovered
#only_standard_axioms Lms.Sps.reported
#only_standard_axioms Lms.Sps.dimensions_right
#only_standard_axioms Lms.Sps.progressive_420
#only_standard_axioms Lms.Sps.dimensions_wrong
#only_standard_axioms Lms.Sps.rate_is_truncated
#only_standard_axioms Lms.Sps.other_high_profiles_misread
#only_standard_axioms Lms.Sps.scaling_lists_misread
#only_standard_axioms Lms.Sps.interlaced_height_wrong
#only_standard_axioms Lms.Sps.offset_array_overflows
#only_standard_axioms Lms.Sps.buffers_beyond_arrays
#only_standard_axioms Lms.Json.unescape_escape
#only_standard_axioms Lms.Json.escape_clean
#only_standard_axioms Lms.Json.parse_write
#only_standard_axioms Lms.Json.determineType_write
#only_standard_axioms Lms.Json.write_injective
#only_standard_axioms Lms.Json.backslash_end_lost
#only_standard_axioms Lms.Json.quote_in_key_lost
#only_standard_axioms Lms.Json.exponent_refused
#only_standard_axioms Lms.Json.unclosed_accepted
#only_standard_axioms Lms.Json.two_documents_merged
#only_standard_axioms Lms.Json.construction_unescapes
#only_standard_axioms Lms.Json.ofString_plain
#only_standard_axioms Lms.Json.comments_ignored
#only_standard_axioms Lms.Json.quote_in_comment_lost
#only_standard_axioms Lms.Json.blanks_ignored
#only_standard_axioms Lms.AudioMixer.mixer_plays_timeline
#only_standard_axioms Lms.AudioMixer.push_refines
#only_standard_axioms Lms.AudioMixer.extract_refines
#only_standard_axioms Lms.AudioMixer.line_moves
#only_standard_axioms Lms.AudioMixer.silent_where_nothing
#only_standard_axioms Lms.AudioMixer.heard_is_sum
#only_standard_axioms Lms.AudioMixer.heard_order
#only_standard_axioms Lms.AudioMixer.timeline_example
#only_standard_axioms Lms.AudioMixer.order_matters
#only_standard_axioms Lms.AudioMixer.stale_after_restart
#only_standard_axioms Lms.AudioMixer.refused_though_place_free
#only_standard_axioms Lms.AudioMixer.early_frame_restarts
#only_standard_axioms Lms.AudioMixer.counter_end_restarts
#only_standard_axioms Lms.AudioMixer.gains_in_range
#only_standard_axioms Lms.AudioMixer.unknown_refused
#only_standard_axioms Lms.AudioMixer.refused_changes_nothing
#only_standard_axioms Lms.AudioMixer.volume_sets
#only_standard_axioms Lms.AudioMixer.mute_sets
#only_standard_axioms Lms.AudioMixer.solo_sets
#only_standard_axioms Lms.AudioMixer.mute_forgets
#only_standard_axioms Lms.AudioMixer.solo_forgets
#only_standard_axioms Lms.AudioMixer.master_unlimited
#only_standard_axioms Lms.AudioMixer.compress_range
#only_standard_axioms Lms.AudioMixer.compress_open
#only_standard_axioms Lms.AudioMixer.compress_id
#only_standard_axioms Lms.AudioMixer.compress_odd
#only_standard_axioms Lms.AudioMixer.compress_mono
#only_standard_axioms Lms.AudioMixer.heard_in_range
#only_standard_axioms Lms.AudioMixer.conversion_fits
#only_standard_axioms Lms.AudioMixer.bytes_roundtrip
#only_standard_axioms Lms.AudioMixer.master_above_one_overflows
#only_standard_axioms Lms.AudioMixer.full_scale_overflows
#only_standard_axioms Lms.VideoMixer.mixed_picture
#only_standard_axioms Lms.VideoMixer.mem_order
#only_standard_axioms Lms.VideoMixer.sorted_order
#only_standard_axioms Lms.VideoMixer.topmost_seen
#only_standard_axioms Lms.VideoMixer.refused_only
#only_standard_axioms Lms.VideoMixer.config_accepted_iff
#only_standard_axioms Lms.VideoMixer.commands_ok
#only_standard_axioms Lms.VideoMixer.top_layer_never_painted
#only_standard_axioms Lms.VideoMixer.top_layer_accepted
#only_standard_axioms Lms.VideoMixer.channel_comes_and_goes
#only_standard_axioms Lms.VideoMixer.mixed_time
#only_standard_axioms Lms.VideoMixer.paste_succeeds_iff
#only_standard_axioms Lms.VideoMixer.painted_inside
#only_standard_axioms Lms.VideoMixer.never_aborts
#only_standard_axioms Lms.VideoMixer.crop_reachable
#only_standard_axioms Lms.VideoMixer.splitter_cuts
#only_standard_axioms Lms.VideoMixer.corner_outside_aborts
#only_standard_axioms Lms.VideoMixer.tiny_size_aborts
#only_standard_axioms Lms.VideoMixer.piece_length_is_pixels
#only_standard_axioms Lms.VideoMixer.crop_sum_overflows
#only_standard_axioms Lms.VideoMixer.crop_added_once
#only_standard_axioms Lms.VideoMixer.crop_results
#only_standard_axioms Lms.VideoMixer.pixel_fitted
#only_standard_axioms Lms.SharedMem.peer_reads_offers
#only_standard_axioms Lms.SharedMem.no_write_while_read
#only_standard_axioms Lms.SharedMem.codec_codes
#only_standard_axioms Lms.SharedMem.run_feeds
#only_standard_axioms Lms.SharedMem.pictures_offered
#only_standard_axioms Lms.SharedMem.raw_offered
#only_standard_axioms Lms.SharedMem.raw_oversize
#only_standard_axioms Lms.SharedMem.no_delimiter_no_offer
#only_standard_axioms Lms.SharedMem.other_unit_lost
#only_standard_axioms Lms.SharedMem.header_is_next_picture
#only_standard_axioms Lms.SharedMem.parse_other
#only_standard_axioms Lms.UltraGrid.frame_sent
#only_standard_axioms Lms.UltraGrid.frame_received
#only_standard_axioms Lms.UltraGrid.reassembles
#only_standard_axioms Lms.UltraGrid.no_progress
#only_standard_axioms Lms.UltraGrid.large_frame_overflows
#only_standard_axioms Lms.UltraGrid.au_header
#only_standard_axioms Lms.UltraGrid.au_size_right_iff
#only_standard_axioms Lms.UltraGrid.audio_sent
#only_standard_axioms Lms.UltraGrid.swap_samples
#only_standard_axioms Lms.UltraGrid.audio_fragment_aborts
#only_standard_axioms Lms.Sources.sampler_regroups
#only_standard_axioms Lms.Sources.lengths_read_back
#only_standard_axioms Lms.Sources.large_unit_lost
#only_standard_axioms Lms.Sources.full_buffer_overrun
#only_standard_axioms Lms.Sources.exact_fill_overruns
#only_standard_axioms Lms.Sources.extradata264
#only_standard_axioms Lms.Sources.extradata265
#only_standard_axioms Lms.Sources.scan_units
#only_standard_axioms Lms.Sources.announced_whole_iff
#only_standard_axioms Lms.Sources.exact_allocation_overread
#only_standard_axioms Lms.Sources.trailing_zero_kept
#only_standard_axioms Lms.Sources.code_completed_behind
#only_standard_axioms Lms.Sources.once_in_order
#only_standard_axioms Lms.Sources.answer_is_current
#only_standard_axioms Lms.Sources.released_iff
#only_standard_axioms Lms.Sources.answered_at_once
#only_standard_axioms Lms.Sources.never_fails
#only_standard_axioms Lms.Sources.answer_right
#only_standard_axioms Lms.Sources.frames_given_back
#only_standard_axioms Lms.Sources.round_ends
#only_standard_axioms Lms.Sources.offer_free
#only_standard_axioms Lms.Sources.asked_again_answered_twice
#only_standard_axioms Lms.Sources.short_frame_wraps
#only_standard_axioms Lms.Sources.quiet_packetiser_blocks
#only_standard_axioms Lms.Sources.offer_entries
#only_standard_axioms Lms.Sources.injected
#only_standard_axioms Lms.Sources.injected_mark
#only_standard_axioms Lms.Demux.demux_all
#only_standard_axioms Lms.Demux.demux_prefix
#only_standard_axioms Lms.Demux.pieces_separate
#only_standard_axioms Lms.Demux.opened_idle
#only_standard_axioms Lms.Demux.nothing_leaks
#only_standard_axioms Lms.Demux.ub_causes
#only_standard_axioms Lms.Demux.find_spec
#only_standard_axioms Lms.Demux.framing_iff
#only_standard_axioms Lms.Demux.short_last_merged
#only_standard_axioms Lms.Demux.end_of_stream_merged
#only_standard_axioms Lms.Demux.leading_zeros_spurious
#only_standard_axioms Lms.Demux.no_code_overread
#only_standard_axioms Lms.Demux.large_unit_overruns
#only_standard_axioms Lms.Demux.avcc_without_filter
#only_standard_axioms Lms.Demux.inside_cut
#only_standard_axioms Lms.Demux.open_answer
#only_standard_axioms Lms.Demux.announced_iff
#only_standard_axioms Lms.Demux.nopts_smallest
#only_standard_axioms Lms.Demux.times_in_order
#only_standard_axioms Lms.Demux.time_exact
#only_standard_axioms Lms.Demux.unstamped_time
#only_standard_axioms Lms.Demux.unstamped_backwards
#only_standard_axioms Lms.Demux.file_times
#only_standard_axioms Lms.Demux.file_negative_overflows
#only_standard_axioms Lms.Demux.missing_dts_overflows
#only_standard_axioms Lms.Encoder.times_kept
#only_standard_axioms Lms.Encoder.entries_released
#only_standard_axioms Lms.Encoder.demo_played
#only_standard_axioms Lms.Encoder.first_decode_time_zero
#only_standard_axioms Lms.Encoder.skipped_entry_stays
#only_standard_axioms Lms.Encoder.reopening_leaks
#only_standard_axioms Lms.Encoder.overflow_leaks
#only_standard_axioms Lms.Encoder.intra_on_grid
#only_standard_axioms Lms.Encoder.intra_on_own_grid
#only_standard_axioms Lms.Encoder.same_pictures
#only_standard_axioms Lms.Encoder.late_joiner
#only_standard_axioms Lms.Encoder.force_next
#only_standard_axioms Lms.Encoder.no_gop_time
#only_standard_axioms Lms.Encoder.old_reference_floods
#only_standard_axioms Lms.Encoder.unset_reference_differs
#only_standard_axioms Lms.Encoder.failed_request_lost
#only_standard_axioms Lms.Encoder.config_event
#only_standard_axioms Lms.Encoder.any_event_sets_frame_time
#only_standard_axioms Lms.Encoder.negative_accepted
#only_standard_axioms Lms.Encoder.encoder_fits
#only_standard_axioms Lms.Encoder.encoder_opens
#only_standard_axioms Lms.Encoder.open_failure_sticks
#only_standard_axioms Lms.Encoder.open_failure_reached
#only_standard_axioms Lms.V4L.device_consistent
#only_standard_axioms Lms.V4L.release_closes
#only_standard_axioms Lms.V4L.configure_closed
#only_standard_axioms Lms.V4L.capture_only
#only_standard_axioms Lms.V4L.reconfigure_wrong_rate
#only_standard_axioms Lms.V4L.reconfigure_ignores_rate
#only_standard_axioms Lms.V4L.reconfigure_divides_by_zero
#only_standard_axioms Lms.V4L.zero_rate_divides_by_zero
#only_standard_axioms Lms.V4L.failed_stop_reports_success
#only_standard_axioms Lms.V4L.failed_unmap_reports_success
#only_standard_axioms Lms.V4L.capture_from_unmapped
#only_standard_axioms Lms.V4L.failed_map_leaks
#only_standard_axioms Lms.V4L.release_again_unmaps_twice
#only_standard_axioms Lms.V4L.picture_copied
#only_standard_axioms Lms.V4L.tiny_copied
#only_standard_axioms Lms.V4L.large_picture_overruns
#only_standard_axioms Lms.V4L.large_picture_reached
#only_standard_axioms Lms.V4L.planar_loses_chroma
#only_standard_axioms Lms.V4L.release_idle
#only_standard_axioms Lms.V4L.open_again
#only_standard_axioms Lms.V4L.duration_between
#only_standard_axioms Lms.V4L.duration_follows
#only_standard_axioms Lms.V4L.delay_bounded
#only_standard_axioms Lms.V4L.schedule_kept
#only_standard_axioms Lms.V4L.pause_counts
#only_standard_axioms Lms.FilterConn.writers_never_exceed
#only_standard_axioms Lms.FilterConn.writers_own_queues
#only_standard_axioms Lms.FilterConn.queues_have_ends
#only_standard_axioms Lms.FilterConn.history_safe
#only_standard_axioms Lms.FilterConn.self_connect_hangs
#only_standard_axioms Lms.FilterConn.refused_reader_leaves_null
#only_standard_axioms Lms.FilterConn.readers_never_exceed
#only_standard_axioms Lms.FilterConn.share_exceeds_maximum
#only_standard_axioms Lms.FilterConn.connect_succeeds_iff
#only_standard_axioms Lms.FilterConn.connect_refused
#only_standard_axioms Lms.FilterConn.reconnect_before_round_loses_queue
#only_standard_axioms Lms.FilterConn.roundW_removes
#only_standard_axioms Lms.FilterConn.roundR_removes
#only_standard_axioms Lms.FilterConn.disconnectW_removes
#only_standard_axioms Lms.FilterConn.disconnectR_removes
#only_standard_axioms Lms.FilterConn.shared_twice_stays
#only_standard_axioms Lms.FilterConn.connect_disconnect
#only_standard_axioms Lms.FilterConn.share_result
#only_standard_axioms Lms.FilterConn.generated_unused
#only_standard_axioms Lms.FilterConn.generated_found
#only_standard_axioms Lms.FilterConn.unknown_reader
#only_standard_axioms Lms.Sink.never_ub
#only_standard_axioms Lms.Sink.connections_consistent
#only_standard_axioms Lms.Sink.server_consistent
#only_standard_axioms Lms.Sink.refused_connection
#only_standard_axioms Lms.Sink.accepted_connection
#only_standard_axioms Lms.Sink.std_accepted
#only_standard_axioms Lms.Sink.ultragrid_accepted
#only_standard_axioms Lms.Sink.mpegts_accepted
#only_standard_axioms Lms.Sink.rtsp_accepted
#only_standard_axioms Lms.Sink.rtsp_ts_accepted
#only_standard_axioms Lms.Sink.remove_connection
#only_standard_axioms Lms.Sink.delete_reader
#only_standard_axioms Lms.Sink.add_reader
#only_standard_axioms Lms.Sink.name_reused
#only_standard_axioms Lms.Sink.refused_unregisters
#only_standard_axioms Lms.Sink.video_left_out
#only_standard_axioms Lms.Sink.source_kept
#only_standard_axioms Lms.Sink.minus_one
#only_standard_axioms Lms.Sink.refused_reader
#only_standard_axioms Lms.Recv.round_receives
#only_standard_axioms Lms.Recv.received_in_order
#only_standard_axioms Lms.Recv.never_ub
#only_standard_axioms Lms.Recv.connect_steady
#only_standard_axioms Lms.Recv.first_frame_misplaced
#only_standard_axioms Lms.Recv.never_resumes
#only_standard_axioms Lms.Recv.disconnect_dead
#only_standard_axioms Lms.Recv.first_frame_garbage
#only_standard_axioms Lms.Recv.first_frame_too_long
#only_standard_axioms Lms.Recv.reconnect_silent
#only_standard_axioms Lms.Recv.freed_under_fetch
#only_standard_axioms Lms.Sdp.description_reads_back
#only_standard_axioms Lms.Sdp.refused_iff
#only_standard_axioms Lms.Sdp.example_reads_back
#only_standard_axioms Lms.Sdp.unchecked_medium
#only_standard_axioms Lms.Sdp.negative_port
#only_standard_axioms Lms.Sdp.rename_keeps_lines
#only_standard_axioms Lms.Sdp.rename_example
#only_standard_axioms Lms.Sdp.lf_lines_run_together
#only_standard_axioms Lms.Sdp.lf_loses_media
#only_standard_axioms Lms.Sdp.extradata_of_records
#only_standard_axioms Lms.Sdp.units_prefixed
#only_standard_axioms Lms.Sdp.received_sets_announced
#only_standard_axioms Lms.Sdp.example_sets
#only_standard_axioms Lms.Sdp.too_long_records
#only_standard_axioms Lms.Sdp.one_long_record
#only_standard_axioms Lms.Sdp.short_buffer
#only_standard_axioms Lms.Sdp.connected_early
#only_standard_axioms Lms.Sessions.polite_from_start
#only_standard_axioms Lms.Sessions.polite_history
#only_standard_axioms Lms.Sessions.polite_example
#only_standard_axioms Lms.Sessions.consistent
#only_standard_axioms Lms.Sessions.used_id_refused
#only_standard_axioms Lms.Sessions.add_registers
#only_standard_axioms Lms.Sessions.add_answer_iff
#only_standard_axioms Lms.Sessions.remove_defined_iff
#only_standard_axioms Lms.Sessions.remove_effect
#only_standard_axioms Lms.Sessions.round_defined_iff
#only_standard_axioms Lms.Sessions.disconnect_defined_iff
#only_standard_axioms Lms.Sessions.connect_first_time
#only_standard_axioms Lms.Sessions.remove_text_session
#only_standard_axioms Lms.Sessions.closed_not_removable
#only_standard_axioms Lms.Sessions.failed_session_stays
#only_standard_axioms Lms.Sessions.remove_connected
#only_standard_axioms Lms.Sessions.remove_undescribed
#only_standard_axioms Lms.Sessions.remove_failed
#only_standard_axioms Lms.Sessions.ended_stream
#only_standard_axioms Lms.Sessions.ended_remove
#only_standard_axioms Lms.Sessions.connect_waiting
#only_standard_axioms Lms.Sessions.unreadable_text
#only_standard_axioms Lms.Sessions.refused_keeps_id
#only_standard_axioms Lms.Sessions.stale_description
#only_standard_axioms Lms.Sessions.foreign_sink
#only_standard_axioms Lms.NetStats.keep_alives_in_time
#only_standard_axioms Lms.NetStats.keep_alives_go_on
#only_standard_axioms Lms.NetStats.keepDelay_in_time
#only_standard_axioms Lms.NetStats.keepDelay_exact
#only_standard_axioms Lms.NetStats.stream_ends_after_duration
#only_standard_axioms Lms.NetStats.no_duration_no_end
#only_standard_axioms Lms.NetStats.play_example
#only_standard_axioms Lms.NetStats.end_example
#only_standard_axioms Lms.NetStats.long_stream_undefined
#only_standard_axioms Lms.NetStats.keep_alive_after_end
#only_standard_axioms Lms.NetStats.long_timeouts
#only_standard_axioms Lms.NetStats.not_asked_no_keep_alives
#only_standard_axioms Lms.NetStats.stats_do_not_drift
#only_standard_axioms Lms.NetStats.statDelay_exact
#only_standard_axioms Lms.NetStats.rates_told
#only_standard_axioms Lms.NetStats.no_rate_told
#only_standard_axioms Lms.NetStats.average_rate
#only_standard_axioms Lms.NetStats.losses_told
#only_standard_axioms Lms.NetStats.average_loss
#only_standard_axioms Lms.NetStats.jitter_told
#only_standard_axioms Lms.NetStats.secsBetween_exact
#only_standard_axioms Lms.NetStats.sub32_exact
#only_standard_axioms Lms.NetStats.aStream_runs
#only_standard_axioms Lms.NetStats.aStream_rates
#only_standard_axioms Lms.NetStats.aStream_losses
#only_standard_axioms Lms.NetStats.negative_loss
#only_standard_axioms Lms.NetStats.average_above_greatest
#only_standard_axioms Lms.NetStats.clock_set_back
#only_standard_axioms Lms.NetStats.pause_then_silence
#only_standard_axioms Lms.NetStats.rateNow_eq
#only_standard_axioms Lms.NetStats.rates_not_negative
#only_standard_axioms Lms.NetStats.extremes_told
#only_standard_axioms Lms.NetStats.present_told
#only_standard_axioms Lms.NetStats.rate_exact
#only_standard_axioms Lms.NetStats.last_members
#only_standard_axioms Lms.NetStats.first_members
#only_standard_axioms Lms.NetStats.send_example
#only_standard_axioms Lms.NetStats.shadow_example
#only_standard_axioms Lms.NetStats.rate_wraps
#only_standard_axioms Lms.NetStats.loss_capped
#only_standard_axioms Lms.DashTop.files_are_segments_in_order
#only_standard_axioms Lms.DashTop.in_step_nothing_lost
#only_standard_axioms Lms.DashTop.audio_closed_with_video
#only_standard_axioms Lms.DashTop.video_listed_iff
#only_standard_axioms Lms.DashTop.as_many_audio_as_video
#only_standard_axioms Lms.DashTop.reference_when_apart
#only_standard_axioms Lms.DashTop.readers_consistent
#only_standard_axioms Lms.DashTop.readers_change
#only_standard_axioms Lms.DashTop.late_stream_loses_segments
#only_standard_axioms Lms.DashTop.failed_write_mixes_sets
#only_standard_axioms Lms.DashTop.silent_audio_stream_loses_others
#only_standard_axioms Lms.DashTop.one_origin
#only_standard_axioms Lms.DashTop.origin_is_first_frame
#only_standard_axioms Lms.DashTop.time_since_origin
#only_standard_axioms Lms.DashTop.time_order
#only_standard_axioms Lms.DashTop.origin_moves_from_zero
#only_standard_axioms Lms.DashTop.before_origin_wraps
#only_standard_axioms Lms.FrameAlloc.pixOf_libav
#only_standard_axioms Lms.FrameAlloc.video_refused_iff
#only_standard_axioms Lms.FrameAlloc.video_coded_frames
#only_standard_axioms Lms.FrameAlloc.video_raw_frames
#only_standard_axioms Lms.FrameAlloc.video_raw_room_exact
#only_standard_axioms Lms.FrameAlloc.rgb24_holds
#only_standard_axioms Lms.FrameAlloc.rgb24_does_not_hold
#only_standard_axioms Lms.FrameAlloc.audio_frames
#only_standard_axioms Lms.FrameAlloc.audio_refused_iff
#only_standard_axioms Lms.FrameAlloc.defaults_framed
#only_standard_axioms Lms.FrameAlloc.audio_null_slots
#only_standard_axioms Lms.FrameAlloc.audio_rate_overflow
#only_standard_axioms Lms.FrameAlloc.force_returns
#only_standard_axioms Lms.FrameAlloc.force_never_returns
#only_standard_axioms Lms.FrameAlloc.mp3_planar_blocks
#only_standard_axioms Lms.FrameAlloc.planar_clear
#only_standard_axioms Lms.FrameAlloc.interleaved_clear
#only_standard_axioms Lms.FrameAlloc.twenty_milliseconds
#only_standard_axioms Lms.FrameAlloc.codec_defaults
#only_standard_axioms Lms.Resampler.conversion
#only_standard_axioms Lms.Resampler.rate_back
#only_standard_axioms Lms.Resampler.overrun
#only_standard_axioms Lms.Resampler.overrun_rgb32
#only_standard_axioms Lms.Resampler.uninitialised_format
#only_standard_axioms Lms.Resampler.stale_context
#only_standard_axioms Lms.Resampler.yuvj420p_refused
#only_standard_axioms Lms.Resampler.no_format_takes_effect
#only_standard_axioms Lms.VideoDec.decoding
#only_standard_axioms Lms.VideoDec.refused_then_taken
#only_standard_axioms Lms.VideoDec.failed_setup_then_used
#only_standard_axioms Lms.VideoDec.no_progress_loops
#only_standard_axioms Lms.VideoDec.picture_overruns
#only_standard_axioms Lms.VideoDec.unknown_format_delivered
#only_standard_axioms Lms.AudioDec.decoding
#only_standard_axioms Lms.AudioDec.reached_unique
#only_standard_axioms Lms.AudioDec.first_conversion_stays
#only_standard_axioms Lms.AudioDec.late_configuration_accepted
#only_standard_axioms Lms.AudioDec.refused_then_taken
#only_standard_axioms Lms.AudioDec.failed_setup_then_used
#only_standard_axioms Lms.AudioDec.no_progress_loops
#only_standard_axioms Lms.AudioDec.unknown_format_crashes
#only_standard_axioms Lms.AudioDec.silent_frame_delivered
#only_standard_axioms Lms.AudioDec.channels_change_unnoticed
#only_standard_axioms Lms.AudioDec.configured_after_queue_overruns
#only_standard_axioms Lms.AudioDec.length_told
#only_standard_axioms Lms.AudioDec.failed_conversion_refuses
#only_standard_axioms Lms.AudioEnc.configure_accepted_iff
#only_standard_axioms Lms.AudioEnc.configured_for_good
#only_standard_axioms Lms.AudioEnc.history_codec
#only_standard_axioms Lms.AudioEnc.reader_accepted_iff
#only_standard_axioms Lms.AudioEnc.encoding
#only_standard_axioms Lms.AudioEnc.frames_right
#only_standard_axioms Lms.AudioEnc.same_rate_whole_frames
#only_standard_axioms Lms.AudioEnc.slower_output_repeats_samples
#only_standard_axioms Lms.AudioEnc.faster_output_falls_behind
#only_standard_axioms Lms.AudioEnc.no_frame_size_unusable
#only_standard_axioms Lms.AudioEnc.first_conversion_stays
#only_standard_axioms Lms.AudioEnc.failed_resampler_then_used
#only_standard_axioms Lms.AudioEnc.interleaved_input_misused
#only_standard_axioms Lms.AudioEnc.ring_overrun
#only_standard_axioms Lms.AudioEnc.half_of_the_samples
#only_standard_axioms Lms.AudioEnc.other_ring_misread
#only_standard_axioms Lms.AudioEnc.failed_configuration_bars
#only_standard_axioms Lms.AudioEnc.failed_conversion_refuses
#only_standard_axioms Lms.JsonStream.reading_is_defined
#only_standard_axioms Lms.JsonStream.parse_defined
#only_standard_axioms Lms.JsonStream.understood_alone
#only_standard_axioms Lms.JsonStream.refused_request_is_read_later
#only_standard_axioms Lms.JsonStream.out_of_step_for_good
#only_standard_axioms Lms.JsonStream.last_value_not_seen
#only_standard_axioms Lms.JsonStream.typing_error_delays_requests
#only_standard_axioms Lms.JsonStream.cut_request_all_or_nothing
#only_standard_axioms Lms.JsonStream.cut_request_examples
#only_standard_axioms Lms.Control.cut_request_carried_out_or_not
#only_standard_axioms Lms.Control.event_answered
#only_standard_axioms Lms.Control.dies_iff_fatal
#only_standard_axioms Lms.Control.failure_changes_nothing
#only_standard_axioms Lms.Control.success_is_carried_out
#only_standard_axioms Lms.Control.results_in_order
#only_standard_axioms Lms.Control.one_verdict_each
#only_standard_axioms Lms.Control.only_first_verdict_seen
#only_standard_axioms Lms.Control.fatal_event_ends_all
#only_standard_axioms Lms.Control.fatal_events
#only_standard_axioms Lms.Control.delivered_is_not_executed
#only_standard_axioms Lms.Control.event_keeps_order
#only_standard_axioms Lms.Control.request_defined
#only_standard_axioms Lms.Control.ordinary_events
#only_standard_axioms Lms.Control.readInt_showInt
#only_standard_axioms Lms.Control.readInt_fits
#only_standard_axioms Lms.Control.numbers_taken_for_others
#only_standard_axioms Lms.Control.report_tells_registries
#only_standard_axioms Lms.Control.answered_once_or_left_open
#only_standard_axioms Lms.Control.connection_by_itself
#only_standard_axioms Lms.Control.next_client_gets_others_results
#only_standard_axioms Lms.Control.session_example
#only_standard_axioms Lms.Control.second_verdict_hidden
#only_standard_axioms Lms.Control.unconnected_path_stays
#only_standard_axioms Lms.Control.stray_example
#only_standard_axioms Lms.ReaderDelay.average_of_last_window
#only_standard_axioms Lms.ReaderDelay.average_between
#only_standard_axioms Lms.ReaderDelay.frame_time_and_delay
#only_standard_axioms Lms.ReaderDelay.path_report_delay_and_loss
#only_standard_axioms Lms.ReaderDelay.average_example
#only_standard_axioms Lms.ReaderDelay.future_frames_enormous
#only_standard_axioms Lms.ReaderDelay.negative_times_not_counted
#only_standard_axioms Lms.ReaderDelay.told_cut
#only_standard_axioms Lms.FilterEvents.event_read
#only_standard_axioms Lms.FilterEvents.event_by_table
#only_standard_axioms Lms.FilterEvents.unknown_action
#only_standard_axioms Lms.FilterEvents.action_no_text
#only_standard_axioms Lms.FilterEvents.no_params_needed
#only_standard_axioms Lms.FilterEvents.only_named_members
#only_standard_axioms Lms.FilterEvents.well_typed
#only_standard_axioms Lms.FilterEvents.delay_ignored
#only_standard_axioms Lms.FilterEvents.addSession_read
#only_standard_axioms Lms.FilterEvents.wrong_type_ends
#only_standard_axioms Lms.FilterEvents.wrong_type_ignored
#only_standard_axioms Lms.FilterEvents.null_taken
#only_standard_axioms Lms.FilterEvents.no_params_undefined
#only_standard_axioms Lms.FilterEvents.call_arrives
#only_standard_axioms Lms.FilterEvents.backslash_changed
#only_standard_axioms Lms.FilterEvents.reference_text
#only_standard_axioms Lms.FilterEvents.reference_round_trip
#only_standard_axioms Lms.FilterEvents.dash_reference
#only_standard_axioms Lms.FilterEvents.reference_wrong
#only_standard_axioms Lms.FilterEvents.stoull_digits
#only_standard_axioms Lms.FilterEvents.stoull_minus
#only_standard_axioms Lms.Manifest.manifest_says_what_is_known
#only_standard_axioms Lms.Manifest.read_document
#only_standard_axioms Lms.Manifest.listed_is_written
#only_standard_axioms Lms.Manifest.closed_is_described
#only_standard_axioms Lms.Manifest.failed_not_listed
#only_standard_axioms Lms.Manifest.media_address
#only_standard_axioms Lms.Manifest.init_address
#only_standard_axioms Lms.Manifest.names_differ
#only_standard_axioms Lms.Manifest.dollar_in_base
#only_standard_axioms Lms.Manifest.late_joiner
#only_standard_axioms Lms.Manifest.history_outcome
#only_standard_axioms Lms.Manifest.removed_still_counts
#only_standard_axioms Lms.Manifest.other_kind
#only_standard_axioms Lms.Manifest.textual_order
#only_standard_axioms Lms.Manifest.depth_is_cut
#only_standard_axioms Lms.Manifest.unconfigured
#only_standard_axioms Lms.Reports.encoder_told
#only_standard_axioms Lms.Reports.encoder_refused_unchanged
#only_standard_axioms Lms.Reports.encoder_restored
#only_standard_axioms Lms.Reports.encoder_reference_restored
#only_standard_axioms Lms.Reports.Enc.ok_events
#only_standard_axioms Lms.Reports.untimed_reported_as_25
#only_standard_axioms Lms.Reports.negative_reported
#only_standard_axioms Lms.Reports.decoder_told
#only_standard_axioms Lms.Reports.decoder_restored
#only_standard_axioms Lms.Reports.decoder_failure_reported
#only_standard_axioms Lms.Reports.audio_encoder_told
#only_standard_axioms Lms.Reports.audio_encoder_restored
#only_standard_axioms Lms.Reports.bitrate_not_reported
#only_standard_axioms Lms.Reports.refused_encoder_reported
#only_standard_axioms Lms.Reports.gain_told
#only_standard_axioms Lms.Reports.gains_restored
#only_standard_axioms Lms.Reports.gain_rounded
#only_standard_axioms Lms.Reports.tenths_ok
#only_standard_axioms Lms.Reports.channel_told
#only_standard_axioms Lms.Reports.channels_restored
#only_standard_axioms Lms.Reports.vmix_ok_new
#only_standard_axioms Lms.Reports.split_ok_event
#only_standard_axioms Lms.Reports.vmix_ok_event
#only_standard_axioms Lms.Reports.vmix_ok_add
#only_standard_axioms Lms.Reports.vmix_ok_remove
#only_standard_axioms Lms.Reports.mixer_time_not_reported
#only_standard_axioms Lms.Reports.crop_told
#only_standard_axioms Lms.Reports.crops_restored
#only_standard_axioms Lms.Reports.unconfigured_crop_refused
#only_standard_axioms Lms.Reports.splitter_entry_resets_time
#only_standard_axioms Lms.Reports.dash_told
#only_standard_axioms Lms.Reports.dash_partly_told
#only_standard_axioms Lms.Reports.dash_restored
#only_standard_axioms Lms.Reports.dash_ok_events
#only_standard_axioms Lms.Reports.segments_not_restored
#only_standard_axioms Lms.Reports.new_dash_reports_anything
#only_standard_axioms Lms.Reports.mute_told
#only_standard_axioms Lms.Reports.solo_told
#only_standard_axioms Lms.Reports.mute_master_told
#only_standard_axioms Lms.Reports.unknown_changes_nothing
#only_standard_axioms Lms.Reports.new_encoder_report
#only_standard_axioms Lms.Offer.rtsp_as_plain
#only_standard_axioms Lms.Offer.understood_is_sent
#only_standard_axioms Lms.Offer.understood_iff
#only_standard_axioms Lms.Offer.understood_is_sent_plain
#only_standard_axioms Lms.Offer.understood_iff_plain
#only_standard_axioms Lms.Offer.transport_not_understood
#only_standard_axioms Lms.Offer.number_of_stream
#only_standard_axioms Lms.Offer.numbers_are_rfc
#only_standard_axioms Lms.Offer.clock_announced
#only_standard_axioms Lms.Offer.accepted_iff
#only_standard_axioms Lms.Offer.transport_accepts
#only_standard_axioms Lms.Offer.plain_loop
#only_standard_axioms Lms.Offer.plain_only
#only_standard_axioms Lms.Offer.fmtp_fits
#only_standard_axioms Lms.Offer.fmtp_reads
#only_standard_axioms Lms.Offer.aac_description_undefined
#only_standard_axioms Lms.Offer.aac_description_repaired
#only_standard_axioms Lms.Offer.bandwidth_told
#only_standard_axioms Lms.Offer.bandwidth_an_eighth
#only_standard_axioms Lms.Offer.alaw_announced_as_mulaw
#only_standard_axioms Lms.Offer.sample_format_lost
#only_standard_axioms Lms.Offer.plain_numbers_differ
#only_standard_axioms Lms.Offer.renamed_iff
#only_standard_axioms Lms.Offer.transport_types
#only_standard_axioms Lms.Offer.transport_clock
#only_standard_axioms Lms.Offer.video_names
#only_standard_axioms Lms.Offer.bandwidth_of_bytes
#only_standard_axioms Lms.Relay.sent_on
#only_standard_axioms Lms.Relay.relayed
#only_standard_axioms Lms.Relay.unit_sent
#only_standard_axioms Lms.Relay.frame_sent
#only_standard_axioms Lms.Relay.arriving_parsed
#only_standard_axioms Lms.Relay.arriving_fits
#only_standard_axioms Lms.Relay.receive_ok
#only_standard_axioms Lms.Relay.transmit_ok
#only_standard_axioms Lms.Relay.transmit_agrees
#only_standard_axioms Lms.Relay.serve_one
#only_standard_axioms Lms.Relay.stopped_unsent
#only_standard_axioms Lms.Relay.asked_twice
#only_standard_axioms Lms.Relay.cut_untold
#only_standard_axioms Lms.UltraGrid.stream_sent
#only_standard_axioms Lms.UltraGrid.waits_sent
#only_standard_axioms Lms.UltraGrid.unit_sent
#only_standard_axioms Lms.UltraGrid.empty_not_sent
#only_standard_axioms Lms.UltraGrid.group_received
#only_standard_axioms Lms.UltraGrid.size_in_force
#only_standard_axioms Lms.UltraGrid.no_delimiter_no_video
#only_standard_axioms Lms.UltraGrid.no_size_no_video
#only_standard_axioms Lms.UltraGrid.first_picture_lost
#only_standard_axioms Lms.UltraGrid.rate_from_memory
#only_standard_axioms Lms.UltraGrid.oversized_unknown
#only_standard_axioms Lms.UltraGrid.untold_rate
#only_standard_axioms Lms.Record.recording_plays_back
#only_standard_axioms Lms.Record.shown_at_its_time
#only_standard_axioms Lms.Record.tick_is_time
#only_standard_axioms Lms.Record.received_stream_not_written
#only_standard_axioms Lms.Record.init_files_describe
#only_standard_axioms Lms.Record.shown_late
#only_standard_axioms Lms.Record.unwritable_init_loses_pictures
#only_standard_axioms Lms.Record.ticks_defined
#only_standard_axioms Lms.Record.recording_succeeds
#only_standard_axioms Lms.Record.init_comes_first
#only_standard_axioms Lms.Record.segments_without_init
#only_standard_axioms Lms.Record.unwritable_only_matters_for_init
#only_standard_axioms Lms.RecordAudio.recording_plays_back
#only_standard_axioms Lms.RecordAudio.recording_follows_video
#only_standard_axioms Lms.RecordAudio.heard_at_its_time
#only_standard_axioms Lms.RecordAudio.init_describes
#only_standard_axioms Lms.RecordAudio.unwritable_loses_all
#only_standard_axioms Lms.RecordAudio.gap_closed_up
#only_standard_axioms Lms.RecordAudio.times_start_again
#only_standard_axioms Lms.RecordAudio.recording_with_video_succeeds
#only_standard_axioms Lms.RecordAudio.recording_alone_succeeds
#only_standard_axioms Lms.RecordAudio.ticks_defined
#only_standard_axioms Lms.Live.recording_can_be_followed
#only_standard_axioms Lms.Live.recording_goes_through
#only_standard_axioms Lms.Live.done_both
#only_standard_axioms Lms.Live.done_sound
#only_standard_axioms Lms.Flow.frames_flow_in_order
#only_standard_axioms Lms.Flow.frames_arrive_in_order
#only_standard_axioms Lms.Flow.no_frame_left_behind
#only_standard_axioms Lms.Flow.source_stays_scheduled
#only_standard_axioms Lms.Flow.path_at_rest_is_empty
#only_standard_axioms Lms.Flow.silent_path_drains
#only_standard_axioms Lms.Flow.run_processes_one_frame
#only_standard_axioms Lms.Flow.two_buffers_miscount
#only_standard_axioms Lms.Net.frames_flow_in_order
#only_standard_axioms Lms.Net.no_frame_left_behind
#only_standard_axioms Lms.Net.periodic_stays_scheduled
#only_standard_axioms Lms.Net.network_at_rest_is_empty
#only_standard_axioms Lms.Net.frame_found_is_handled
#only_standard_axioms Lms.Net.sharers_get_the_same_frames
#only_standard_axioms Lms.Net.only_the_ends_take_part
#only_standard_axioms Lms.Wired.connections_make_a_network
#only_standard_axioms Lms.Wired.network_exists
#only_standard_axioms Lms.Wired.connect_lets_frames_flow
#only_standard_axioms Lms.Wired.share_lets_both_have_the_frames
#only_standard_axioms Lms.Wired.disconnected_reader_gets_nothing
#only_standard_axioms Lms.Wired.disconnected_writer_gives_nothing
#only_standard_axioms Lms.LinkRace.careful_schedules_are_safe
#only_standard_axioms Lms.LinkRace.careful_answers_are_true
#only_standard_axioms Lms.LinkRace.connection_lasts
#only_standard_axioms Lms.LinkRace.queues_are_deleted_in_time
#only_standard_axioms Lms.LinkRace.rounds_get_frames
#only_standard_axioms Lms.LinkRace.next_round_cleans_up
#only_standard_axioms Lms.LinkRace.success_without_connection
#only_standard_axioms Lms.LinkRace.sync_round_in_connect
#only_standard_axioms Lms.LinkRace.round_before_flag
#only_standard_axioms Lms.LinkRace.round_between_looks
#only_standard_axioms Lms.LinkRace.cut_while_asking
#only_standard_axioms Lms.LinkRace.asking_while_cut
#only_standard_axioms Lms.LinkRace.writer_cut_while_writing
#only_standard_axioms Lms.LinkRace.reader_cut_while_reading
#only_standard_axioms Lms.LinkRace.reader_replaced_in_round
#only_standard_axioms Lms.Rewire.frames_flow_while_connections_change
#only_standard_axioms Lms.Rewire.no_frame_left_behind
#only_standard_axioms Lms.Rewire.periodic_stays_scheduled
#only_standard_axioms Lms.Rewire.frames_go_along_connections
#only_standard_axioms Lms.Rewire.connections_fit
#only_standard_axioms Lms.Rewire.changed_network_at_rest_is_empty
#only_standard_axioms Lms.Rewire.newcomer_not_woken
#only_standard_axioms Lms.Rewire.leaving_last_stalls
#only_standard_axioms Lms.Rewire.calls_are_changes
#only_standard_axioms Lms.Rewire.called_network_is_reached
#only_standard_axioms Lms.JsonTree.trees_are_values
#only_standard_axioms Lms.JsonTree.copy_is_independent
#only_standard_axioms Lms.JsonTree.added_is_found
#only_standard_axioms Lms.JsonTree.each_node_has_one_owner
#only_standard_axioms Lms.JsonTree.nothing_leaks
#only_standard_axioms Lms.JsonTree.references_stay
#only_standard_axioms Lms.JsonTree.removed_name_may_remain
#only_standard_axioms Lms.JsonTree.assigned_node_deleted_twice
#only_standard_axioms Lms.Retire.frames_flow_while_filters_go
#only_standard_axioms Lms.Retire.no_frame_left_behind
#only_standard_axioms Lms.Retire.periodic_stays_scheduled
#only_standard_axioms Lms.Retire.network_at_rest_is_empty
#only_standard_axioms Lms.Retire.deleted_filter_is_nowhere
#only_standard_axioms Lms.Retire.removed_stays_out
#only_standard_axioms Lms.Retire.removed_source_is_still_queued
#only_standard_axioms Lms.Retire.source_deleted_while_queued
#only_standard_axioms Lms.Retire.filter_deleted_too_soon
#only_standard_axioms Lms.Paths.path_calls_are_safe
#only_standard_axioms Lms.Paths.no_reader_given_twice
#only_standard_axioms Lms.Paths.connected_path_leads
#only_standard_axioms Lms.Paths.connecting_changes_only_the_path
#only_standard_axioms Lms.Paths.free_path_is_connected
#only_standard_axioms Lms.Paths.deleted_path_is_gone
#only_standard_axioms Lms.Paths.refused_deletion_cuts_the_end
#only_standard_axioms Lms.Paths.path_comes_and_goes
#only_standard_axioms Lms.Paths.deleted_filter_is_cut_from_others
#only_standard_axioms Lms.Paths.failed_path_stays_half_connected
#only_standard_axioms Lms.Paths.path_to_itself_hangs
#only_standard_axioms Lms.Paths.deleting_cuts_another_path
#only_standard_axioms Lms.Paths.rounds_change_nothing
#only_standard_axioms Lms.Paths.requests_are_safe
#only_standard_axioms Lms.Paths.connected_paths_stay
#only_standard_axioms Lms.Paths.no_stray_connections
#only_standard_axioms Lms.Paths.nothing_joined_without_paths
#only_standard_axioms Lms.Paths.removal_removes
#only_standard_axioms Lms.Paths.removing_failed_path_cuts_another
#only_standard_axioms Lms.Demux.Streams.reports_current
#only_standard_axioms Lms.Demux.Streams.connect_iff
#only_standard_axioms Lms.Demux.Streams.description_until_uri
#only_standard_axioms Lms.Demux.Streams.sound_described
#only_standard_axioms Lms.Demux.Streams.others_refused
#only_standard_axioms Lms.V4L.described_right_iff
#only_standard_axioms Lms.V4L.connects_iff
#only_standard_axioms Lms.V4L.stale_codec
#only_standard_axioms Lms.V4L.asked_format
#only_standard_axioms Lms.V4L.reported_asks_again_iff
