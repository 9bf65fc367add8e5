{
 "claims": [
  {
   "property": "C01",
   "status": "proved",
   "theorems": [
    "Alfalfa.C01_bool_coder_round_trip",
    "Alfalfa.C01_encoding_injective"
   ],
   "note": "All bit sequences, all probabilities 0..255, any length."
  },
  {
   "property": "C02",
   "status": "proved",
   "theorems": [
    "Alfalfa.C02_encoder_no_undefined_behaviour"
   ],
   "note": "none in the model marks every undefined operation of put/add_one_to_output; the theorem shows it never occurs."
  },
  {
   "property": "C03",
   "status": "proved",
   "theorems": [
    "Alfalfa.C03_decoder_total",
    "Alfalfa.C03_decoder_zero_padding"
   ],
   "note": "Arbitrary bytes and probabilities."
  },
  {
   "property": "C04",
   "status": "proved",
   "theorems": [
    "Alfalfa.C04_tree_round_trip",
    "Alfalfa.C04_tree_read_total"
   ],
   "note": ""
  },
  {
   "property": "C05",
   "status": "proved",
   "theorems": [
    "Alfalfa.C05_key_frame_header_round_trip",
    "Alfalfa.C05_inter_frame_header_round_trip"
   ],
   "note": ""
  },
  {
   "property": "C06",
   "status": "proved",
   "theorems": [
    "Alfalfa.C06_motion_vector_round_trip",
    "Alfalfa.C06_only_codable_vectors_are_read",
    "Alfalfa.C06_uncodable_vector_is_lost"
   ],
   "note": ""
  },
  {
   "property": "C07",
   "status": "proved",
   "theorems": [
    "Alfalfa.C07_token_round_trip",
    "Alfalfa.C07_large_coefficient_is_refused"
   ],
   "note": ""
  },
  {
   "property": "C08",
   "status": "proved",
   "theorems": [
    "Alfalfa.C08_key_macroblock_round_trip",
    "Alfalfa.C08_inter_macroblock_round_trip"
   ],
   "note": ""
  },
  {
   "property": "C09",
   "status": "proved",
   "theorems": [
    "Alfalfa.C09_key_frame_round_trip",
    "Alfalfa.C09_inter_frame_round_trip"
   ],
   "note": "Within the container length limits (first partition < 2^19 bytes, non-final coefficient partitions < 2^24 bytes); error concealment off."
  },
  {
   "property": "C10",
   "status": "proved",
   "theorems": [
    "Alfalfa.C10_container_round_trip",
    "Alfalfa.C10_oversize_first_partition_lost",
    "Alfalfa.C10_oversize_coefficient_partition_lost",
    "Alfalfa.C10_reference_update_needs_experimental"
   ],
   "note": "Round trip under the size limits; beyond them the lengths are truncated silently and the round trip is proved to fail."
  },
  {
   "property": "C100",
   "status": "partial",
   "theorems": [
    "Alfalfa.C100_old",
    "Alfalfa.C100_foreign_acknowledgement",
    "Alfalfa.C100_deaf",
    "Alfalfa.C100_deaf_between",
    "Alfalfa.C100_sender_deaf",
    "Alfalfa.C100_sender_starved",
    "Alfalfa.C100_sender_ended"
   ],
   "note": "Old packets and acknowledgements of other connections change nothing. The full statement is false of the code: a 23-byte datagram makes the receiver deaf or ends it, and one acknowledgement makes the sender deaf, starves it or ends it; each is proved for every state."
  },
  {
   "property": "C101",
   "status": "partial",
   "theorems": [
    "Alfalfa.C101_lines",
    "Alfalfa.C101_same_size",
    "Alfalfa.C101_reads",
    "Alfalfa.C101_larger",
    "Alfalfa.C101_smaller",
    "Alfalfa.C101_outside",
    "Alfalfa.C101_length_unnoticed",
    "Alfalfa.C101_hidden",
    "Alfalfa.C101_no_default"
   ],
   "note": "For two videos of one size there is one line for each pair of pictures with the measure of exactly those pictures. The full statement is false of the code: sizes and lengths are not compared, hidden pixels take part, there is no default format. The measure itself is a function of libx264 and a parameter here."
  },
  {
   "property": "C102",
   "status": "proved",
   "theorems": [
    "Alfalfa.C102_key_macroblocks",
    "Alfalfa.C102_inter_macroblocks",
    "Alfalfa.C102_sections",
    "Alfalfa.C102_success",
    "Alfalfa.C102_inside",
    "Alfalfa.C102_names",
    "Alfalfa.C102_no_number"
   ],
   "note": "For files and state files of one size. The number 2^64-1 selects all frames (C102_no_number). The layout of the lines is not modelled."
  },
  {
   "property": "C103",
   "status": "partial",
   "theorems": [
    "Alfalfa.C103_goes_on",
    "Alfalfa.C103_cut_short",
    "Alfalfa.C103_in_turn",
    "Alfalfa.C103_video_in_chunks",
    "Alfalfa.C103_unreadable_state",
    "Alfalfa.C103_wrong_size",
    "Alfalfa.C103_options",
    "Alfalfa.C103_index_wraps",
    "Alfalfa.C103_bundle",
    "Alfalfa.C103_segments",
    "Alfalfa.C103_segments_neutral",
    "Alfalfa.C103_segments_drift"
   ],
   "note": "For states with segments the claim fails: the encoder renders its frames with the segments that it keeps, a decoder without them (C103_segments), and the pictures differ (C103_segments_drift) unless segment 0 changes nothing (C103_segments_neutral). C103_bundle: the playback program refuses a chunk made from a dump after the chunk before it, unless the hashes of the decoder and of its restored copy agree."
  },
  {
   "property": "C104",
   "status": "proved",
   "theorems": [
    "Alfalfa.C104_serdes_test",
    "Alfalfa.C104_encode_loopback",
    "Alfalfa.C104_blind",
    "Alfalfa.C104_any_fields",
    "Alfalfa.C104_layout",
    "Alfalfa.C104_size"
   ],
   "note": "The layout is Spec/SaveLayout. C104_blind: the test would fail for a decoder with different pictures."
  },
  {
   "property": "C105",
   "status": "partial",
   "theorems": [
    "Alfalfa.C105_whole_or_refused",
    "Alfalfa.C105_other_length",
    "Alfalfa.C105_failure_keeps_file",
    "Alfalfa.C105_dump_partial",
    "Alfalfa.C105_success_without_file",
    "Alfalfa.C105_success_on_full_disk"
   ],
   "note": "Never misread, at every moment and for every failure; an error leaves the file alone. The last clause is false of the code: the dump program reports success when the file cannot be opened (the next program then goes on from the earlier state) and when the disk is full. The stream of the C++ library is taken to stop at its first failed call."
  },
  {
   "property": "C106",
   "status": "proved",
   "theorems": [
    "Alfalfa.C106_key_modes",
    "Alfalfa.C106_inter_modes",
    "Alfalfa.C106_named_vectors",
    "Alfalfa.C106_parts"
   ],
   "note": "The specification (Spec/ModeBits) writes every code word out, gives neighbours by their place in the picture and collects the vectors of the neighbours in a list; it shares with the model the constant probability tables, 16-bit vector arithmetic and the clamping of a vector, which C50 describes."
  },
  {
   "property": "C107",
   "status": "proved",
   "theorems": [
    "Alfalfa.C107_block",
    "Alfalfa.C107_macroblock"
   ],
   "note": "The specification (Spec/CoefficientBits) has the tokens written out, the zigzag order as a walk along the diagonals and the neighbours by place. The flags of the Y2 blocks above and to the left are arguments; which blocks these are is C57_y2_neighbours."
  },
  {
   "property": "C108",
   "status": "proved",
   "theorems": [
    "Alfalfa.C108_key_header",
    "Alfalfa.C108_inter_header"
   ],
   "note": "Against a separate specification (Spec/HeaderBits) written after RFC 6386 sections 9.2 to 9.11 and 19.2. The two constant tables of update probabilities are shared with the model; that they are the format's is trusted. Headers in range have colour space, clamping type and filter type 0, the only ones the decoder accepts."
  },
  {
   "property": "C109",
   "status": "proved",
   "theorems": [
    "Alfalfa.C109_frame_bytes",
    "Alfalfa.C109_reader",
    "Alfalfa.C109_accepted"
   ],
   "note": "Against a separate specification (Spec/FrameBytes) written after RFC 6386 sections 9.1, 9.5 and 19.1. Lengths that do not fit their fields are C10 and C68. The reader takes versions 0, 4 and 6 only."
  },
  {
   "property": "C11",
   "status": "proved",
   "theorems": [
    "Alfalfa.C11_partitions_are_sub_ranges",
    "Alfalfa.C11_coefficient_partitions_are_sub_ranges",
    "Alfalfa.C11_accepted_frame_start",
    "Alfalfa.C11_only_declared_failures"
   ],
   "note": "Every accepted byte string is header, first partition and remainder in order, and starts as the format prescribes."
  },
  {
   "property": "C110",
   "status": "proved",
   "theorems": [
    "Alfalfa.C110_reading",
    "Alfalfa.C110_writing"
   ],
   "note": "Against a separate specification (Spec/Arithmetic) written after RFC 6386 section 7: no registers, no carries, exact numbers. Strings that begin with 0xff lie outside every range (C56); C110_writing says that none of them is written."
  },
  {
   "property": "C111",
   "status": "proved",
   "theorems": [
    "Alfalfa.C111_key_frame",
    "Alfalfa.C111_inter_frame"
   ],
   "note": "Stated against Spec/WholeFrame.lean, which composes the specifications of C106-C110 and uses no part of the model's writer but the constant tables and the clamp of vectors (see Trusted base in DESIGN.md). The layout of partition sizes is that of C109; sizes too large for their fields are covered there."
  },
  {
   "property": "C112",
   "status": "proved",
   "theorems": [
    "Alfalfa.C112_key_frame",
    "Alfalfa.C112_inter_frame"
   ],
   "note": "Stated against Spec/ReadFrame.lean, which uses no part of the reader of the model but the constant tables and the clamp of vectors (see Trusted base in DESIGN.md). A first byte of 255 in a partition is left out: no encoder that follows the format makes one."
  },
  {
   "property": "C113",
   "status": "proved",
   "theorems": [
    "Alfalfa.C113_key_frame",
    "Alfalfa.C113_inter_frame",
    "Alfalfa.C113_streams"
   ],
   "note": "Holds for every renderer, since the frame and the decoder state are all it is given. Streams are related by Spec/SameFrame.lean: each inter frame is held with the tables of the decoder at that point."
  },
  {
   "property": "C114",
   "status": "proved",
   "theorems": [
    "Alfalfa.C114_emitted",
    "Alfalfa.C114_in_step"
   ],
   "note": "For encoders whose record has no segmentation, as in C17 (the code is out of step otherwise: C17_segmentation_out_of_step, C103). The length fields of the container bound the partitions (KeyEmittable, InterEmittable)."
  },
  {
   "property": "C12",
   "status": "proved",
   "theorems": [
    "Alfalfa.C12_key_frame_header_total",
    "Alfalfa.C12_inter_frame_header_total",
    "Alfalfa.C12_tokens_total",
    "Alfalfa.C12_key_macroblock_total",
    "Alfalfa.C12_inter_macroblock_total",
    "Alfalfa.C12_key_frame_total",
    "Alfalfa.C12_inter_frame_total"
   ],
   "note": "Error concealment off."
  },
  {
   "property": "C13",
   "status": "proved",
   "theorems": [
    "Alfalfa.C13_key_frame_tables",
    "Alfalfa.C13_inter_frame_tables"
   ],
   "note": "The tables used for parsing are specified in Spec/Decoder.lean independently of the model's update functions."
  },
  {
   "property": "C14",
   "status": "proved",
   "theorems": [
    "Alfalfa.C14_key_frame_resets"
   ],
   "note": "For every renderer of pictures and every continuation."
  },
  {
   "property": "C15",
   "status": "proved",
   "theorems": [
    "Alfalfa.C15_key_frame_references",
    "Alfalfa.C15_inter_frame_references",
    "Alfalfa.C15_exchange_is_not_simultaneous"
   ],
   "note": "Last theorem: the copies are not simultaneous."
  },
  {
   "property": "C16",
   "status": "partial",
   "theorems": [
    "Alfalfa.C16_save_restore_partial",
    "Alfalfa.C16_restores_exactly_iff"
   ],
   "note": "Only the last reference is saved; exact restoration holds iff golden and alternate equal it. Everything else is restored exactly."
  },
  {
   "property": "C17",
   "status": "proved",
   "theorems": [
    "Alfalfa.C17_each_frame_keeps_step",
    "Alfalfa.C17_encoder_decoder_in_step",
    "Alfalfa.C17_segmentation_out_of_step"
   ],
   "note": "For every renderer; third theorem: with segmentation in the state the claim fails."
  },
  {
   "property": "C18",
   "status": "partial",
   "theorems": [
    "Alfalfa.C18_rejected_frame_partial",
    "Alfalfa.C18_rejected_frame_leaves_usable",
    "Alfalfa.C18_any_history",
    "Alfalfa.C18_truncated_frame_changes_state"
   ],
   "note": "False when coefficient partitions are cut off (witness); unchanged in all other cases, and always usable with references intact."
  },
  {
   "property": "C19",
   "status": "partial",
   "theorems": [
    "Alfalfa.C19_hash_determines_decoder_partial",
    "Alfalfa.C19_mode_adjustments_not_hashed"
   ],
   "note": "The loop-filter adjustments by mode are not hashed; everything else is, under a collision-free mixing function."
  },
  {
   "property": "C20",
   "status": "proved",
   "theorems": [
    "Alfalfa.C20_packet_round_trip"
   ],
   "note": "every packet that is a fragment of a frame"
  },
  {
   "property": "C21",
   "status": "proved",
   "theorems": [
    "Alfalfa.C21_ack_round_trip"
   ],
   "note": "every acknowledgement whose fields fit"
  },
  {
   "property": "C22",
   "status": "proved",
   "theorems": [
    "Alfalfa.C22_packet_parser_safe",
    "Alfalfa.C22_ack_parser_safe"
   ],
   "note": "arbitrary bytes; an accepted packet is canonical; allocation of the announced number of states is not modelled"
  },
  {
   "property": "C23",
   "status": "proved",
   "theorems": [
    "Alfalfa.C23_fragmentation",
    "Alfalfa.C23_other_lengths"
   ],
   "note": "1 to 65535*1400 bytes; outside that range no packets are ever produced"
  },
  {
   "property": "C24",
   "status": "proved",
   "theorems": [
    "Alfalfa.C24_reassembly",
    "Alfalfa.C24_any_order"
   ],
   "note": "over the wire, any order, repetition, loss, and foreign or malformed packets in between; forged fragments of the same frame excluded"
  },
  {
   "property": "C25",
   "status": "proved",
   "theorems": [
    "Alfalfa.C25_partial_frame",
    "Alfalfa.C24_any_order"
   ],
   "note": "exactly the bytes before the first missing fragment"
  },
  {
   "property": "C26",
   "status": "proved",
   "theorems": [
    "Alfalfa.C26_foreign_packet_refused",
    "Alfalfa.C26_assembly_holds",
    "Alfalfa.C26_foreign_connection"
   ],
   "note": "per packet and over any reception"
  },
  {
   "property": "C27",
   "status": "proved",
   "theorems": [
    "Alfalfa.C27_receiver_monotone",
    "Alfalfa.C27_old_packet",
    "Alfalfa.C27_handed_bytes"
   ],
   "note": "For every sequence of datagrams and every decoder; C27_handed_bytes adds that the bytes handed over are a prefix of the frame sent, for datagrams that are not forged."
  },
  {
   "property": "C28",
   "status": "partial",
   "theorems": [
    "Alfalfa.C28_acknowledgement",
    "Alfalfa.C28_advertised_states_available_partial",
    "Alfalfa.C28_decodes_against_source_partial",
    "Alfalfa.C28_readvertised_state_lost",
    "Alfalfa.C28_wrong_decoder_used",
    "Alfalfa.C28_assertion_reachable"
   ],
   "note": "Proved for every sequence of datagrams along which no state is advertised twice at a time. Without that the property is false of the code: C28_readvertised_state_lost."
  },
  {
   "property": "C29",
   "status": "partial",
   "theorems": [
    "Alfalfa.C29_source_encoder_found_partial",
    "Alfalfa.C29_reordered_acknowledgements_end_sender",
    "Alfalfa.C29_initial_encoder_erased"
   ],
   "note": "Proved for the composition of sender, receiver and a network that loses, duplicates and reorders data packets and loses acknowledgements; false when acknowledgements overtake each other (witness) or hashes collide (witness)."
  },
  {
   "property": "C30",
   "status": "proved",
   "theorems": [
    "Alfalfa.C30_size_control",
    "Alfalfa.C30_skips_bounded",
    "Alfalfa.C30_budget",
    "Alfalfa.C30_budget_in_session"
   ],
   "note": "Size control per encode, at most the bound of consecutive skips over every history, and the budget in closed form."
  },
  {
   "property": "C31",
   "status": "proved",
   "theorems": [
    "Alfalfa.C31_sequence_number",
    "Alfalfa.C31_acknowledgements_in_order",
    "Alfalfa.C31_monotone"
   ],
   "note": "Over every history of frames and acknowledgements."
  },
  {
   "property": "C32",
   "status": "partial",
   "theorems": [
    "Alfalfa.C32_pacer_order",
    "Alfalfa.C32_pacer_spacing",
    "Alfalfa.C32_due_times_sorted",
    "Alfalfa.C32_send_due",
    "Alfalfa.C32_wait_partial",
    "Alfalfa.C32_head_sent_early"
   ],
   "note": "Order, spacing and due times as stated. The reported wait is zero when the head is due within less than a millisecond, so the last clause is false as stated (C32_head_sent_early)."
  },
  {
   "property": "C33",
   "status": "proved",
   "theorems": [
    "Alfalfa.C33_reads_layout",
    "Alfalfa.C33_round_trip",
    "Alfalfa.C33_writes_layout",
    "Alfalfa.C33_offset",
    "Alfalfa.C33_long_frame_is_cut"
   ],
   "note": "Frames of 2^32 bytes or more are cut (witness for every such frame); the property excludes them."
  },
  {
   "property": "C34",
   "status": "partial",
   "theorems": [
    "Alfalfa.C34_safe_on_any_bytes_partial",
    "Alfalfa.C34_last_frame_may_be_missing"
   ],
   "note": "The last frame may reach past the end of the file; it is refused only when read."
  },
  {
   "property": "C35",
   "status": "proved",
   "theorems": [
    "Alfalfa.C35_view",
    "Alfalfa.C35_padded"
   ],
   "note": "For every picture and all coordinates; outside of the margin of the padded copy there is nothing to read."
  },
  {
   "property": "C36",
   "status": "proved",
   "theorems": [
    "Alfalfa.C36_inter_prediction",
    "Alfalfa.C36_paths_agree",
    "Alfalfa.C36_only_inside"
   ],
   "note": "Portable versions of the filter functions; the SSE ones are not modelled (C37_skipped_pass covers the pass they leave out)."
  },
  {
   "property": "C37",
   "status": "proved",
   "theorems": [
    "Alfalfa.C37_whole_pixel",
    "Alfalfa.C37_constant",
    "Alfalfa.C37_range",
    "Alfalfa.C37_skipped_pass"
   ],
   "note": ""
  },
  {
   "property": "C38",
   "status": "proved",
   "theorems": [
    "Alfalfa.C38_luma",
    "Alfalfa.C38_chroma",
    "Alfalfa.C38_subblock",
    "Alfalfa.C38_range_whole",
    "Alfalfa.C38_range_sub",
    "Alfalfa.C38_range_edge",
    "Alfalfa.C38_flat_whole",
    "Alfalfa.C38_flat_sub"
   ],
   "note": "Every mode, block and picture against a geometric description of the format; portable versions of the functions."
  },
  {
   "property": "C39",
   "status": "proved",
   "theorems": [
    "Alfalfa.C39_lines",
    "Alfalfa.C39_range",
    "Alfalfa.C39_unfiltered",
    "Alfalfa.C39_reach",
    "Alfalfa.C39_flat",
    "Alfalfa.C39_macroblock",
    "Alfalfa.C39_flat_picture",
    "Alfalfa.C39_frame",
    "Alfalfa.C39_level_zero"
   ],
   "note": "The whole loop filter of a macroblock and of a frame is proved equal to the format's."
  },
  {
   "property": "C40",
   "status": "partial",
   "theorems": [
    "Alfalfa.C40_strength",
    "Alfalfa.C40_adjust_partial",
    "Alfalfa.C40_adjust_deviation",
    "Alfalfa.C40_no_adjustments"
   ],
   "note": "False in full for segments with levels outside 0..63: C40_adjust_deviation."
  },
  {
   "property": "C41",
   "status": "proved",
   "theorems": [
    "Alfalfa.C41_idct",
    "Alfalfa.C41_iwht",
    "Alfalfa.C41_idct_dc",
    "Alfalfa.C41_iwht_dc",
    "Alfalfa.C41_idct_range",
    "Alfalfa.C41_iwht_range",
    "Alfalfa.C41_idct_overflow",
    "Alfalfa.C41_forward_range",
    "Alfalfa.C41_encoder",
    "Alfalfa.C41_encoder_walsh"
   ],
   "note": "C41_idct_overflow: coefficients out of range do overflow the 16-bit intermediates."
  },
  {
   "property": "C42",
   "status": "proved",
   "theorems": [
    "Alfalfa.C42_error",
    "Alfalfa.C42_kinds",
    "Alfalfa.C42_dequantize_overflow"
   ],
   "note": ""
  },
  {
   "property": "C43",
   "status": "partial",
   "theorems": [
    "Alfalfa.C43_quantizer",
    "Alfalfa.C43_range",
    "Alfalfa.C43_segment_partial",
    "Alfalfa.C43_segment_deviation",
    "Alfalfa.C43_segment_total"
   ],
   "note": "False in full: a negative segment index is taken as 127, C43_segment_deviation."
  },
  {
   "property": "C44",
   "status": "proved",
   "theorems": [
    "Alfalfa.C44_probability",
    "Alfalfa.C44_value",
    "Alfalfa.C44_large_counts",
    "Alfalfa.C44_counter_overflow",
    "Alfalfa.C44_total",
    "Alfalfa.C44_table",
    "Alfalfa.C44_stale_update_wins",
    "Alfalfa.C44_skip",
    "Alfalfa.C44_references"
   ],
   "note": "counts whose sum fits 32 bits; an update left in the header by an earlier picture is sent again (C44_stale_update_wins); coding with any probability is C01"
  },
  {
   "property": "C45",
   "status": "proved",
   "theorems": [
    "Alfalfa.C45_tested",
    "Alfalfa.C45_window",
    "Alfalfa.C45_best_quality",
    "Alfalfa.C45_empty_window"
   ],
   "note": "for every estimate function; if the frame before had an index of 144 or more (only encode_with_quantizer can do that) the window is empty"
  },
  {
   "property": "C46",
   "status": "partial",
   "theorems": [
    "Alfalfa.C46_search",
    "Alfalfa.C46_ignores_quality",
    "Alfalfa.C46_not_coarsest",
    "Alfalfa.C46_reaches_minimum_partial"
   ],
   "note": "false of the code: the quality is never measured; what holds is proved"
  },
  {
   "property": "C47",
   "status": "proved",
   "theorems": [
    "Alfalfa.C47_near",
    "Alfalfa.C47_total",
    "Alfalfa.C47_bound_needed",
    "Alfalfa.C47_reset"
   ],
   "note": "for every cost table"
  },
  {
   "property": "C48",
   "status": "proved",
   "theorems": [
    "Alfalfa.C48_addressing",
    "Alfalfa.C48_write",
    "Alfalfa.C48_build",
    "Alfalfa.C48_visits",
    "Alfalfa.C48_equals",
    "Alfalfa.C48_copy",
    "Alfalfa.C48_macroblock_neighbours",
    "Alfalfa.C48_luma_neighbours",
    "Alfalfa.C48_chroma_neighbours_read",
    "Alfalfa.C48_chroma_neighbours_write"
   ],
   "note": "For every buffer whose size fits 32-bit arithmetic. The last four tie the neighbours used in the frame and macroblock models to the grid."
  },
  {
   "property": "C49",
   "status": "proved",
   "theorems": [
    "Alfalfa.C49_as_values",
    "Alfalfa.C49_safe",
    "Alfalfa.C49_no_aliases",
    "Alfalfa.C49_frozen_is_constant",
    "Alfalfa.C49_one_size_never_refused",
    "Alfalfa.C49_mutable_hash_is_stale",
    "Alfalfa.C49_other_size_refused"
   ],
   "note": "Refinement of the pool to a world in which pictures are values. Hashing a picture that can still be written to is excluded: it leaves a stale hash (C49_mutable_hash_is_stale)."
  },
  {
   "property": "C50",
   "status": "proved",
   "theorems": [
    "Alfalfa.C50_mode_contexts_in_range",
    "Alfalfa.C50_clamped_within_overhang",
    "Alfalfa.C50_clamp_keeps",
    "Alfalfa.C50_clamp_nearest"
   ],
   "note": ""
  },
  {
   "property": "C51",
   "status": "proved",
   "theorems": [
    "Alfalfa.C51_header",
    "Alfalfa.C51_open_size",
    "Alfalfa.C51_stays_in_picture",
    "Alfalfa.C51_next_frame",
    "Alfalfa.C51_round_trip",
    "Alfalfa.C51_odd_width_shows_old_chroma",
    "Alfalfa.C51_odd_size_misread",
    "Alfalfa.C51_odd_depends_on_pool"
   ],
   "note": "Files of any number of pictures of one even size, any content, any former content of the pictures of the pool; headers; every other input gives an error, the end or a picture whose pixels are given. Odd sizes: proved that files of more than one picture are misread and that stale chroma is shown. Not modelled: failures of system calls."
  },
  {
   "property": "C52",
   "status": "proved",
   "theorems": [
    "Alfalfa.C52_terminated_chunk",
    "Alfalfa.C52_same_pictures",
    "Alfalfa.C68_lengths_fit"
   ],
   "note": "for frames whose partitions fit the length fields of the container, which is so for all frames of pictures of up to 1200 macroblocks (C68_lengths_fit)"
  },
  {
   "property": "C53",
   "status": "proved",
   "theorems": [
    "Alfalfa.C53_merge"
   ],
   "note": ""
  },
  {
   "property": "C54",
   "status": "proved",
   "theorems": [
    "Alfalfa.C54_runs_only_ready",
    "Alfalfa.C54_outcome",
    "Alfalfa.C54_actions",
    "Alfalfa.C54_cancelled_never_runs_again",
    "Alfalfa.C54_interest_may_be_gone",
    "Alfalfa.C54_cancelled_descriptor_ends_loop"
   ],
   "note": "Any program state, callbacks, interest functions and answers of the system. Interest is what it was at the beginning of the poll (C54_interest_may_be_gone), and a cancelled descriptor that fails still ends the loop (C54_cancelled_descriptor_ends_loop)."
  },
  {
   "property": "C55",
   "status": "proved",
   "theorems": [
    "Alfalfa.C55_opens_at_first_key_frame",
    "Alfalfa.C55_shows_every_shown_frame",
    "Alfalfa.C55_playback",
    "Alfalfa.C55_reel_of_sound_stream",
    "Alfalfa.C55_resumes",
    "Alfalfa.C55_damaged_start_refused"
   ],
   "note": "the exceptions, a file that ends with hidden frames and a damaged frame before the first key frame, are part of the statement"
  },
  {
   "property": "C56",
   "status": "partial",
   "theorems": [
    "Alfalfa.C56_value_in_range_partial",
    "Alfalfa.C56_value_out_of_range"
   ],
   "note": "False of the code when the first byte is 0xff (witness proved); proved for every other input."
  },
  {
   "property": "C57",
   "status": "proved",
   "theorems": [
    "Alfalfa.C57_y2_neighbours"
   ],
   "note": ""
  },
  {
   "property": "C58",
   "status": "partial",
   "theorems": [
    "Alfalfa.C58_inter_frame_segmentation",
    "Alfalfa.C58_key_frame_segmentation",
    "Alfalfa.C58_filter_adjustments_partial",
    "Alfalfa.C58_unsent_adjustments_are_lost"
   ],
   "note": "Segmentation proved in full. Loop-filter adjustments that are not sent are reset to zero instead of kept (witness)."
  },
  {
   "property": "C59",
   "status": "partial",
   "theorems": [
    "Alfalfa.C59_survives_genuine_partial",
    "Alfalfa.C59_malformed_datagram_ends_receiver",
    "Alfalfa.C59_foreign_packet_ends_receiver"
   ],
   "note": "False of the code for arbitrary datagrams (the two negative theorems). Proved for packets that were sent, if decoding does not throw and the source state is advertised."
  },
  {
   "property": "C60",
   "status": "partial",
   "theorems": [
    "Alfalfa.C60_neither_side_ends_partial",
    "Alfalfa.C60_advertised_states_partial",
    "Alfalfa.C60_codec_neither_side_ends_partial",
    "Alfalfa.C60_zero_delay_ends_conventional_sender",
    "Alfalfa.C60_lost_zeros_end_receiver"
   ],
   "note": "Acknowledgements may be lost but not overtake each other; hashes of distinct states are taken to be distinct; the mode conventional divides by a reported delay of zero (witness). C60_codec_neither_side_ends_partial is about the encoder and decoder of this program, without assumptions about them. C60_lost_zeros_end_receiver: if the packets of a frame that are lost hold only zero bytes, the receiver is in the state after the frame without listing it, and the next frame makes its assertion fail."
  },
  {
   "property": "C61",
   "status": "proved",
   "theorems": [
    "Alfalfa.C61_readable_when_interrupted"
   ],
   "note": ""
  },
  {
   "property": "C62",
   "status": "proved",
   "theorems": [
    "Alfalfa.C62_quantizers"
   ],
   "note": ""
  },
  {
   "property": "C63",
   "status": "proved",
   "theorems": [
    "Alfalfa.C63_key_frame",
    "Alfalfa.C63_inter_frame",
    "Alfalfa.C63_renderer",
    "Alfalfa.C63_decoder"
   ],
   "note": "Model/Render follows Frame::decode and Frame::loopfilter function by function; totality and independence of the scratch buffer."
  },
  {
   "property": "C64",
   "status": "partial",
   "theorems": [
    "Alfalfa.C64_key_frame_partial",
    "Alfalfa.C64_inter_frame_partial"
   ],
   "note": "Equations, their unique solution, and the loop filter. Missing: frames outside WithinRange, where the code deviates (C40_adjust_deviation, C41_idct_overflow, C43_segment_deviation)."
  },
  {
   "property": "C65",
   "status": "proved",
   "theorems": [
    "Alfalfa.C65_level"
   ],
   "note": "qualities are elements of any linear order, above the initial -1"
  },
  {
   "property": "C66",
   "status": "partial",
   "theorems": [
    "Alfalfa.C66_search",
    "Alfalfa.C66_costs",
    "Alfalfa.C66_prediction",
    "Alfalfa.C66_neighbours",
    "Alfalfa.C66_wide"
   ],
   "note": "Search, cost tables and neighbour vectors without restriction; the new vector for pictures of up to 3968 pixels each way. C66_wide: beyond that the sum of vector and difference wraps and the encoder reads outside the padded copy."
  },
  {
   "property": "C67",
   "status": "proved",
   "theorems": [
    "Alfalfa.C67_key",
    "Alfalfa.C67_inter"
   ],
   "note": "Decisions that depend on costs and floating point are arguments with any values; a search for new vectors is in pictures of at most 3968 pixels each way (C66_wide)."
  },
  {
   "property": "C68",
   "status": "proved",
   "theorems": [
    "Alfalfa.C68_key",
    "Alfalfa.C68_inter",
    "Alfalfa.C68_coefficients",
    "Alfalfa.C68_fits",
    "Alfalfa.C68_lengths_fit"
   ],
   "note": ""
  },
  {
   "property": "C69",
   "status": "proved",
   "theorems": [
    "Alfalfa.C69_in_step",
    "Alfalfa.C69_create",
    "Alfalfa.C69_scaling",
    "Alfalfa.C69_index",
    "Alfalfa.C69_wide_index"
   ],
   "note": "Indices 128..254, which the API accepts, cannot be carried by the format: C69_wide_index. Encoders for pictures narrower or lower than 4 pixels cannot be made: C69_create."
  },
  {
   "property": "C70",
   "status": "partial",
   "theorems": [
    "Alfalfa.C70_shrinks_partial",
    "Alfalfa.C70_sub_partial",
    "Alfalfa.C70_stale_type",
    "Alfalfa.C70_stale_dc"
   ],
   "note": "False for blocks of macroblocks with separate block modes that had a Y2 block in the first pass: their DC coefficient is sent without being quantized (C70_stale_type)."
  },
  {
   "property": "C71",
   "status": "proved",
   "theorems": [
    "Alfalfa.C71_off",
    "Alfalfa.C71_whole_frames",
    "Alfalfa.C71_missing_data_are_zeros",
    "Alfalfa.C71_rejected_only_if_partitioned",
    "Alfalfa.C71_no_macroblock_concealed",
    "Alfalfa.C71_any_data",
    "Alfalfa.C71_any_history",
    "Alfalfa.C71_key_frame_repairs",
    "Alfalfa.C71_no_header_gray",
    "Alfalfa.C71_last_picture_not_repeated",
    "Alfalfa.C71_beginning_accepted"
   ],
   "note": "The concealment branches of the macroblock parser are dead code because the completeness flag is passed inverted (C71_no_macroblock_concealed), so lost parts become intra-coded gray rather than copies of the last picture (C71_last_picture_not_repeated)."
  },
  {
   "property": "C72",
   "status": "proved",
   "theorems": [
    "Alfalfa.C72_what_is_sent",
    "Alfalfa.C72_complete_frame_shown",
    "Alfalfa.C72_first_frames_shown",
    "Alfalfa.C72_arriving_frame_shown",
    "Alfalfa.C72_delivered_frame_shown",
    "Alfalfa.C72_kept_states",
    "Alfalfa.C72_decoder_accepts"
   ],
   "note": "The hash of a decoder is any function to 32-bit numbers; NoCollision says that it tells the receiver's decoders from the states the frames lead to. Encoders are those of salsify (encode with a quantizer); the picture sizes are those for which the encoder's frames fit the container."
  },
  {
   "property": "C73",
   "status": "partial",
   "theorems": [
    "Alfalfa.C73_conservative_source_kept_partial",
    "Alfalfa.C73_conservative_frame_misdecoded"
   ],
   "note": "The receiver keeps the state unless it has decoded a frame from a newer one; that this does happen, and that the frame is then decoded in a wrong state, is the witness C73_conservative_frame_misdecoded (an acknowledgement that is under way while the conservative time ends)."
  },
  {
   "property": "C74",
   "status": "partial",
   "theorems": [
    "Alfalfa.C74_reencode",
    "Alfalfa.C74_saved_state_restores",
    "Alfalfa.C74_any_chunks",
    "Alfalfa.C74_chunk_read",
    "Alfalfa.C74_program",
    "Alfalfa.C74_refused",
    "Alfalfa.C74_hidden_frame_shown",
    "Alfalfa.C74_segments_lost"
   ],
   "note": "Proved for chunks that say nothing of segments, in states without segmentation. The code does not keep the show flag of inter frames (C74_hidden_frame_shown: a hidden frame becomes a shown one) and drops the segment of each macroblock while it keeps the header that announces them (C74_segments_lost: no decoder can read such a frame back)."
  },
  {
   "property": "C75",
   "status": "proved",
   "theorems": [
    "Alfalfa.C75_key",
    "Alfalfa.C75_inter",
    "Alfalfa.C75_reencoded",
    "Alfalfa.C75_key_shown",
    "Alfalfa.C75_inter_shown",
    "Alfalfa.C75_figures"
   ],
   "note": "In one pass, or in two: the coefficient search moves each coefficient by at most one step and may drop a second-order block of small sum, so with a second pass the bound holds with doubled steps (`effective`). Excluded (`TypesKept`): macroblocks that only the second pass predicts in sixteen blocks, for which the statement is false: a DC coefficient is sent that is not divided by its step (C70_stale_type, a pixel of 200 becomes 255)."
  },
  {
   "property": "C76",
   "status": "proved",
   "theorems": [
    "Alfalfa.C76_filter_reach",
    "Alfalfa.C76_always",
    "Alfalfa.C76_figures",
    "Alfalfa.C76_encoder"
   ],
   "note": "The simple filter is refused by the parser, so the normal one is meant."
  },
  {
   "property": "C77",
   "status": "proved",
   "theorems": [
    "Alfalfa.C77_calls",
    "Alfalfa.C77_viewer",
    "Alfalfa.C77_delivered"
   ],
   "note": "Bound: luma/chroma figure of the quantizer (C75) plus 54 for any loop filter (C76). The first frame may take two passes; its steps then count twice, and the second pass must not turn a macroblock into sixteen separate blocks (with that a key frame may be far off, see C70)."
  },
  {
   "property": "C78",
   "status": "proved",
   "theorems": [
    "Alfalfa.C78_raw_video",
    "Alfalfa.C78_compressed_video"
   ],
   "note": "Whole programs: bytes in, bytes out. Two-pass key frames whose second pass changes the type of a macroblock are excluded (C70 shows why) and so are odd sizes, which the reader of raw video misreads (C51_odd_size_misread). The frame rate and aspect ratio of the input are not kept: the output always says 24 and 1:1, which the theorem shows."
  },
  {
   "property": "C79",
   "status": "proved",
   "theorems": [
    "Alfalfa.C79_bundle",
    "Alfalfa.C79_cut_anywhere",
    "Alfalfa.C79_as_merged",
    "Alfalfa.C79_dump",
    "Alfalfa.C79_resume",
    "Alfalfa.C79_unfinished_line_ignored"
   ],
   "note": "Going on from a saved state needs the three references to be one picture at that point (the state file has only one, C16). Deviation proved: a last line without a line feed is ignored silently."
  },
  {
   "property": "C80",
   "status": "partial",
   "theorems": [
    "Alfalfa.C80_safe",
    "Alfalfa.C80_picture_partial",
    "Alfalfa.C80_other_widths",
    "Alfalfa.C80_first_jpeg",
    "Alfalfa.C80_in_order",
    "Alfalfa.C80_order_assumed"
   ],
   "note": "C80_safe: no whole image of any size makes the program write outside the picture. C80_picture_partial: the picture is the image if the width is a multiple of 16 and the height is even. The full statement is false of the code: for every other width the rows of the image are not where the rows of the picture are, and the last pixel is stale memory (C80_other_widths); the first motion-JPEG picture is stale memory too (C80_first_jpeg). C80_in_order: for every interleaving, frames come in the order of capture, given a driver that returns the buffers in the order in which it was given them; the code ignores the index that the driver returns (C80_order_assumed)."
  },
  {
   "property": "C81",
   "status": "proved",
   "theorems": [
    "Alfalfa.C81_played",
    "Alfalfa.C81_cut_off"
   ],
   "note": "C81_played: for even sizes and every previous content of the recycled pictures, the output is one header and the frames of the file byte for byte, and there is no exception. C81_cut_off: whatever follows the whole frames, the output begins with them. Waiting between the frames is not modelled."
  },
  {
   "property": "C82",
   "status": "partial",
   "theorems": [
    "Alfalfa.C82_bits",
    "Alfalfa.C82_modes",
    "Alfalfa.C82_vectors",
    "Alfalfa.C82_block",
    "Alfalfa.C82_search_partial",
    "Alfalfa.C82_search_ignores",
    "Alfalfa.C82_multipliers"
   ],
   "note": "bits, modes, vectors and blocks as stated (a one is priced as a zero of probability 255 - p, where 256 - p would be exact); the search counts the exact price of the bits, but not the errors of places after the first one that is dropped: C82_search_ignores shows a block for which it therefore returns the costlier one"
  },
  {
   "property": "C83",
   "status": "partial",
   "theorems": [
    "Alfalfa.C83_without_residues",
    "Alfalfa.C83_accepts_iff"
   ],
   "note": "What the program writes is proved to say the same but for residues, for all files. That it accepts every readable file is false: C83_accepts_iff says that it refuses exactly the files with an inter frame that has no skip probability."
  },
  {
   "property": "C84",
   "status": "partial",
   "theorems": [
    "Alfalfa.C84_copy",
    "Alfalfa.C84_compare",
    "Alfalfa.C84_copy_loses_hash",
    "Alfalfa.C84_extract",
    "Alfalfa.C84_sizes",
    "Alfalfa.C84_roundtrip_accepts",
    "Alfalfa.C84_roundtrip_passed",
    "Alfalfa.C84_rewritten_stable"
   ],
   "note": "All five tools, for all files. Copying and comparing are as stated but for one field: the expected hash of the decoder state is not copied and not compared (C84_copy_loses_hash)."
  },
  {
   "property": "C85",
   "status": "partial",
   "theorems": [
    "Alfalfa.C85_sad",
    "Alfalfa.C85_sse",
    "Alfalfa.C85_variance",
    "Alfalfa.C85_dequantize",
    "Alfalfa.C85_subtractDct",
    "Alfalfa.C85_wht",
    "Alfalfa.C85_iwht_partial",
    "Alfalfa.C85_idct_partial",
    "Alfalfa.C85_encoder",
    "Alfalfa.C85_encoder_walsh",
    "Alfalfa.C85_iwht_differs",
    "Alfalfa.C85_idct_differs",
    "Alfalfa.C85_inter",
    "Alfalfa.C85_inter_block",
    "Alfalfa.C85_inter_four",
    "Alfalfa.C85_inter_past_end",
    "Alfalfa.C85_search",
    "Alfalfa.C85_intra",
    "Alfalfa.C85_loopFilter",
    "Alfalfa.C85_key_frame_partial",
    "Alfalfa.C85_inter_frame_partial",
    "Alfalfa.C85_decoder_partial",
    "Alfalfa.C85_run_partial",
    "Alfalfa.C85_reencoded_partial"
   ],
   "note": "The inverse transforms of the vector code wrap at 16 bits where the portable code does not; proved equal where the sums fit, for single blocks and for whole frames and runs of frames, with witnesses for the difference. The filter for blocks of four reads past the end of the picture at its lower right corner (witness), so frames with such blocks are excluded."
  },
  {
   "property": "C86",
   "status": "proved",
   "theorems": [
    "Alfalfa.C86_key",
    "Alfalfa.C86_inter",
    "Alfalfa.C86_encoder_key",
    "Alfalfa.C86_encoder_inter"
   ],
   "note": "Key frames in one or two passes; in two passes no macroblock may be predicted in sixteen blocks by the second pass only (for those C70 shows that DC coefficients are sent unquantized)."
  },
  {
   "property": "C87",
   "status": "proved",
   "theorems": [
    "Alfalfa.C87_key",
    "Alfalfa.C87_inter",
    "Alfalfa.C87_estimate",
    "Alfalfa.C87_samples",
    "Alfalfa.C87_size",
    "Alfalfa.C87_calls",
    "Alfalfa.C87_in_step"
   ],
   "note": "the modes the estimate chooses by cost are parameters, as in C67; key_frame and inter frame estimates each read back by the parser of a decoder of a quarter of the width and height; encode_with_target_size throws on pictures narrower or lower than 4 pixels already when the encoder is created"
  },
  {
   "property": "C88",
   "status": "partial",
   "theorems": [
    "Alfalfa.C88_compare",
    "Alfalfa.C88_compare_same_picture",
    "Alfalfa.C88_diff_partial",
    "Alfalfa.C88_agree",
    "Alfalfa.C88_golden_not_compared",
    "Alfalfa.C88_large_files_called_same"
   ],
   "note": "violated by the code: decoders that differ in the golden or alternate picture only are called the same (C88_golden_not_compared); files that differ by 4 GiB in length may be called the same (C88_large_files_called_same). Proved for everything that is in the files, files below 256 MiB for comp-states; the quotients that comp-states prints are given by their operands"
  },
  {
   "property": "C89",
   "status": "partial",
   "theorems": [
    "Alfalfa.C89_values_partial",
    "Alfalfa.C89_lifetimes_partial",
    "Alfalfa.C89_self_assignment",
    "Alfalfa.C89_self_reset",
    "Alfalfa.C89_throwing_assignment"
   ],
   "note": "violated by the code for self-assignment, for reset with the own value, and for a constructor that throws in an assignment (witnesses); proved for all other uses. Overload resolution (the FIXME in the source) is not modelled"
  },
  {
   "property": "C90",
   "status": "proved",
   "theorems": [
    "Alfalfa.C90_read_exactly",
    "Alfalfa.C90_getline",
    "Alfalfa.C90_pieces_do_not_matter",
    "Alfalfa.C90_write_chunk",
    "Alfalfa.C90_write_text",
    "Alfalfa.C90_both_ends",
    "Alfalfa.C90_empty_read_ends",
    "Alfalfa.C90_empty_text"
   ],
   "note": "For every sequence of answers of the system. Numbers of bytes beyond the range of int are not modelled: the system moves less than 2^31 bytes at a time. C90_pieces_do_not_matter connects to the model of raw video, in which files are read without pieces."
  },
  {
   "property": "C91",
   "status": "partial",
   "theorems": [
    "Alfalfa.C91_owners_partial",
    "Alfalfa.C91_standard_input_closed_twice",
    "Alfalfa.C91_file_of_another_closed"
   ],
   "note": "Proved for programs that take over each of the numbers they were started with at most once. The code violates the full statement: the re-encoder takes standard input over twice if it also reads its video from it, and ends in a destructor. Descriptors made from a FILE * are not modelled."
  },
  {
   "property": "C92",
   "status": "partial",
   "theorems": [
    "Alfalfa.C92_no_race_partial",
    "Alfalfa.C92_goes_on",
    "Alfalfa.C92_rounds",
    "Alfalfa.C92_error_ends_under_worker"
   ],
   "note": "For every interleaving without a connection error. Missing, and false of the code: the same with a connection error, see C92_error_ends_under_worker."
  },
  {
   "property": "C93",
   "status": "partial",
   "theorems": [
    "Alfalfa.C93_delay_partial",
    "Alfalfa.C93_delay_double_partial",
    "Alfalfa.C93_first_is_zero",
    "Alfalfa.C93_encoding_time",
    "Alfalfa.C93_encoding_time_double",
    "Alfalfa.C93_clock_set_back",
    "Alfalfa.C93_long_silence"
   ],
   "note": "For times that do not go backwards and gaps below 2^32 microseconds, for every rounding that keeps order, zero and relative error, and for the rounding of IEEE 754 binary64 defined in Spec/Double.lean. Missing, and false of the code: the same for any times (C93_clock_set_back, C93_long_silence)."
  },
  {
   "property": "C94",
   "status": "partial",
   "theorems": [
    "Alfalfa.C94_same_pictures_partial",
    "Alfalfa.C94_bytes_differ"
   ],
   "note": "For encoders that make the same choices. Missing, and false of the code: that the bytes are the same too, see C94_bytes_differ; and that the choices do not depend on the recycled frames, which is not modelled."
  },
  {
   "property": "C95",
   "status": "partial",
   "theorems": [
    "Alfalfa.C95_block",
    "Alfalfa.C95_frame_partial",
    "Alfalfa.C95_key",
    "Alfalfa.C95_inter",
    "Alfalfa.C95_no_overflow",
    "Alfalfa.C95_second_order_ignored",
    "Alfalfa.C95_skipped_counted"
   ],
   "note": "For every block the branches counted are those written. For frames: exactly those of the Y, U and V blocks of all macroblocks; the encoder of C67 run with the counts of its own frame succeeds. Not as stated: Y2 blocks are never counted and macroblocks that are skipped in the end are counted (both proved)."
  },
  {
   "property": "C96",
   "status": "partial",
   "theorems": [
    "Alfalfa.Mapped.C96_part_partial",
    "Alfalfa.Mapped.C96_part_wraps",
    "Alfalfa.Mapped.C96_rest",
    "Alfalfa.Mapped.C96_number",
    "Alfalfa.Mapped.C96_bits_partial",
    "Alfalfa.Mapped.C96_bits_undefined",
    "Alfalfa.Mapped.C96_file_partial",
    "Alfalfa.Mapped.C96_released",
    "Alfalfa.Mapped.C96_empty",
    "Alfalfa.Mapped.C96_shortened",
    "Alfalfa.Mapped.C96_moved_from"
   ],
   "note": "Proved for parts whose end is a 64-bit number, groups of at most 30 bits among the first 32, and files that are not made shorter. Not as stated: the bounds check of a part wraps around; wider groups of bits have no defined behaviour; a file that is made shorter ends the program; the chunk of an object moved from dangles (all proved)."
  },
  {
   "property": "C97",
   "status": "partial",
   "theorems": [
    "Alfalfa.C97_whole",
    "Alfalfa.C97_received",
    "Alfalfa.C97_refused",
    "Alfalfa.C97_arrives",
    "Alfalfa.C97_network",
    "Alfalfa.C97_send",
    "Alfalfa.C97_time_partial",
    "Alfalfa.C97_no_time",
    "Alfalfa.C97_equal_partial",
    "Alfalfa.C97_too_large",
    "Alfalfa.C97_equal_one_sided",
    "Alfalfa.C97_text_partial",
    "Alfalfa.C97_text_faithful_partial",
    "Alfalfa.C97_to_string",
    "Alfalfa.C97_short",
    "Alfalfa.C97_text_throws"
   ],
   "note": "Datagrams: for all control messages and flags and all orders of events. Missing, and false of the code: a time for a datagram for which the kernel gives none (C97_no_time), equality of addresses of different lengths (C97_equal_one_sided), a text for the addresses ::ffff:0:0:0/80 (C97_text_throws). Texts are proved for any C library that reads what it wrote; the library is not modelled beyond how it writes an address."
  },
  {
   "property": "C98",
   "status": "partial",
   "theorems": [
    "Alfalfa.C98_one_frame",
    "Alfalfa.C98_decoders",
    "Alfalfa.C98_growth",
    "Alfalfa.C98_forgets",
    "Alfalfa.C98_receiver_keeps_all",
    "Alfalfa.C98_ack_size",
    "Alfalfa.C98_ack_memory_partial",
    "Alfalfa.C98_ack_memory",
    "Alfalfa.C98_ack_too_large",
    "Alfalfa.C98_encoders",
    "Alfalfa.C98_sender_forgets",
    "Alfalfa.C98_sender_keeps_all"
   ],
   "note": "The code violates the full statement: the receiver keeps a decoder per frame while frames are coded from the first state, the sender keeps an encoder per frame while no acknowledgement comes, and an acknowledgement of 20 bytes takes 16 GiB (witnesses for any codec). Proved: one frame at a time, decoders and encoders only for listed states, at most one more per datagram or frame, what is forgotten and when."
  },
  {
   "property": "C99",
   "status": "partial",
   "theorems": [
    "Alfalfa.C99_content",
    "Alfalfa.C99_reach",
    "Alfalfa.C99_inside_partial",
    "Alfalfa.C99_overflow",
    "Alfalfa.C99_prediction",
    "Alfalfa.C99_search",
    "Alfalfa.C99_new_vector"
   ],
   "note": "The code violates the full statement: for every width that is not a multiple of 16 up to 15 bytes past the end of the storage are written (C99_overflow, for all such sizes; C99_reach says exactly how many). Proved for all sizes: the content, that the search and its predictions with this copy are those with a full margin; and no write outside for widths that are multiples of 16."
  }
 ]
}