{"claims": [
{"property": "C01", "status": "proved", "theorems": ["Props.C01_pixel_lossless", "Props.C01_pixel_lossless_any_table", "Props.C01_code_size"], "note": ""},
{"property": "C02", "status": "proved", "theorems": ["Props.C02_16bit_lossy", "Props.C02_16bit_lossless_near", "Props.C02_16bit_wrong_far"], "note": "The expected losslessness fails at depth 16; C02_16bit_lossy is the refutation, the other two delimit where 16-bit coding is lossless and where it is wrong."},
{"property": "C03", "status": "proved", "theorems": ["Props.C03_table_is_default", "Props.C03_prefix_code"], "note": ""},
{"property": "C04", "status": "proved", "theorems": ["Props.C04_class_and_value"], "note": ""},
{"property": "C05", "status": "proved", "theorems": ["Props.C05_merge_concat", "Props.C05_latency"], "note": ""},
{"property": "C06", "status": "proved", "theorems": ["Props.C06_predictor_px4"], "note": ""},
{"property": "C07", "status": "proved", "theorems": ["Props.C07_predictor_pix12"], "note": ""},
{"property": "C08", "status": "proved", "theorems": ["Props.C08_row_and_frame_flags"], "note": ""},
{"property": "C09", "status": "proved", "theorems": ["Props.C09_two_step_frame_unending", "Props.C09_one_step_rows_unmarked"], "note": "Negative result: proved misbehaviour for the two degenerate frame shapes."},
{"property": "C10", "status": "proved", "theorems": ["Props.C10_latency_values", "Props.C10_fixed_latency"], "note": ""},
{"property": "C11", "status": "proved", "theorems": ["Props.C11_fifo_order", "Props.C11_fifo_capacity", "Props.C11_fifo_presents"], "note": ""},
{"property": "C12", "status": "proved", "theorems": ["Props.C12_pipeline_fifo_never_overflows"], "note": ""},
{"property": "C13", "status": "proved", "theorems": ["Props.C13_converter_keeps_stream"], "note": ""},
{"property": "C14", "status": "proved", "theorems": ["Props.C14_converter_fifo_never_overflows"], "note": ""},
{"property": "C15", "status": "proved", "theorems": ["Props.C15_packer_prefix", "Props.C15_packer_end"], "note": ""},
{"property": "C16", "status": "proved", "theorems": ["Props.C16_output_is_prefix_of_code"], "note": ""},
{"property": "C17", "status": "proved", "theorems": ["Props.C17_complete_at_end"], "note": ""},
{"property": "C18", "status": "proved", "theorems": ["Props.C18_image_recovered", "Props.C18_image_recovered_default"], "note": ""},
{"property": "C19", "status": "proved", "theorems": ["Props.C19_no_pixel_after_frame", "Props.C19_not_ready_after_reset"], "note": ""},
{"property": "C20", "status": "proved", "theorems": ["Props.C20_word_stable", "Props.C20_fix1_stable", "Props.C20_fix2_stable"], "note": ""},
{"property": "C21", "status": "proved", "theorems": ["Props.C21_no_deadlock", "Props.C21_frame_completes"], "note": ""},
{"property": "C22", "status": "proved", "theorems": ["Props.C22_stuffs_every_word", "Props.C22_byte_stream"], "note": ""},
{"property": "C23", "status": "proved", "theorems": ["Props.C23_repack_prefix", "Props.C23_repack_end"], "note": ""},
{"property": "C24", "status": "proved", "theorems": ["Props.C24_unstuff_stuff", "Props.C24_unstuff_stuff_append", "Props.C24_no_marker"], "note": ""},
{"property": "C25", "status": "proved", "theorems": ["Props.C25_markers", "Props.C25_whole_frame", "Props.C25_single_word_lost"], "note": ""},
{"property": "C26", "status": "proved", "theorems": ["Props.C26_valid_depends_on_busy", "Props.C26_end_depends_on_busy"], "note": ""},
{"property": "C27", "status": "proved", "theorems": ["Props.C27_fires_exactly", "Props.C27_never_without_input", "Props.C27_stays"], "note": ""},
{"property": "C28", "status": "proved", "theorems": ["Props.C28_reset_pulse", "Props.C28_first_pulse"], "note": ""},
{"property": "C29", "status": "proved", "theorems": ["Props.C29_outputs_as_from_power_up", "Props.C29_no_memory_of_earlier_frames"], "note": ""},
{"property": "C30", "status": "proved", "theorems": ["Props.C30_frame", "Props.C30_image_recovered"], "note": ""},
{"property": "C31", "status": "proved", "theorems": ["Props.C31_extra_end_word"], "note": ""},
{"property": "C32", "status": "proved", "theorems": ["Props.C32_only_forced_ends", "Props.C32_no_end_before_forced_end", "Props.C32_micro_loses_data"], "note": ""},
{"property": "C33", "status": "proved", "theorems": ["Props.C33_in_order", "Props.C33_complete", "Props.C33_progress", "Props.C33_stable"], "note": ""},
{"property": "C34", "status": "proved", "theorems": ["Props.C34_in_order", "Props.C34_progress", "Props.C34_stable", "Props.C34_first_cycle_word_lost"], "note": ""},
{"property": "C35", "status": "proved", "theorems": ["Props.C35_in_order", "Props.C35_first_cycle_word_lost", "Props.C35_progress", "Props.C35_stable", "Props.C35_accepts", "Props.C35_end_needs_seven_words"], "note": ""},
{"property": "C36", "status": "proved", "theorems": ["Props.C36_exact_loss", "Props.C36_lossless_when_always_ready", "Props.C36_loses_bits", "Props.C36_frame_reset_gives_stale_word"], "note": ""},
{"property": "C37", "status": "proved", "theorems": ["Props.C37_bus_refines_register_map", "Props.C37_height_width_strobes", "Props.C37_allowed_cycles_strobes", "Props.C37_unmapped", "Props.C37_unmapped_read", "Props.C37_read_completes", "Props.C37_write_completes", "Props.C37_read_waits_for_ready"], "note": ""},
{"property": "C38", "status": "proved", "theorems": ["Props.C38_low_word_read_back", "Props.C38_other_entries_kept", "Props.C38_high_word_write_lost", "Props.C38_low_word_write_clears_high"], "note": ""},
{"property": "C39", "status": "proved", "theorems": ["Props.C39_bus_refines_register_map", "Props.C39_register_strobes", "Props.C39_read_only", "Props.C39_unmapped", "Props.C39_status_read", "Props.C39_read_completes", "Props.C39_write_completes"], "note": ""},
{"property": "C40", "status": "proved", "theorems": ["Props.C40_addresses", "Props.C40_valid"], "note": ""},
{"property": "C41", "status": "proved", "theorems": ["Props.C41_progress", "Props.C41_no_beat_lost", "Props.C41_never_full", "Props.C41_outstanding", "Props.C41_idle_rlast_limit"], "note": ""},
{"property": "C42", "status": "proved", "theorems": ["Props.C42_progress", "Props.C42_unconfirmed", "Props.C42_response_taken", "Props.C42_last_positions", "Props.C42_never_on_16th", "Props.C42_data", "Props.C42_outstanding", "Props.C42_underrun_limit", "Props.C42_withdrawn_limit"], "note": ""},
{"property": "C43", "status": "proved", "theorems": ["Props.C43_delay", "Props.C43_two_stages"], "note": ""},
{"property": "C44", "status": "proved", "theorems": ["Props.C44_bits", "Props.C44_involution", "Props.C44_sync"], "note": ""},
{"property": "C45", "status": "proved", "theorems": ["Props.C45_range", "Props.C45_predictor", "Props.C45_multiple"], "note": ""},
{"property": "C46", "status": "proved", "theorems": ["Props.C46_decoder_inverts", "Props.C46_default_table", "Props.C46_core_file", "Props.C46_narrow_limit"], "note": "Fast look-up-table path (for SLOW_HUFF see C100) on a little-endian machine, predictor 1; the sssshist statistic is left out; 1<<(-1) is modelled as an arbitrary value and shown harmless. C46_narrow_limit is the recorded defect for width 4."},
{"property": "C47", "status": "proved", "theorems": ["Props.C47_counts"], "note": ""},
{"property": "C48", "status": "proved", "theorems": ["Props.C48_id_of_last_request", "Props.C48_response_id", "Props.C48_passthrough", "Props.C48_overlap_wrong_id"], "note": ""},
{"property": "C49", "status": "proved", "theorems": ["Props.C49_driver", "Props.C49_default_codes"], "note": ""},
{"property": "C50", "status": "proved", "theorems": ["Props.C50_always_ends"], "note": ""},
{"property": "C51", "status": "proved", "theorems": ["Props.C51_nth_frame"], "note": ""},
{"property": "C52", "status": "proved", "theorems": ["Props.C52_stream_end_to_end", "Props.C52_stream_always_ends", "Props.C52_stream_every_frame_ends"], "note": ""},
{"property": "C53", "status": "proved", "theorems": ["Props.C53_reset_breaks_reads"], "note": ""},
{"property": "C54", "status": "proved", "theorems": ["Props.C54_frame_from_memory", "Props.C54_memory_prefix", "Props.C54_short_frame_lost", "Props.C54_every_reset", "Props.C54_stopped_after_reset", "Props.C54_limits_ineffective", "Props.C54_addresses", "Props.C54_tail_lost_limit", "Props.C54_stale_beats_limit", "Props.C54_status_word", "Props.C54_errors_ignored_limit", "Props.C54_status_registers"], "note": ""},
{"property": "C55", "status": "proved", "theorems": ["Props.C55_stream32_end_to_end", "Props.C55_stream32_always_ends", "Props.C55_stream64_end_to_end"], "note": ""},
{"property": "C56", "status": "proved", "theorems": ["Props.C56_core_words", "Props.C56_first_frame", "Props.C56_slow_receiver_limit", "Props.LvdsAll.C56_every_frame", "Props.LvdsAll.C56_every_frame_content", "Props.LvdsAll.C56_receiver", "Props.LvdsAll.C56_every_frame_ends"], "note": ""},
{"property": "C57", "status": "proved", "theorems": ["Props.C57_beta_forced_end_in_time", "Props.C57_micro_forced_end_in_time"], "note": ""},
{"property": "C58", "status": "proved", "theorems": ["Props.C58_programmed_frame", "Props.C58_written_budget"], "note": ""},
{"property": "C59", "status": "proved", "theorems": ["Props.C59_register_file"], "note": ""},
{"property": "C60", "status": "proved", "theorems": ["Props.C60_words64", "Props.C60_words32", "Props.C60_file_to_scan", "Props.C60_file_to_scan32"], "note": ""},
{"property": "C61", "status": "proved", "theorems": ["Props.C61_verdict", "Props.C61_odd_last_byte_unchecked", "Props.C61_short_file", "Props.C61_correct_frame_passes", "Props.C61_forced_marker_missed", "Props.C61_success_is_lossless"], "note": ""},
{"property": "C62", "status": "proved", "theorems": ["Props.C62_encode", "Props.C62_file", "Props.C62_no_marker", "Props.C62_delinearize_limit", "Props.EncLimit.C62_overflow", "Props.EncLimit.C62_refuses"], "note": "Single precision floats are modelled as IEEE values with round to nearest even; malloc succeeds; delinearize = NULL (C62_delinearize_limit is the recorded defect otherwise). C62_overflow and C62_refuses prove that both limits of C62_encode are reached: a success that has written one byte beyond the allocation, and legal images of every length from 1248 samples that are refused."},
{"property": "C63", "status": "proved", "theorems": ["Props.C63_classes", "Props.C63_t81"], "note": ""},
{"property": "C64", "status": "proved", "theorems": ["Props.C64_decoder_inverts", "Props.C64_round_trip", "Props.C64_one_row_limit", "Props.C64_narrow_limit", "Props.C64_group_one_limit"], "note": "The limit theorems record images the decoder refuses and the group of one."},
{"property": "C65", "status": "proved", "theorems": ["Props.C65_every_frame_fits", "Props.C65_normal_end_fits", "Props.C65_too_long_is_forced", "Props.C65_shipped_limit", "Props.C65_shipped_limit_occurs"], "note": ""},
{"property": "C66", "status": "proved", "theorems": ["Props.C66_takes_every_group", "Props.C66_always_ready", "Props.C66_beta"], "note": ""},
{"property": "C67", "status": "proved", "theorems": ["Props.C67_classes", "Props.C67_decoder_inverts", "Props.C67_components_limit"], "note": ""},
{"property": "C68", "status": "proved", "theorems": ["Props.C68_frame", "Props.C68_next_frame", "Props.C68_no_memory_of_earlier_frames", "Props.C68_always_ends", "Props.C68_stream_frame", "Props.C68_stream_always_ends"], "note": ""},
{"property": "C69", "status": "proved", "theorems": ["Props.C69_programmed_frame", "Props.C69_written_budget", "Props.C69_always_ends"], "note": ""},
{"property": "C70", "status": "proved", "theorems": ["Props.C70_netlist_is_source"], "note": "The netlist is translated to Lean by netlist/v2lean.py (trusted); the model side is the hand-written model used by C01-C31."},
{"property": "C71", "status": "proved", "theorems": ["Props.C71_netlist_frame", "Props.C71_netlist_image_recovered", "Props.C71_netlist_forced_end_in_time", "Props.C71_netlist_always_ends", "Props.C71_netlist_frames_occur"], "note": "Statements are about the translated netlist only. C71_netlist_frames_occur shows that the hypotheses are met at every start of a frame."},
{"property": "C72", "status": "proved", "theorems": ["Props.C72_netlist_stream_end_to_end", "Props.C72_netlist_stream_always_ends"], "note": "About the translated netlist (v2lean.py trusted); only the wrapper module differs from beta_integration.v, the other 31 modules are shared."},
{"property": "C73", "status": "proved", "theorems": ["Props.C73_netlist_fifo_end_to_end", "Props.C73_netlist_fifo_always_ends"], "note": "About the translated netlist (v2lean.py trusted) with its source FIFO."},
{"property": "C74", "status": "proved", "theorems": ["Props.LvdsAll.C74_netlist_every_frame_ends", "Props.C74_netlist_lvds_core_words", "Props.C74_netlist_lvds_first_frame", "Props.LvdsAll.C74_netlist_lvds_receiver"], "note": "About the translated netlist (v2lean.py trusted) with its source FIFO. For a slow receiver see the limit in C56."},
{"property": "C75", "status": "proved", "theorems": ["Props.C75_rest_in_bounded_time", "Props.C75_beta"], "note": ""},
{"property": "C76", "status": "proved", "theorems": ["Props.C76_waits_bounded", "Props.C76_beta"], "note": "Bound on waiting for images whose groups code in at most L bits each; without this bound the producer waits because of the code rate, not of the receiver."},
{"property": "C77", "status": "proved", "theorems": ["Props.C77_light_frame_ends", "Props.C77_beta", "Props.C77_every_light_image", "Props.C77_every_calm_image", "Props.C77_netlist", "Props.C77_netlist_grey_frame"], "note": "Together with C65 (an image that is cut off by the shipped limit) this delimits which frames the shipped core codes completely. C77_netlist_grey_frame shows that the FFFF hypotheses of C51, C52, C55, C71 to C74 are met, from every start of a frame."},
{"property": "C78", "status": "proved", "theorems": ["Props.C78_netlist_is_source", "Props.C78_netlist_is_source_after_reset", "Props.C78_frame_from_memory", "Props.C78_memory_prefix", "Props.C78_stopped_after_reset", "Props.C78_addresses", "Props.C78_status_registers", "Props.C78_status_word", "Props.C78_errors_ignored_limit"], "note": "About the translated netlist (v2lean.py trusted); the undriven inputs `replace` and `replace$1` of the shipped top module are tied low, as the source (where they are constants) says."},
{"property": "C79", "status": "proved", "theorems": ["Props.C79_started_frame_ends", "Props.C79_netlist_frame_ends"], "note": "A write slave that may stall a beat with wlast is excluded: the writer gives a stray seventeenth beat then (C42). The netlist part rests on v2lean.py, as C78."},
{"property": "C80", "status": "proved", "theorems": ["Props.C80_netlist_is_source", "Props.C80_programmed_frame", "Props.C80_written_budget", "Props.C80_always_ends"], "note": "Rests on v2lean.py, as C70. The two stray input ports end_in and end_in$1 of the netlist (signals the source never drives, see C68) are taken as low. Frames after an external reset in mid-run start from whatever the table memory holds then: for them only the port equality is stated."},
{"property": "C81", "status": "proved", "theorems": ["Props.Net64.C81_netlist_is_source", "Props.Net64.C81_output_is_prefix", "Props.Net64.C81_frame", "Props.Net64.C81_no_pixel_after_frame", "Props.Net64.C81_word_stable", "Props.Net64.C81_always_ends", "Props.Net64.C81_one_frame_per_reset", "Props.Net64.C81_frames_occur"], "note": "About the translated netlist (v2lean.py trusted). The register file's clock full_clk is taken as the same clock as clk, as in the source's simulation; full_rst and rst are separate ports and both are modelled."},
{"property": "C82", "status": "proved", "theorems": ["Props.C82_same_result", "Props.C82_open_any_file", "Props.C82_decode_any_file", "Props.C82_decode6_any_file", "Props.C82_core_file", "Props.C82_any_predictor", "Props.C82_empty_limit", "Props.C82_open_write_limit", "Props.C82_frame_length_limit", "Props.C82_end_limit", "Props.C82_truncated_limit", "Props.C82_no_table_limit", "Props.C82_histogram_limit", "Props.C82_linear_limit", "Props.C82_linear6_limit", "Props.C82_no_component_limit"], "note": "The accesses are recorded in the order of the C text by an instrumented copy of the model, proved to give the same results (C82_same_result). Allocation is taken to succeed; accesses to fields of the structure itself (except the array sssshist) are not recorded; a 16-bit access counts as two bytes. In a corrupt file the bit counter, an int in C that may go negative, is a natural number in the model; the statements about corrupt files do not depend on its value. Predictor 6 with zero samples per line is outside (the C loop counter starts at -1)."},
{"property": "C83", "status": "proved", "theorems": ["Props.NetBurst.C83_reader_no_beat_lost", "Props.NetBurst.C83_reader_bursts", "Props.NetBurst.C83_reader_outstanding", "Props.NetBurst.C83_writer_last_positions", "Props.NetBurst.C83_writer_data", "Props.NetBurst.C83_writer_bursts", "Props.NetBurst.C83_writer_outstanding", "Props.NetBurst.C83_writer_underrun_limit", "Props.NetSmall.C83_reset", "Props.NetSmall.C83_delayer", "Props.NetSmall.C83_reverser", "Props.NetSmall.C83_debug", "Props.NetSmall.C83_address", "Props.NetSmall.C83_address_valid", "Props.NetSmall.C83_unpacker", "Props.NetSmall.C83_unpacker_progress", "Props.NetSmall.C83_packer40", "Props.NetSmall.C83_packer40_loses_bits", "Props.NetSmall.C83_bridge_ids", "Props.NetSmall.C83_bridge_reset", "Props.NetSmall.C83_bridge_wires", "Props.NetSmall.C83_slave_register_map"], "note": "Rests on v2lean.py, as C70. The undriven input replace of axihp_fifo.v is taken as low. The netlist of the register slave has its table memory outside; the memory is modelled beside it, as in integration_1.py."},
{"property": "C84", "status": "proved", "theorems": ["Props.HostRun.C84_can_finish", "Props.HostRun.C84_short_reference", "Props.HostRun.C84_long_reference", "Props.HostRun.C84_receive_beyond", "Props.HostRun.C84_size_mod", "Props.HostRun.C84_refused", "Props.HostRun.C84_debug", "Props.HostRun.C84_status_text", "Props.HostRun.C84_inside", "Props.HostRun.C84_aligned", "Props.HostRun.C84_dma_writes", "Props.HostRun.C84_prepared", "Props.HostRun.C84_read_after_done", "Props.HostRun.C84_exit", "Props.HostRun.C84_error_hangs", "Props.HostRun.C84_core_configured", "Props.HostRun.C84_verdict", "Props.HostRun.C84_success_iff", "Props.HostRun.C84_correct_core_passes"], "note": "Loads of the destination region and of device registers may give any value of their width; the two buffers and the source region are plain memory. Runs may stop anywhere. Clock calls, the printing of dumped bytes and destructors are left out; a failed fread is taken to write nothing; the int sum size + 128 is taken as exact. Between 2^25-159 and 2^25-16 bytes whether the marker search leaves the region depends on the data."},
{"property": "C85", "status": "proved", "theorems": ["Props.EncMem.C85_same", "Props.EncMem.C85_ends", "Props.EncMem.C85_accesses", "Props.EncMem.C85_output", "Props.EncMem.C85_image", "Props.EncMem.C85_delinearize", "Props.EncMem.C85_no_table", "Props.EncMem.C85_overflow"], "note": "The accesses are recorded by an instrumented copy of the model of C62, proved to give the same results (C85_same). Allocation is taken to succeed; scalar fields of the structure are not recorded; several reads of one element in one statement are recorded once; writeHeader records its table reads before its writes. The stated length of the delinearization table is no argument of the model because lj92.c never uses it."},
{"property": "C86", "status": "proved", "theorems": ["Props.Forced.C86_next_frame", "Props.Forced.C86_forced_frame", "Props.Forced.C86_reset_cycle", "Props.Forced.C86_no_end_without_data", "Props.Forced.C86_no_resynchronisation", "Props.Forced.C86_next_frame_ends", "Props.Forced.C86_netlist_next_frame", "Props.Forced.C86_netlist_forced_frame", "Props.Forced.C86_netlist_next_frame_ends", "Props.Forced.C86_frames_for_ever", "Props.Forced.C86_netlist_frames_for_ever"], "note": "C86_no_resynchronisation is a limit of the code, shown on a run of a small configuration; C86_next_frame says in general which pixels a frame holds."},
{"property": "C87", "status": "proved", "theorems": ["Props.NetBlocks.C87_reset", "Props.NetBlocks.C87_difference", "Props.NetBlocks.C87_coding_lossless", "Props.NetBlocks.C87_coding_wrong_far", "Props.NetBlocks.C87_coding_bits", "Props.NetBlocks.C87_merge", "Props.NetBlocks.C87_predictor_px4", "Props.NetBlocks.C87_predictor_pix2", "Props.NetBlocks.C87_converter", "Props.NetBlocks.C87_pipefifo", "Props.NetBlocks.C87_pipefifo_warning", "Props.NetBlocks.C87_cvfifo", "Props.NetBlocks.C87_cvfifo_warning", "Props.NetBlocks.C87_register_file"], "note": "Rests on v2lean.py, as C70. The undriven input replace of the FIFO netlists is taken as low. C87_coding_wrong_far is a limit of the code (16-bit pixels are not lossless, as C02). In the netlist difference.v the ports val_out$4 and val_out$5 are the differences, val_out and val_out$3 the differences minus one."},
{"property": "C88", "status": "proved", "theorems": ["Props.Core3.C88_netlist_is_source", "Props.Core3.C88_output_is_prefix", "Props.Core3.C88_frame", "Props.Core3.C88_no_pixel_after_frame", "Props.Core3.C88_word_stable", "Props.Core3.C88_always_ends", "Props.Core3.C88_one_frame_per_reset", "Props.Core3.C88_forced_end", "Props.Core3.C88_frames_occur"], "note": "Rests on v2lean.py, as C70. The netlist's core is shown to be that of integration_3_axi_stream.v, so that the data claims come from C81."},
{"property": "C89", "status": "proved", "theorems": ["Props.Pieces.C89_netlist_is_source", "Props.Pieces.C89_netlist_pieces_are_prefix", "Props.Pieces.C89_netlist_no_pixel_after_frame", "Props.Pieces.C89_netlist_piece_stable", "Props.Pieces.C89_netlist_frame", "Props.Pieces.C89_netlist_forced_end", "Props.Pieces.C89_pieces_are_prefix", "Props.Pieces.C89_piece_size", "Props.Pieces.C89_frame", "Props.Pieces.C89_no_pixel_after_frame", "Props.Pieces.C89_piece_stable", "Props.Pieces.C89_always_ends"], "note": "The netlist part rests on v2lean.py, as C70. The shipped netlist has no port for the end flag, so C89_netlist_frame speaks of the moment from which on all pieces have been read. C89_netlist_is_source gives, for the power-up contents of the memories, the model state with the same contents."},
{"property": "C90", "status": "proved", "theorems": ["Props.MicroCore.C90_netlist_is_source", "Props.MicroCore.C90_programmed_frame", "Props.MicroCore.C90_written_budget", "Props.MicroCore.C90_always_ends"], "note": "The netlist part rests on v2lean.py, as C70. The undriven ports end_in and end_in$1 are tied low, as in C80."},
{"property": "C91", "status": "proved", "theorems": ["Props.Pipe.C91_netlist_is_source", "Props.Pipe.C91_fixed_latency", "Props.Pipe.C91_code", "Props.Pipe.C91_frame", "Props.Pipe.C91_forced_end"], "note": "The netlist part rests on v2lean.py, as C70. The pipeline has no back pressure and no guard against more pixels than a frame has: the theorems on frames assume that no more are given before the next reset."},
{"property": "C92", "status": "proved", "theorems": ["Props.Size.C92_code_size", "Props.Size.C92_default_size", "Props.Size.C92_worst_image", "Props.Size.C92_best_image", "Props.Size.C92_frame_at_most", "Props.Size.C92_frame_at_least", "Props.Size.C92_netlist_frame"], "note": ""},
{"property": "C93", "status": "proved", "theorems": ["Props.LiteAxi.C93_write_response_lost", "Props.LiteAxi.C93_read_data_lost", "Props.LiteAxi.C93_early_data_lost", "Props.LiteAxi.C93_response_single_cycle", "Props.LiteAxi.C93_waits_for_ready", "Props.LiteAxi.C93_reads_starve_writes", "Props.LiteAxi.C93_dma_response_single_cycle", "Props.LiteAxi.C93_dma_waits_for_ready", "Props.LiteAxi.C93_dma_reads_starve_writes", "Props.LiteAxi.C93_dma_early_data_lost"], "note": ""},
{"property": "C94", "status": "proved", "theorems": ["Props.ForcedFifo.C94_pixels_in_order", "Props.ForcedFifo.C94_next_frame", "Props.ForcedFifo.C94_forced_frame", "Props.ForcedFifo.C94_reset_cycle", "Props.ForcedFifo.C94_next_frame_ends", "Props.ForcedFifo.C94_frames_for_ever", "Props.ForcedFifo.C94_netlist_pixels_in_order", "Props.ForcedFifo.C94_netlist_next_frame", "Props.ForcedFifo.C94_netlist_forced_frame", "Props.ForcedFifo.C94_netlist_frames_for_ever"], "note": ""},
{"property": "C95", "status": "proved", "theorems": ["Props.Segs.C95_classes", "Props.Segs.C95_decoder_inverts", "Props.Segs.C95_one_component", "Props.Segs.C95_core_file", "Props.Segs.C95_fill_limit", "Props.Segs.C95_tables_limit"], "note": ""},
{"property": "C96", "status": "proved", "theorems": ["Props.SegsMem.C96_classes", "Props.SegsMem.C96_accesses", "Props.SegsMem.C96_any_file", "Props.SegsMem.C96_image", "Props.SegsMem.C96_input_limit"], "note": ""},
{"property": "C97", "status": "proved", "theorems": ["Props.Cut.C97_decoder_keeps", "Props.Cut.C97_whole_bytes", "Props.Cut.C97_forced_frame", "Props.Cut.C97_histogram_limit"], "note": ""},
{"property": "C98", "status": "proved", "theorems": ["Props.LvdsForced.C98_pixels_in_order", "Props.LvdsForced.C98_every_frame", "Props.LvdsForced.C98_next_frame", "Props.LvdsForced.C98_forced_frame", "Props.LvdsForced.C98_receiver", "Props.LvdsForced.C98_receiver_forced", "Props.LvdsForced.C98_next_frame_ends", "Props.LvdsForced.C98_frames_for_ever", "Props.LvdsForced.C98_netlist_pixels_in_order", "Props.LvdsForced.C98_netlist_receiver", "Props.LvdsForced.C98_netlist_receiver_forced", "Props.LvdsForced.C98_netlist_frames_for_ever", "Props.LvdsForced.C98_stale_words_limit"], "note": ""},
{"property": "C99", "status": "proved", "theorems": ["Props.FullFrames.C99_frame_begin", "Props.FullFrames.C99_memory_words", "Props.FullFrames.C99_memory_begin", "Props.FullFrames.C99_memory_image", "Props.FullFrames.C99_netlist_memory_words", "Props.FullFrames.C99_netlist_frame_begin", "Props.FullFrames.C99_netlist_memory_begin", "Props.FullFrames.C99_netlist_memory_image"], "note": "The netlist theorems are for the shipped 12-bit 4096x3072 core. The bound 139 (words) is not claimed to be attained; the example has 64 words missing of 773."},
{"property": "C100", "status": "proved", "theorems": ["Props.SlowHuff.C100_builds_agree", "Props.SlowHuff.C100_decoder_inverts", "Props.SlowHuff.C100_one_component", "Props.SlowHuff.C100_core_file", "Props.SlowHuff.C100_empty_limit", "Props.SlowHuff.C100_invalid_limit"], "note": "Same conventions as C46 (little-endian machine, 1<<(-1) arbitrary). The temporary huffsize and huffcode arrays and the kept maxcode, mincode, valptr, huffval are checked for every access; calloc is assumed to succeed except for a negative size."},
{"property": "C101", "status": "proved", "theorems": ["Props.ToFile.C101_netlist_stream_any_decoded", "Props.ToFile.C101_netlist_stream_forced_decoded", "Props.ToFile.C101_netlist_fifo_any_decoded", "Props.ToFile.C101_netlist_fifo_forced_decoded", "Props.ToFile.C101_netlist_lvds_any_decoded", "Props.ToFile.C101_netlist_lvds_forced_decoded", "Props.ToFile.C101_netlist_stream_decoded", "Props.ToFile.C101_netlist_fifo_decoded", "Props.ToFile.C101_netlist_lvds_decoded", "Props.ToFile.C101_netlist_frame_decoded", "Props.ToFile.C101_netlist_forced_decoded", "Props.ToFile.C101_memory_decoded", "Props.ToFile.C101_memory_image_decoded", "Props.ToFile.C101_netlist_memory_decoded", "Props.ToFile.C101_netlist_memory_image_decoded"], "note": "The header is not made by the repository; the theorems hold for every legal one. The beats' bytes are taken most significant first (the word order of the core); on a little-endian host each beat has to be reversed."},
{"property": "C102", "status": "proved", "theorems": ["Props.SlowAny.C102_table_any", "Props.SlowAny.C102_decode_any_file", "Props.SlowAny.C102_writes_inside", "Props.SlowAny.C102_samples_any_file", "Props.SlowAny.C102_builds_agree_any_data", "Props.SlowAny.C102_normal_any_data", "Props.SlowAny.C102_marker_limit", "Props.SlowAny.C102_uninitialised_limit"], "note": "Reads of the input past its end are not bounded (the C code does not check them): the memory behind the file is part of the data. Integer overflow of classes above 31 is not modelled (numbers are exact)."}
]}
