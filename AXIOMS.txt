Verif.c01_lossy_total_valid: Classical.choice, Quot.sound, propext
Verif.c02_lossy_fixes_iff: Classical.choice, Quot.sound, propext
Verif.c02_lossy_fixes_isolated: Classical.choice, Quot.sound, propext
Verif.c02_lossy_fixes_valid: Classical.choice, Quot.sound, propext
Verif.c02_only_inserts: Classical.choice, Quot.sound, propext
Verif.c02_refuted_unassigned: propext
Verif.c03_lossy_idempotent_iff: Classical.choice, Quot.sound, propext
Verif.c03_lossy_idempotent_partial: Classical.choice, Quot.sound, propext
Verif.c03_lossy_idempotent_single: Classical.choice, Quot.sound, propext
Verif.c03_lossy_idempotent_whole: Classical.choice, Quot.sound, propext
Verif.c03_only_inserts: Classical.choice, Quot.sound, propext
Verif.c03_refuted_cut: propext
Verif.c04_lossy_algorithm_iff: Classical.choice, Quot.sound, propext
Verif.c04_lossy_algorithm_partial: Classical.choice, Quot.sound, propext
Verif.c04_lossy_exact: Classical.choice, Quot.sound, propext
Verif.c04_lossy_exact_iff: Classical.choice, Quot.sound, propext
Verif.c04_lossy_is_string_iff: Classical.choice, Quot.sound, propext
Verif.c04_refuted_escape_newline: Quot.sound, propext
Verif.c04_refuted_isolation: Quot.sound, propext
Verif.c04_same_scalars: Classical.choice, Quot.sound, propext
Verif.c04_scalars_exact: Classical.choice, Quot.sound, propext
Verif.c05_owned_accepts: Classical.choice, Quot.sound, propext
Verif.c05_owned_normalizes: Classical.choice, Quot.sound, propext
Verif.c05_owned_valid: Classical.choice, Quot.sound, propext
Verif.c06_owned_accepts_valid: Classical.choice, Quot.sound, propext
Verif.c06_refuted_unassigned: propext
Verif.c07_error_inside: Classical.choice, Quot.sound, propext
Verif.c07_refuted_longest: propext
Verif.c07_valid_up_to_borrowed: Classical.choice, Quot.sound, propext
Verif.c07_valid_up_to_owned: Classical.choice, Quot.sound, propext
Verif.c08_valid_up_to_exact: Classical.choice, Quot.sound, propext
Verif.c09_slices_valid: Classical.choice, Quot.sound, propext
Verif.c09_text_is_substr: Quot.sound, propext
Verif.c100_conserved: Classical.choice, Quot.sound, propext
Verif.c100_crlf: Classical.choice, Quot.sound, propext
Verif.c100_held: Classical.choice, Quot.sound, propext
Verif.c100_plain: Classical.choice, Quot.sound, propext
Verif.c100_refuted: propext
Verif.c101_assigned: Classical.choice, Quot.sound, propext
Verif.c101_isolated_iff: Classical.choice, Quot.sound, propext
Verif.c101_isolated_stable_partial: Classical.choice, Quot.sound, propext
Verif.c101_lossy_stable_partial: Classical.choice, Quot.sound, propext
Verif.c101_older_accepts: Classical.choice, Quot.sound, propext
Verif.c101_older_converts: Classical.choice, Quot.sound, propext
Verif.c101_older_reads: Classical.choice, Quot.sound, propext
Verif.c101_refuted_not_isolated: Classical.choice, Quot.sound, propext
Verif.c101_refuted_singleton: Classical.choice, Quot.sound, propext
Verif.c102_information_partial: Classical.choice, Quot.sound, propext
Verif.c102_lossy_partial: Classical.choice, Quot.sound, propext
Verif.c102_named: Classical.choice, Quot.sound, propext
Verif.c102_named_information: Classical.choice, Quot.sound, propext
Verif.c102_named_lossy: Classical.choice, Quot.sound, propext
Verif.c102_named_means: Classical.choice, Quot.sound, propext
Verif.c102_named_owned: Classical.choice, Quot.sound, propext
Verif.c102_number: none
Verif.c102_reader_partial: Classical.choice, Quot.sound, propext
Verif.c102_refuted_escape: propext
Verif.c102_refuted_selector: propext
Verif.c102_rejected: Classical.choice, Quot.sound, propext
Verif.c102_variant: Classical.choice, Quot.sound, propext
Verif.c103_close_iff: Classical.choice, Quot.sound, propext
Verif.c103_errors: Quot.sound, propext
Verif.c103_outcome: propext
Verif.c103_refuted_closes: propext
Verif.c103_resume: Classical.choice, Quot.sound, propext
Verif.c104_anywhere: Classical.choice, Quot.sound, propext
Verif.c104_unchanged: Classical.choice, Quot.sound, propext
Verif.c105_bom_partial: Classical.choice, Quot.sound, propext
Verif.c105_document_bom: Classical.choice, Quot.sound, propext
Verif.c105_exact: Classical.choice, Quot.sound, propext
Verif.c105_lines_partial: Classical.choice, Quot.sound, propext
Verif.c105_refuted: Classical.choice, Quot.sound, propext
Verif.c105_strict_stream_partial: Classical.choice, Quot.sound, propext
Verif.c106_lossy_partial: Classical.choice, Quot.sound, propext
Verif.c106_lossy_same_scalars: Classical.choice, Quot.sound, propext
Verif.c106_normalized_first_partial: Classical.choice, Quot.sound, propext
Verif.c106_reader_partial: Classical.choice, Quot.sound, propext
Verif.c106_refuted_brackets: Classical.choice, Quot.sound, propext
Verif.c106_refuted_escape: Classical.choice, Quot.sound, propext
Verif.c106_refuted_ideograph: Classical.choice, Quot.sound, propext
Verif.c106_refuted_marks: Classical.choice, Quot.sound, propext
Verif.c106_same_cuts: Classical.choice, Quot.sound, propext
Verif.c106_same_scalars: Classical.choice, Quot.sound, propext
Verif.c107_delivered_iff: Classical.choice, Quot.sound, propext
Verif.c107_lines: Classical.choice, Quot.sound, propext
Verif.c107_places: Classical.choice, Quot.sound, propext
Verif.c107_preceded: Classical.choice, Quot.sound, propext
Verif.c107_unchanged_iff: Classical.choice, Quot.sound, propext
Verif.c108_checked: propext
Verif.c108_owned: Classical.choice, Quot.sound, propext
Verif.c108_parts: Classical.choice, Quot.sound, propext
Verif.c108_scalars: Classical.choice, Quot.sound, propext
Verif.c108_written: Classical.choice, Quot.sound, propext
Verif.c109_dog: propext
Verif.c109_reads: Classical.choice, Quot.sound, propext
Verif.c109_writes: Classical.choice, Quot.sound, propext
Verif.c10_refuted_text_boundary: propext
Verif.c10_split_substr: Classical.choice, Quot.sound, propext
Verif.c10_split_text: Classical.choice, Quot.sound, propext
Verif.c110_bytes_same_scalars: Classical.choice, Quot.sound, propext
Verif.c110_longer: Classical.choice, Quot.sound, propext
Verif.c110_lossy_same_iff: Classical.choice, Quot.sound, propext
Verif.c110_lossy_same_scalars: Classical.choice, Quot.sound, propext
Verif.c110_only_inserts: Classical.choice, Quot.sound, propext
Verif.c110_only_inserts_any: Classical.choice, Quot.sound, propext
Verif.c110_same_iff: Classical.choice, Quot.sound, propext
Verif.c110_same_scalars: Classical.choice, Quot.sound, propext
Verif.c110_valid_only_inserts: Classical.choice, Quot.sound, propext
Verif.c111_debug: Quot.sound, propext
Verif.c111_debug_differs: Classical.choice, Quot.sound, propext
Verif.c111_injective: Quot.sound, propext
Verif.c111_one_line: Quot.sound, propext
Verif.c111_unchanged_iff: Classical.choice, Quot.sound, propext
Verif.c111_valid: Classical.choice, Quot.sound, propext
Verif.c112_equivalence: Classical.choice, Quot.sound, propext
Verif.c112_iff: Classical.choice, Quot.sound, propext
Verif.c112_positions: Classical.choice, Quot.sound, propext
Verif.c113_checked_iff: Classical.choice, Quot.sound, propext
Verif.c113_lossy_iff: Classical.choice, Quot.sound, propext
Verif.c113_read_iff: Classical.choice, Quot.sound, propext
Verif.c113_same_texts: Classical.choice, Quot.sound, propext
Verif.c113_written_iff: Classical.choice, Quot.sound, propext
Verif.c114_bom_refused: Classical.choice, Quot.sound, propext
Verif.c114_color: Classical.choice, Quot.sound, propext
Verif.c114_color_drop: Classical.choice, Quot.sound, propext
Verif.c114_color_on_plain_refuted: propext
Verif.c114_crlf_refused: Classical.choice, Quot.sound, propext
Verif.c114_drop: Classical.choice, Quot.sound, propext
Verif.c114_plain_on_color: Classical.choice, Quot.sound, propext
Verif.c114_refuted_text: propext
Verif.c114_same: Classical.choice, Quot.sound, propext
Verif.c115_assigned: Classical.choice, Quot.sound, propext
Verif.c115_only_inserts: Classical.choice, Quot.sound, propext
Verif.c115_refuted_cut: Classical.choice, Quot.sound, propext
Verif.c115_same_iff: Classical.choice, Quot.sound, propext
Verif.c116_equality: Classical.choice, Quot.sound, propext
Verif.c116_hash: Classical.choice, Quot.sound, propext
Verif.c116_one_impl: propext
Verif.c116_pairs: propext
Verif.c116_refuted_one_way: propext
Verif.c116_symmetric_partial: Classical.choice, Quot.sound, propext
Verif.c117_marks: Classical.choice, Quot.sound, propext
Verif.c117_read_alike: Classical.choice, Quot.sound, propext
Verif.c117_refuted_hidden: propext
Verif.c117_refuted_mark: propext
Verif.c117_refuted_other: Quot.sound, propext
Verif.c117_same_scalars: Classical.choice, Quot.sound, propext
Verif.c117_text_back: Classical.choice, Quot.sound, propext
Verif.c117_texts_written: Classical.choice, Quot.sound, propext
Verif.c117_written_iff: Classical.choice, Quot.sound, propext
Verif.c118_as_if_ended: Classical.choice, Quot.sound, propext
Verif.c118_beginning: Classical.choice, Quot.sound, propext
Verif.c118_beginning_stream: Classical.choice, Quot.sound, propext
Verif.c118_buffers: Classical.choice, Quot.sound, propext
Verif.c118_exact: Classical.choice, Quot.sound, propext
Verif.c118_lines_stream: Classical.choice, Quot.sound, propext
Verif.c119_back: Classical.choice, Quot.sound, propext
Verif.c119_length: Quot.sound, propext
Verif.c119_no_marks: Classical.choice, Quot.sound, propext
Verif.c119_only: Classical.choice, Quot.sound, propext
Verif.c11_refuted_trim_text: propext
Verif.c11_trim_ascii: Classical.choice, Quot.sound, propext
Verif.c11_trim_meaning: Quot.sound, propext
Verif.c11_trim_substr: Classical.choice, Quot.sound, propext
Verif.c11_trim_text_partial: Classical.choice, Quot.sound, propext
Verif.c11_whitespace: Classical.choice, Quot.sound, propext
Verif.c120_cut: propext
Verif.c120_fill_needed: propext
Verif.c120_plain: propext
Verif.c120_shape: Quot.sound, propext
Verif.c120_substr: Classical.choice, Quot.sound, propext
Verif.c120_substr_needs: Classical.choice, Quot.sound, propext
Verif.c120_text: Classical.choice, Quot.sound, propext
Verif.c120_uncut: Classical.choice, Quot.sound, propext
Verif.c120_written: Classical.choice, Quot.sound, propext
Verif.c121_lost_partial: Classical.choice, Quot.sound, propext
Verif.c121_nothing_lost_iff: Classical.choice, Quot.sound, propext
Verif.c121_outcome: propext
Verif.c121_read_on_partial: Classical.choice, Quot.sound, propext
Verif.c121_refuted: propext
Verif.c122_closed_partial: Classical.choice, Quot.sound, propext
Verif.c122_read: Classical.choice, Quot.sound, propext
Verif.c122_refuted_closed: propext
Verif.c122_text: Classical.choice, Quot.sound, propext
Verif.c122_written: Classical.choice, Quot.sound, propext
Verif.c123_anywhere: Classical.choice, Quot.sound, propext
Verif.c123_lossy: Classical.choice, Quot.sound, propext
Verif.c123_prepared: Classical.choice, Quot.sound, propext
Verif.c123_refuted: propext
Verif.c124_excluded: Classical.choice, Quot.sound, propext
Verif.c124_holes: Classical.choice, Quot.sound, propext
Verif.c124_included: Quot.sound, propext
Verif.c124_refuted: propext
Verif.c125_refuted: propext
Verif.c125_sequences: Classical.choice, Quot.sound, propext
Verif.c125_terminal_partial: Classical.choice, Quot.sound, propext
Verif.c125_transcript: Classical.choice, Quot.sound, propext
Verif.c126_calls: Classical.choice, Quot.sound, propext
Verif.c126_empty_call: Quot.sound, propext
Verif.c126_exact: propext
Verif.c126_in_time: Classical.choice, Quot.sound, propext
Verif.c127_at_most_one: Classical.choice, Quot.sound, propext
Verif.c127_nothing_held: Classical.choice, Quot.sound, propext
Verif.c127_others: propext
Verif.c127_session: Classical.choice, Quot.sound, propext
Verif.c127_write: Classical.choice, Quot.sound, propext
Verif.c127_write_failed: Classical.choice, Quot.sound, propext
Verif.c128_guarded: Classical.choice, Quot.sound, propext
Verif.c128_read_iff: Classical.choice, Quot.sound, propext
Verif.c128_refuted_always: Classical.choice, Quot.sound, propext
Verif.c128_substr: Classical.choice, Quot.sound, propext
Verif.c128_text_ascii: Classical.choice, Quot.sound, propext
Verif.c128_text_iff: Classical.choice, Quot.sound, propext
Verif.c129_copy: Classical.choice, Quot.sound, propext
Verif.c129_copy_all: Classical.choice, Quot.sound, propext
Verif.c129_inside: Quot.sound, propext
Verif.c129_least: Classical.choice, Quot.sound, propext
Verif.c129_read: Classical.choice, Quot.sound, propext
Verif.c129_refuted_large: Classical.choice, Quot.sound, propext
Verif.c129_sizes: Classical.choice, Quot.sound, propext
Verif.c12_append_newline: Classical.choice, Quot.sound, propext
Verif.c12_extend_iff: Classical.choice, Quot.sound, propext
Verif.c12_extend_valid_partial: Classical.choice, Quot.sound, propext
Verif.c12_push_iff: Classical.choice, Quot.sound, propext
Verif.c12_push_valid_partial: Classical.choice, Quot.sound, propext
Verif.c12_push_value: Quot.sound, propext
Verif.c12_refuted_jamo: propext
Verif.c130_copy: Classical.choice, Quot.sound, propext
Verif.c130_kinds: Classical.choice, Quot.sound, propext
Verif.c130_missing: Classical.choice, Quot.sound, propext
Verif.c130_one_kind: Classical.choice, Quot.sound, propext
Verif.c130_refuted: propext
Verif.c130_refuted_valid: propext
Verif.c130_room: Classical.choice, Quot.sound, propext
Verif.c130_using_status: Classical.choice, Quot.sound, propext
Verif.c130_whole_partial: Classical.choice, Quot.sound, propext
Verif.c131_abandoned: Classical.choice, Quot.sound, propext
Verif.c131_duplexer: propext
Verif.c131_exact: Classical.choice, Quot.sound, propext
Verif.c131_exact_lines: Classical.choice, Quot.sound, propext
Verif.c131_other_order: propext
Verif.c131_refuted: propext
Verif.c131_unwind: Classical.choice, Quot.sound, propext
Verif.c131_writer: Classical.choice, Quot.sound, propext
Verif.c132_heard: Classical.choice, Quot.sound, propext
Verif.c132_heard_iff: Classical.choice, Quot.sound, propext
Verif.c132_lines_partial: Classical.choice, Quot.sound, propext
Verif.c132_pieces: Classical.choice, Quot.sound, propext
Verif.c132_pieces_prompt: Classical.choice, Quot.sound, propext
Verif.c132_refuted_cut: propext
Verif.c132_refuted_prompt: propext
Verif.c133_accepted_iff: Classical.choice, Quot.sound, propext
Verif.c133_index: Classical.choice, Quot.sound, propext
Verif.c133_one_line: Classical.choice, Quot.sound, propext
Verif.c133_refuted: Classical.choice, Quot.sound, propext
Verif.c133_tells: Classical.choice, Quot.sound, propext
Verif.c133_written_iff: Classical.choice, Quot.sound, propext
Verif.c134_again: Classical.choice, Quot.sound, propext
Verif.c134_alone: Classical.choice, Quot.sound, propext
Verif.c134_documents: Classical.choice, Quot.sound, propext
Verif.c134_reached: Classical.choice, Quot.sound, propext
Verif.c134_refuted_bom: propext
Verif.c134_refuted_missed: propext
Verif.c134_reported_iff: Classical.choice, Quot.sound, propext
Verif.c134_text: Classical.choice, Quot.sound, propext
Verif.c135_delivered: Classical.choice, Quot.sound, propext
Verif.c135_keys_partial: Classical.choice, Quot.sound, propext
Verif.c135_lost: Quot.sound, propext
Verif.c135_refuted: propext
Verif.c136_broken_off: Classical.choice, Quot.sound, propext
Verif.c136_bytes: Classical.choice, Quot.sound, propext
Verif.c136_last_differs: propext
Verif.c136_shared: Classical.choice, Quot.sound, propext
Verif.c137_agree: Classical.choice, Quot.sound, propext
Verif.c137_all: Classical.choice, Quot.sound, propext
Verif.c137_rest: Classical.choice, Quot.sound, propext
Verif.c137_returns: Classical.choice, Quot.sound, propext
Verif.c138_exact: Classical.choice, Quot.sound, propext
Verif.c138_lines: Classical.choice, Quot.sound, propext
Verif.c138_one_read: Classical.choice, Quot.sound, propext
Verif.c138_written: Classical.choice, Quot.sound, propext
Verif.c139_from_line: Classical.choice, Quot.sound, propext
Verif.c139_not_unchanged: propext
Verif.c139_window: Classical.choice, Quot.sound, propext
Verif.c13_refuted_substr: none
Verif.c13_refuted_text: propext
Verif.c13_repeat_iff: Classical.choice, Quot.sound, propext
Verif.c13_repeat_substr_31: Classical.choice, Quot.sound, propext
Verif.c13_repeat_substr_iff: Classical.choice, Quot.sound, propext
Verif.c13_repeat_substr_partial: Classical.choice, Quot.sound, propext
Verif.c13_repeat_text_partial: Classical.choice, Quot.sound, propext
Verif.c140_all: Classical.choice, Quot.sound, propext
Verif.c140_delimiters: Classical.choice, Quot.sound, propext
Verif.c140_not_equals: propext
Verif.c140_observed: Classical.choice, Quot.sound, propext
Verif.c140_two: Classical.choice, Quot.sound, propext
Verif.c140_two_iff: Classical.choice, Quot.sound, propext
Verif.c141_fields: Classical.choice, Quot.sound, propext
Verif.c141_not_any: none
Verif.c141_pieces: Classical.choice, Quot.sound, propext
Verif.c141_template: Classical.choice, Quot.sound, propext
Verif.c141_template_text: Classical.choice, Quot.sound, propext
Verif.c141_translate: Classical.choice, Quot.sound, propext
Verif.c141_written: Classical.choice, Quot.sound, propext
Verif.c142_after_text: Classical.choice, Quot.sound, propext
Verif.c142_nfc_first: Classical.choice, Quot.sound, propext
Verif.c142_nfc_last: Classical.choice, Quot.sound, propext
Verif.c142_refuted_nfc_first: propext
Verif.c142_utf8_cat: Classical.choice, Quot.sound, propext
Verif.c142_utf8_first: Classical.choice, Quot.sound, propext
Verif.c142_utf8_unchanged: Classical.choice, Quot.sound, propext
Verif.c143_bytes: Classical.choice, Quot.sound, propext
Verif.c143_full: Classical.choice, Quot.sound, propext
Verif.c143_kept: Classical.choice, Quot.sound, propext
Verif.c143_lines: Classical.choice, Quot.sound, propext
Verif.c143_read: Classical.choice, Quot.sound, propext
Verif.c143_room: Classical.choice, Quot.sound, propext
Verif.c143_scalars: Classical.choice, Quot.sound, propext
Verif.c144_complete: Classical.choice, Quot.sound, propext
Verif.c144_first_line: Classical.choice, Quot.sound, propext
Verif.c144_lines: Classical.choice, Quot.sound, propext
Verif.c144_read: Classical.choice, Quot.sound, propext
Verif.c144_refuted_vowel: propext
Verif.c144_sessions: Classical.choice, Quot.sound, propext
Verif.c145_beginning: Classical.choice, Quot.sound, propext
Verif.c145_confined: Classical.choice, Quot.sound, propext
Verif.c145_one_line: Classical.choice, Quot.sound, propext
Verif.c145_refuted_escape: Classical.choice, Quot.sound, propext
Verif.c146_all: Classical.choice, Quot.sound, propext
Verif.c146_call: Quot.sound, propext
Verif.c146_not_all: propext
Verif.c146_refused: Classical.choice, Quot.sound, propext
Verif.c146_session: Quot.sound, propext
Verif.c147_calls: Classical.choice, Quot.sound, propext
Verif.c147_like_one: Classical.choice, Quot.sound, propext
Verif.c147_own: Classical.choice, Quot.sound, propext
Verif.c147_read: Classical.choice, Quot.sound, propext
Verif.c147_refuted_parts: propext
Verif.c147_text: Classical.choice, Quot.sound, propext
Verif.c147_valid: Classical.choice, Quot.sound, propext
Verif.c148_capacity: Classical.choice, Quot.sound, propext
Verif.c148_fits: Quot.sound, propext
Verif.c148_lines: Classical.choice, Quot.sound, propext
Verif.c148_pieces: Quot.sound, propext
Verif.c148_refuted_capacity: propext
Verif.c148_refuted_cut: propext
Verif.c148_sent: Classical.choice, Quot.sound, propext
Verif.c148_total: Classical.choice, Quot.sound, propext
Verif.c149_bytes: Classical.choice, Quot.sound, propext
Verif.c149_count: Classical.choice, Quot.sound, propext
Verif.c149_ends: Classical.choice, Quot.sound, propext
Verif.c149_no_error: Classical.choice, Quot.sound, propext
Verif.c149_no_refusal: Classical.choice, Quot.sound, propext
Verif.c149_refused: Quot.sound, propext
Verif.c149_whole: Classical.choice, Quot.sound, propext
Verif.c14_reader_output_valid: Classical.choice, Quot.sound, propext
Verif.c14_reader_writes_valid: Classical.choice, Quot.sound, propext
Verif.c14_refuted_after_failure: propext
Verif.c150_lines: Classical.choice, Quot.sound, propext
Verif.c150_lossy: Classical.choice, Quot.sound, propext
Verif.c150_refuted_text_lines: propext
Verif.c150_small: propext
Verif.c151_pieces: Classical.choice, Quot.sound, propext
Verif.c151_refuted_long: propext
Verif.c151_room: Classical.choice, Quot.sound, propext
Verif.c151_sent: Classical.choice, Quot.sound, propext
Verif.c151_total: Classical.choice, Quot.sound, propext
Verif.c151_whole: Classical.choice, Quot.sound, propext
Verif.c152_pipe: Classical.choice, Quot.sound, propext
Verif.c152_refuted_direct: propext
Verif.c153_buffered: Classical.choice, Quot.sound, propext
Verif.c153_count: Classical.choice, Quot.sound, propext
Verif.c153_ends: Classical.choice, Quot.sound, propext
Verif.c153_refuted_direct: propext
Verif.c153_stuck: Quot.sound, propext
Verif.c154_chain: Classical.choice, Quot.sound, propext
Verif.c154_count: Classical.choice, Quot.sound, propext
Verif.c154_ends: Classical.choice, Quot.sound, propext
Verif.c154_refuted_sources: propext
Verif.c154_text: Classical.choice, Quot.sound, propext
Verif.c15_delivered_ends_newline: Classical.choice, Quot.sound, propext
Verif.c15_reader_ends_newline: Classical.choice, Quot.sound, propext
Verif.c15_reader_reaches_end: Classical.choice, Quot.sound, propext
Verif.c15_refuted_after_failure: propext
Verif.c16_buffer_independent: Classical.choice, Quot.sound, propext
Verif.c16_chunk_independent_partial: Classical.choice, Quot.sound, propext
Verif.c16_refuted_by_empty_read: propext
Verif.c16_refuted_by_unassigned: propext
Verif.c16_same_as_whole_iff: Classical.choice, Quot.sound, propext
Verif.c16_same_scalars_iff: Classical.choice, Quot.sound, propext
Verif.c17_reader_is_stream_iff: Classical.choice, Quot.sound, propext
Verif.c17_reader_is_stream_partial: Classical.choice, Quot.sound, propext
Verif.c17_reader_single_read: Classical.choice, Quot.sound, propext
Verif.c17_refuted_cut: Quot.sound, propext
Verif.c17_same_scalars: Classical.choice, Quot.sound, propext
Verif.c17_same_scalars_iff: Classical.choice, Quot.sound, propext
Verif.c17_single_leaves_out: Classical.choice, Quot.sound, propext
Verif.c18_reader_adds_newline: Classical.choice, Quot.sound, propext
Verif.c18_reader_identity: Classical.choice, Quot.sound, propext
Verif.c18_reader_identity_isolated: Classical.choice, Quot.sound, propext
Verif.c19_read_total: Classical.choice, Quot.sound, propext
Verif.c20_failed_read_untouched_partial: propext
Verif.c20_read_str_utf8_partial: Classical.choice, Quot.sound, propext
Verif.c20_refuted: propext
Verif.c20_utf8_iff: Classical.choice, Quot.sound, propext
Verif.c21_buffer_iff: Classical.choice, Quot.sound, propext
Verif.c21_refuted: propext
Verif.c21_refuted_seam: propext
Verif.c21_text_substr_prefix_partial: Classical.choice, Quot.sound, propext
Verif.c21_written_valid_partial: Classical.choice, Quot.sound, propext
Verif.c22_newline_forms: Classical.choice, Quot.sound, propext
Verif.c22_newline_forms_cut: Classical.choice, Quot.sound, propext
Verif.c22_newline_forms_single: Classical.choice, Quot.sound, propext
Verif.c22_same_calls: Classical.choice, Quot.sound, propext
Verif.c23_escape_removed: Classical.choice, Quot.sound, propext
Verif.c23_escape_removed_at_end: Classical.choice, Quot.sound, propext
Verif.c23_no_escape: Classical.choice, Quot.sound, propext
Verif.c23_same_calls: Classical.choice, Quot.sound, propext
Verif.c23_trailing_escape_adds_newline: propext
Verif.c24_bom_dropped_partial: Classical.choice, Quot.sound, propext
Verif.c24_dropped_iff: Classical.choice, Quot.sound, propext
Verif.c24_empty_first: Classical.choice, Quot.sound, propext
Verif.c24_refuted: propext
Verif.c24_same_calls: Classical.choice, Quot.sound, propext
Verif.c24_second_bom_partial: Classical.choice, Quot.sound, propext
Verif.c25_modes_only_affect: Classical.choice, Quot.sound, propext
Verif.c25_modes_translate: Classical.choice, Quot.sound, propext
Verif.c25_same_calls: Quot.sound, propext
Verif.c25_translate_same_calls: Classical.choice, Quot.sound, propext
Verif.c26_as_if_ended: Classical.choice, Quot.sound, propext
Verif.c26_exact: Classical.choice, Quot.sound, propext
Verif.c26_never_later: Classical.choice, Quot.sound, propext
Verif.c26_next_start_partial: Classical.choice, Quot.sound, propext
Verif.c26_push_after_newline_partial: Classical.choice, Quot.sound, propext
Verif.c26_push_flushes_partial: Classical.choice, Quot.sound, propext
Verif.c26_refuted_push_lost: propext
Verif.c26_refuted_start: propext
Verif.c26_refuted_text_kept: propext
Verif.c26_reported_iff: Classical.choice, Quot.sound, propext
Verif.c27_conserved_partial: Classical.choice, Quot.sound, propext
Verif.c27_error_keeps_text_partial: Quot.sound, propext
Verif.c27_lost_iff: Classical.choice, Quot.sound, propext
Verif.c27_refuted: propext
Verif.c28_abandon_iff_partial: Classical.choice, Quot.sound, propext
Verif.c28_abandon_partial: Classical.choice, Quot.sound, propext
Verif.c28_exact: Classical.choice, Quot.sound, propext
Verif.c28_exact_plain: Classical.choice, Quot.sound, propext
Verif.c28_no_newline: Classical.choice, Quot.sound, propext
Verif.c28_refuted: propext
Verif.c29_exact: Classical.choice, Quot.sound, propext
Verif.c29_read_exact_partial: Classical.choice, Quot.sound, propext
Verif.c29_refuted: Classical.choice, Quot.sound, propext
Verif.c30_cr_before_lf: Classical.choice, Quot.sound, propext
Verif.c30_sink_scalars: Classical.choice, Quot.sound, propext
Verif.c31_refuted: propext
Verif.c31_refuted_by_valid_text: propext
Verif.c31_stream_iff: Classical.choice, Quot.sound, propext
Verif.c31_stream_nfc_partial: Classical.choice, Quot.sound, propext
Verif.c31_write_nfc: Classical.choice, Quot.sound, propext
Verif.c32_after_flush_partial: Classical.choice, Quot.sound, propext
Verif.c32_color_partial: Classical.choice, Quot.sound, propext
Verif.c32_disarmed: Classical.choice, Quot.sound, propext
Verif.c32_first_after_flush_partial: Classical.choice, Quot.sound, propext
Verif.c32_first_write_partial: Classical.choice, Quot.sound, propext
Verif.c32_next_call: Classical.choice, Quot.sound, propext
Verif.c32_refuted: propext
Verif.c32_refuted_after_flush: propext
Verif.c32_refuted_color: Quot.sound, propext
Verif.c32_stream_start_partial: Classical.choice, Quot.sound, propext
Verif.c33_close_fails: Classical.choice, Quot.sound, propext
Verif.c33_close_iff: Classical.choice, Quot.sound, propext
Verif.c33_close_iff_sink: Classical.choice, Quot.sound, propext
Verif.c33_closed_newline_partial: Classical.choice, Quot.sound, propext
Verif.c33_refuted: propext
Verif.c34_failed_write_final: Classical.choice, Quot.sound, propext
Verif.c34_rejected_sends_nothing: Classical.choice, Quot.sound, propext
Verif.c35_drop_after_close: Quot.sound, propext
Verif.c35_drop_after_failure_partial: Classical.choice, Quot.sound, propext
Verif.c35_drop_after_flush_partial: propext
Verif.c35_drop_iff: Classical.choice, Quot.sound, propext
Verif.c35_no_panic: Classical.choice, Quot.sound, propext
Verif.c35_refuted_color: propext
Verif.c35_refuted_sink: propext
Verif.c36_color_sequences: Classical.choice, Quot.sound, propext
Verif.c36_no_escape: Classical.choice, Quot.sound, propext
Verif.c37_crlf: Classical.choice, Quot.sound, propext
Verif.c37_crlf_any_sink: Classical.choice, Quot.sound, propext
Verif.c38_write_str_accepts: Classical.choice, Quot.sound, propext
Verif.c38_write_str_exact: Classical.choice, Quot.sound, propext
Verif.c38_write_substr_exact: Classical.choice, Quot.sound, propext
Verif.c38_write_text_exact: Classical.choice, Quot.sound, propext
Verif.c39_byte_writes: Classical.choice, Quot.sound, propext
Verif.c39_count: Classical.choice, Quot.sound, propext
Verif.c39_longest_exists: Classical.choice, Quot.sound, propext
Verif.c40_flush_fails: Classical.choice, Quot.sound, propext
Verif.c40_flush_iff: Classical.choice, Quot.sound, propext
Verif.c40_flush_iff_sink: Classical.choice, Quot.sound, propext
Verif.c40_flush_ok_partial: Classical.choice, Quot.sound, propext
Verif.c40_refuted: propext
Verif.c41_any_content: Classical.choice, Quot.sound, propext
Verif.c41_lines_partial: Classical.choice, Quot.sound, propext
Verif.c41_refuted_lines: propext
Verif.c41_refuted_unterminated: propext
Verif.c41_text_lines: Classical.choice, Quot.sound, propext
Verif.c42_any_content: Classical.choice, Quot.sound, propext
Verif.c42_lossy_lines: Classical.choice, Quot.sound, propext
Verif.c42_lossy_lines_valid: Classical.choice, Quot.sound, propext
Verif.c42_unterminated: Classical.choice, Quot.sound, propext
Verif.c43_err_valid_partial: Quot.sound, propext
Verif.c43_failure_clears: propext
Verif.c43_lossy_err_partial: Classical.choice, Quot.sound, propext
Verif.c43_lossy_ok: Classical.choice, Quot.sound, propext
Verif.c43_no_io_error: Quot.sound, propext
Verif.c43_ok_appends: Classical.choice, Quot.sound, propext
Verif.c43_refuted_lossy_source_error: propext
Verif.c43_refuted_source_error: propext
Verif.c43_valid_iff: Classical.choice, Quot.sound, propext
Verif.c44_copy_text: Classical.choice, Quot.sound, propext
Verif.c44_copy_text_safe: Quot.sound, propext
Verif.c44_copy_using_status_partial: Classical.choice, Quot.sound, propext
Verif.c44_copy_using_status_safe: Quot.sound, propext
Verif.c44_refuted_using_status: propext
Verif.c44_using_status_exact: Classical.choice, Quot.sound, propext
Verif.c44_using_status_lines: Classical.choice, Quot.sound, propext
Verif.c45_newline_read_then_close: Classical.choice, Quot.sound, propext
Verif.c45_other_reads: Classical.choice, Quot.sound, propext
Verif.c45_reads_send_nothing: Classical.choice, Quot.sound, propext
Verif.c46_accepted_unchanged: Classical.choice, Quot.sound, propext
Verif.c46_rejected_changed: Classical.choice, Quot.sound, propext
Verif.c46_replacement: Classical.choice, Quot.sound, propext
Verif.c47_checked_back: Classical.choice, Quot.sound, propext
Verif.c47_checked_iff: Classical.choice, Quot.sound, propext
Verif.c47_checked_isolated_partial: Classical.choice, Quot.sound, propext
Verif.c47_checked_only_inserts: Classical.choice, Quot.sound, propext
Verif.c47_isolated_unchanged: Classical.choice, Quot.sound, propext
Verif.c47_lossy_iff: Classical.choice, Quot.sound, propext
Verif.c47_lossy_isolated_partial: Classical.choice, Quot.sound, propext
Verif.c47_reader_iff: Classical.choice, Quot.sound, propext
Verif.c47_reader_isolated_partial: Classical.choice, Quot.sound, propext
Verif.c47_refuted: propext
Verif.c48_answers: Classical.choice, Quot.sound, propext
Verif.c48_no_partial: Quot.sound, propext
Verif.c48_refuted_valid: propext
Verif.c48_refuted_yes: propext
Verif.c48_repaired_partial: Quot.sound, propext
Verif.c49_writer_reader: Classical.choice, Quot.sound, propext
Verif.c49_writer_reader_iff: Classical.choice, Quot.sound, propext
Verif.c49_writer_reader_split_partial: Classical.choice, Quot.sound, propext
Verif.c50_order: Classical.choice, Quot.sound, propext
Verif.c51_bytes_borrowed: Classical.choice, Quot.sound, propext
Verif.c51_bytes_errors: Classical.choice, Quot.sound, propext
Verif.c51_bytes_owned: Classical.choice, Quot.sound, propext
Verif.c51_encoding_unique: Classical.choice, Quot.sound, propext
Verif.c51_malformed_position: Classical.choice, Quot.sound, propext
Verif.c52_bom_read_back_partial: Classical.choice, Quot.sound, propext
Verif.c52_bom_writer: Quot.sound, propext
Verif.c52_refuted_empty_read: propext
Verif.c52_same_calls: Classical.choice, Quot.sound, propext
Verif.c52_same_scalars: Classical.choice, Quot.sound, propext
Verif.c53_accepts_iff: Classical.choice, Quot.sound, propext
Verif.c53_refuted_mark: propext
Verif.c53_substring_accepts_partial: Classical.choice, Quot.sound, propext
Verif.c53_substring_valid: Classical.choice, Quot.sound, propext
Verif.c54_read_iff: Classical.choice, Quot.sound, propext
Verif.c54_read_to_text_string_partial: Classical.choice, Quot.sound, propext
Verif.c54_refuted_error: propext
Verif.c54_refuted_interrupted: propext
Verif.c54_refuted_jamo: propext
Verif.c55_bom_inserts: Classical.choice, Quot.sound, propext
Verif.c55_closed_stream_valid: Classical.choice, Quot.sound, propext
Verif.c55_round_trip_bom_iff: Classical.choice, Quot.sound, propext
Verif.c55_round_trip_bom_partial: Classical.choice, Quot.sound, propext
Verif.c55_round_trip_crlf: Classical.choice, Quot.sound, propext
Verif.c55_round_trip_iff: Classical.choice, Quot.sound, propext
Verif.c55_round_trip_lf: Classical.choice, Quot.sound, propext
Verif.c55_single_write: Classical.choice, Quot.sound, propext
Verif.c56_end_partial: Classical.choice, Quot.sound, propext
Verif.c56_refuted_end: propext
Verif.c56_start: Classical.choice, Quot.sound, propext
Verif.c57_check: Classical.choice, Quot.sound, propext
Verif.c57_check_sequences: Quot.sound, propext
Verif.c57_no_row: Classical.choice, Quot.sound, propext
Verif.c57_refuted_ffi: none
Verif.c57_row_exact_partial: Quot.sound, propext
Verif.c57_row_partial: Classical.choice, Quot.sound, propext
Verif.c58_bytes_valid_up_to_partial: Classical.choice, Quot.sound, propext
Verif.c58_exact: Classical.choice, Quot.sound, propext
Verif.c58_refuted_malformed: propext
Verif.c58_substr_exact: Classical.choice, Quot.sound, propext
Verif.c59_calls_as_writer_partial: Classical.choice, Quot.sound, propext
Verif.c59_close_iff: Classical.choice, Quot.sound, propext
Verif.c59_color_calls_partial: Classical.choice, Quot.sound, propext
Verif.c59_color_needed: propext
Verif.c59_color_writes_partial: Classical.choice, Quot.sound, propext
Verif.c59_drop_iff: Classical.choice, Quot.sound, propext
Verif.c59_flush_iff: Classical.choice, Quot.sound, propext
Verif.c59_new: Classical.choice, Quot.sound, propext
Verif.c59_over: Classical.choice, Quot.sound, propext
Verif.c59_reads_as_reader: Classical.choice, Quot.sound, propext
Verif.c59_refuted_color: propext
Verif.c59_refuted_flush: propext
Verif.c59_writes_as_writer_partial: Classical.choice, Quot.sound, propext
Verif.c60_exact_never_ends_with_newline: Classical.choice, Quot.sound, propext
Verif.c60_exact_partial: Classical.choice, Quot.sound, propext
Verif.c60_refuted: Quot.sound, propext
Verif.c61_accepted_assigned_partial: Classical.choice, Quot.sound, propext
Verif.c61_accepted_iff: Classical.choice, Quot.sound, propext
Verif.c61_accepted_partial: Classical.choice, Quot.sound, propext
Verif.c61_basic_text_accepted: Classical.choice, Quot.sound, propext
Verif.c61_refuted_ender: propext
Verif.c61_refuted_isolation: propext
Verif.c61_substring: Classical.choice, Quot.sound, propext
Verif.c62_equal_iff_equivalent: Classical.choice, Quot.sound, propext
Verif.c62_text_equal_iff_equivalent: Classical.choice, Quot.sound, propext
Verif.c63_decomposition_unique: Classical.choice, Quot.sound, propext
Verif.c63_owned_equivalent: Classical.choice, Quot.sound, propext
Verif.c63_owned_is_nfc: Classical.choice, Quot.sound, propext
Verif.c63_owned_same_iff: Classical.choice, Quot.sound, propext
Verif.c64_owned_is_strict_partial: Classical.choice, Quot.sound, propext
Verif.c64_refuted_isolation: Classical.choice, Quot.sound, propext
Verif.c65_escapes_partial: Classical.choice, Quot.sound, propext
Verif.c65_lossy_is_document_iff: Classical.choice, Quot.sound, propext
Verif.c65_lossy_is_document_partial: Classical.choice, Quot.sound, propext
Verif.c65_refuted_bom: Quot.sound, propext
Verif.c65_refuted_can: Quot.sound, propext
Verif.c65_refuted_ender: Quot.sound, propext
Verif.c65_refuted_escape_end: Quot.sound, propext
Verif.c65_refuted_escape_start: Quot.sound, propext
Verif.c65_refuted_ffi: Quot.sound, propext
Verif.c65_refuted_inherent: Quot.sound, propext
Verif.c65_same_scalars_partial: Classical.choice, Quot.sound, propext
Verif.c66_escapes_partial: Classical.choice, Quot.sound, propext
Verif.c66_modes_partial: Classical.choice, Quot.sound, propext
Verif.c66_modes_same_scalars_partial: Classical.choice, Quot.sound, propext
Verif.c66_reader_is_document_iff: Classical.choice, Quot.sound, propext
Verif.c66_reader_is_document_partial: Classical.choice, Quot.sound, propext
Verif.c66_refuted_form_feed: Quot.sound, propext
Verif.c66_refuted_joiner: Quot.sound, propext
Verif.c66_refuted_nel: Quot.sound, propext
Verif.c66_refuted_swallowed: Quot.sound, propext
Verif.c66_same_scalars_partial: Classical.choice, Quot.sound, propext
Verif.c67_bytes_end: Classical.choice, Quot.sound, propext
Verif.c67_bytes_read: Classical.choice, Quot.sound, propext
Verif.c68_refuted_split: propext
Verif.c68_rejected_is_changed: Classical.choice, Quot.sound, propext
Verif.c68_write_all_total: Classical.choice, Quot.sound, propext
Verif.c68_write_close_iff: Classical.choice, Quot.sound, propext
Verif.c68_written_is_read: Classical.choice, Quot.sound, propext
Verif.c68_written_is_read_iff: Classical.choice, Quot.sound, propext
Verif.c68_written_is_read_split_partial: Classical.choice, Quot.sound, propext
Verif.c69_concatenation: Classical.choice, Quot.sound, propext
Verif.c69_concatenation_read: Classical.choice, Quot.sound, propext
Verif.c69_concatenation_read_iff: Classical.choice, Quot.sound, propext
Verif.c69_one_after_the_other: Classical.choice, Quot.sound, propext
Verif.c69_refuted_cut: propext
Verif.c70_bytes_lossy_accepted: Classical.choice, Quot.sound, propext
Verif.c70_bytes_lossy_total_valid: Classical.choice, Quot.sound, propext
Verif.c70_bytes_lossy_well_formed: Classical.choice, Quot.sound, propext
Verif.c70_ill_formed: Classical.choice, Quot.sound, propext
Verif.c70_loss_is_visible: Classical.choice, Quot.sound, propext
Verif.c70_loss_visible_iff: Classical.choice, Quot.sound, propext
Verif.c71_lossy_any: Classical.choice, Quot.sound, propext
Verif.c71_lossy_replacements: Classical.choice, Quot.sound, propext
Verif.c71_no_replacement: Classical.choice, Quot.sound, propext
Verif.c71_replacements: Classical.choice, Quot.sound, propext
Verif.c71_replacements_any: Classical.choice, Quot.sound, propext
Verif.c72_newlines: Classical.choice, Quot.sound, propext
Verif.c72_newlines_any: Classical.choice, Quot.sound, propext
Verif.c73_lines_cut: Classical.choice, Quot.sound, propext
Verif.c73_lines_independent: Classical.choice, Quot.sound, propext
Verif.c74_exact: Classical.choice, Quot.sound, propext
Verif.c74_pieces_decode: Classical.choice, Quot.sound, propext
Verif.c74_prompt: Classical.choice, Quot.sound, propext
Verif.c74_refuted_bom: propext
Verif.c74_split_anywhere_partial: Classical.choice, Quot.sound, propext
Verif.c75_exact: Classical.choice, Quot.sound, propext
Verif.c75_lines_partial: Classical.choice, Quot.sound, propext
Verif.c75_pieces_iff: Classical.choice, Quot.sound, propext
Verif.c75_refuted_cut: propext
Verif.c75_refuted_mark: propext
Verif.c75_total: Classical.choice, Quot.sound, propext
Verif.c76_all_vectored: Classical.choice, Quot.sound, propext
Verif.c76_empty: propext
Verif.c76_vectored: Classical.choice, Quot.sound, propext
Verif.c77_exact: Classical.choice, Quot.sound, propext
Verif.c77_fmt: Classical.choice, Quot.sound, propext
Verif.c77_fmt_lines_partial: Classical.choice, Quot.sound, propext
Verif.c77_refuted: propext
Verif.c78_arbitrary_partial: Classical.choice, Quot.sound, propext
Verif.c78_exact: Classical.choice, Quot.sound, propext
Verif.c78_refuted: propext
Verif.c78_substr_exact: Classical.choice, Quot.sound, propext
Verif.c78_substr_rest: Classical.choice, Quot.sound, propext
Verif.c78_substr_total: Classical.choice, Quot.sound, propext
Verif.c78_take_rest: Classical.choice, Quot.sound, propext
Verif.c79_history_partial: Classical.choice, Quot.sound, propext
Verif.c79_lines: Classical.choice, Quot.sound, propext
Verif.c79_never_recovers: Classical.choice, Quot.sound, propext
Verif.c79_refuted_hangul: propext
Verif.c79_step_iff: Classical.choice, Quot.sound, propext
Verif.c80_clusters_partial: Classical.choice, Quot.sound, propext
Verif.c80_junction_iff: Classical.choice, Quot.sound, propext
Verif.c80_newline: Classical.choice, Quot.sound, propext
Verif.c80_refuted: propext
Verif.c81_ascii_accepted: Classical.choice, Quot.sound, propext
Verif.c81_ascii_push: Classical.choice, Quot.sound, propext
Verif.c81_ascii_read: Classical.choice, Quot.sound, propext
Verif.c81_ascii_split: Classical.choice, Quot.sound, propext
Verif.c81_ascii_written: Classical.choice, Quot.sound, propext
Verif.c82_read_twice_iff: Classical.choice, Quot.sound, propext
Verif.c82_read_twice_partial: Classical.choice, Quot.sound, propext
Verif.c82_read_twice_whole_partial: Classical.choice, Quot.sound, propext
Verif.c82_refuted_cut: propext
Verif.c83_lossy_same_exact: Classical.choice, Quot.sound, propext
Verif.c83_lossy_same_iff_partial: Classical.choice, Quot.sound, propext
Verif.c83_refuted_substring: propext
Verif.c83_substring_lossy_valid: Classical.choice, Quot.sound, propext
Verif.c84_lossy_size: Classical.choice, Quot.sound, propext
Verif.c84_owned_size: Classical.choice, Quot.sound, propext
Verif.c84_read_size: Classical.choice, Quot.sound, propext
Verif.c84_write_size: Quot.sound, propext
Verif.c85_char_indices: Quot.sound, propext
Verif.c85_char_is_string: Classical.choice, Quot.sound, propext
Verif.c85_contains: Classical.choice, Quot.sound, propext
Verif.c85_find: Classical.choice, Quot.sound, propext
Verif.c85_find_if: Quot.sound, propext
Verif.c85_matches: Classical.choice, Quot.sound, propext
Verif.c85_matches_empty: Quot.sound, propext
Verif.c85_matches_from_end: Classical.choice, Quot.sound, propext
Verif.c85_matches_if: Quot.sound, propext
Verif.c85_most_matches: Classical.choice, Quot.sound, propext
Verif.c85_slices: Classical.choice, Quot.sound, propext
Verif.c86_lines: Quot.sound, propext
Verif.c86_lines_valid_partial: Classical.choice, Quot.sound, propext
Verif.c86_refuted_read: propext
Verif.c86_refuted_text: propext
Verif.c87_lines_prompt_partial: Classical.choice, Quot.sound, propext
Verif.c87_refuted_bounded: Classical.choice, Quot.sound, propext
Verif.c88_cuts: Classical.choice, Quot.sound, propext
Verif.c88_cuts_without_empty_reads: Classical.choice, Quot.sound, propext
Verif.c88_lossy_again: Classical.choice, Quot.sound, propext
Verif.c88_lossy_cuts: Classical.choice, Quot.sound, propext
Verif.c88_lossy_unchanged: Classical.choice, Quot.sound, propext
Verif.c88_reader_unchanged: Classical.choice, Quot.sound, propext
Verif.c88_stream: Classical.choice, Quot.sound, propext
Verif.c89_form: Classical.choice, Quot.sound, propext
Verif.c89_isolates: Classical.choice, Quot.sound, propext
Verif.c89_normalizes: Classical.choice, Quot.sound, propext
Verif.c89_single_read: Classical.choice, Quot.sound, propext
Verif.c89_single_read_isolates: Classical.choice, Quot.sound, propext
Verif.c89_strict: Classical.choice, Quot.sound, propext
Verif.c89_unchanged: Classical.choice, Quot.sound, propext
Verif.c90_about_itself: Classical.choice, Quot.sound, propext
Verif.c90_accepted_iff: Classical.choice, Quot.sound, propext
Verif.c90_follow_lossy_partial: Classical.choice, Quot.sound, propext
Verif.c90_follow_reader_partial: Classical.choice, Quot.sound, propext
Verif.c90_refuted: Classical.choice, Quot.sound, propext
Verif.c90_refuted_escape: propext
Verif.c90_refuted_exists: none
Verif.c90_row_partial: Classical.choice, Quot.sound, propext
Verif.c91_at_most_one: Quot.sound, propext
Verif.c91_consults_iff: Classical.choice, Quot.sound, propext
Verif.c91_refuted: propext
Verif.c91_session: Quot.sound, propext
Verif.c91_without_source: Classical.choice, Quot.sound, propext
Verif.c92_exact_borrowed_partial: Classical.choice, Quot.sound, propext
Verif.c92_exact_owned: Classical.choice, Quot.sound, propext
Verif.c92_refuted_owned: propext
Verif.c92_split_at_error: Classical.choice, Quot.sound, propext
Verif.c92_split_at_error_borrowed_partial: Classical.choice, Quot.sound, propext
Verif.c93_cat: Classical.choice, Quot.sound, propext
Verif.c93_cat_twice_iff: Classical.choice, Quot.sound, propext
Verif.c93_cat_twice_partial: Classical.choice, Quot.sound, propext
Verif.c93_cat_unchanged: Classical.choice, Quot.sound, propext
Verif.c93_refuted_twice: propext
Verif.c93_safe: Classical.choice, Quot.sound, propext
Verif.c94_chain: Classical.choice, Quot.sound, propext
Verif.c94_chain_categorized: Classical.choice, Quot.sound, propext
Verif.c94_reader: Classical.choice, Quot.sound, propext
Verif.c94_writer: Classical.choice, Quot.sound, propext
Verif.c95_first: Quot.sound, propext
Verif.c95_first_ascii: Classical.choice, Quot.sound, propext
Verif.c95_first_crlf: Quot.sound, propext
Verif.c95_refuted_first: Quot.sound, propext
Verif.c95_single: Classical.choice, Quot.sound, propext
Verif.c95_text_error_iff: Classical.choice, Quot.sound, propext
Verif.c95_write_error: Classical.choice, Quot.sound, propext
Verif.c96_agrees: Classical.choice, Quot.sound, propext
Verif.c96_ascii_no_panic_partial: Classical.choice, Quot.sound, propext
Verif.c96_ok_fills: Classical.choice, Quot.sound, propext
Verif.c96_panic_iff: Classical.choice, Quot.sound, propext
Verif.c96_refuted_interrupted: propext
Verif.c96_refuted_panic: propext
Verif.c96_returns: Classical.choice, Quot.sound, propext
Verif.c96_status_returns: Classical.choice, Quot.sound, propext
Verif.c97_failure: Classical.choice, Quot.sound, propext
Verif.c97_nfc_cat: Classical.choice, Quot.sound, propext
Verif.c97_nfc_output: Classical.choice, Quot.sound, propext
Verif.c97_nfc_twice_iff: Classical.choice, Quot.sound, propext
Verif.c97_refuted_idempotent: propext
Verif.c97_ssnfc_cat: Classical.choice, Quot.sound, propext
Verif.c97_ssnfc_output: Classical.choice, Quot.sound, propext
Verif.c97_ssnfc_twice_iff: Classical.choice, Quot.sound, propext
Verif.c97_text_unchanged: Classical.choice, Quot.sound, propext
Verif.c98_other_assertions: Classical.choice, Quot.sound, propext
Verif.c98_passes: Classical.choice, Quot.sound, propext
Verif.c98_passes_iff: Classical.choice, Quot.sound, propext
Verif.c98_refuted: propext
Verif.c98_refuted_cut: Classical.choice, Quot.sound, propext
Verif.c99_after_failure: Classical.choice, Quot.sound, propext
Verif.c99_bytes: Classical.choice, Quot.sound, propext
Verif.c99_calls: Classical.choice, Quot.sound, propext
Verif.c99_close: Classical.choice, Quot.sound, propext
Verif.c99_flush: Classical.choice, Quot.sound, propext
Verif.c99_joiner: Classical.choice, Quot.sound, propext
Verif.c99_str: Classical.choice, Quot.sound, propext
Verif.c99_text: Quot.sound, propext
