{
 "claims": [
  {
   "property": "C01",
   "status": "proved",
   "theorems": [
    "Verif.c01_lossy_total_valid"
   ],
   "note": "For every string, every cutting of it into reads (first read not empty, as for a byte slice) and every schedule of buffer sizes of at least 136 bytes."
  },
  {
   "property": "C02",
   "status": "proved",
   "theorems": [
    "Verif.c02_only_inserts",
    "Verif.c02_lossy_fixes_iff",
    "Verif.c02_lossy_fixes_valid",
    "Verif.c02_refuted_unassigned",
    "Verif.c02_lossy_fixes_isolated"
   ],
   "note": "For every cutting (`c88_lossy_unchanged`: of assigned scalars, and of those only); without the proviso on unassigned scalars it is refuted; `c02_lossy_fixes_iff` says for each split whether it holds. `c02_only_inserts`: for every split, valid text at most gets U+34F inserted."
  },
  {
   "property": "C03",
   "status": "partial",
   "theorems": [
    "Verif.c03_only_inserts",
    "Verif.c03_lossy_idempotent_iff",
    "Verif.c03_lossy_idempotent_whole",
    "Verif.c03_lossy_idempotent_single",
    "Verif.c03_lossy_idempotent_partial",
    "Verif.c03_refuted_cut"
   ],
   "note": "Proved when the reader gets both strings in one piece (with the end reported separately or not), and for every cutting exactly if the result has no unassigned scalars (`c88_lossy_again`). Refuted for a cutting between U+34F and an unassigned scalar, which happens for strings over 4096 bytes; `c03_lossy_idempotent_iff` says for each split whether it holds. `c03_only_inserts`: for every two splits at most U+34F are inserted."
  },
  {
   "property": "C04",
   "status": "partial",
   "theorems": [
    "Verif.c04_same_scalars",
    "Verif.c04_lossy_exact_iff",
    "Verif.c04_lossy_is_string_iff",
    "Verif.c04_scalars_exact",
    "Verif.c04_lossy_exact",
    "Verif.c04_lossy_algorithm_iff",
    "Verif.c04_lossy_algorithm_partial",
    "Verif.c04_refuted_escape_newline",
    "Verif.c04_refuted_isolation"
   ],
   "note": "Equal to the whole-string specification for every cutting, unless the string has U+34F directly before an unassigned scalar (exactly then the cutting matters, `c88_lossy_cuts`), or ends with a newline inside an escape sequence; both refuted. `c04_lossy_exact`: in the latter case, and only then, one newline is added. Differences between that specification and the letter of the document are listed in DESIGN.md. `c04_same_scalars`: apart from U+34F without the first proviso. `c04_scalars_exact`: for every string and cutting, apart from U+34F. Exactly: `c04_lossy_exact_iff` (the result is the specification, with the newline of an unfinished escape sequence behind it, iff the text is Balanced, i.e. no U+34F directly before an unassigned scalar hides it, and no non-final read ends inside a normalization unit), `c04_lossy_is_string_iff`."
  },
  {
   "property": "C05",
   "status": "proved",
   "theorems": [
    "Verif.c05_owned_valid",
    "Verif.c05_owned_normalizes",
    "Verif.c05_owned_accepts"
   ],
   "note": "With the exact acceptance condition and the value returned. Exactly when the result is the normalization: `c89_normalizes`."
  },
  {
   "property": "C06",
   "status": "proved",
   "theorems": [
    "Verif.c06_owned_accepts_valid",
    "Verif.c06_refuted_unassigned"
   ],
   "note": "Unchanged only without unassigned scalars; otherwise refuted."
  },
  {
   "property": "C07",
   "status": "proved",
   "theorems": [
    "Verif.c07_valid_up_to_borrowed",
    "Verif.c07_valid_up_to_owned",
    "Verif.c07_error_inside",
    "Verif.c07_refuted_longest"
   ],
   "note": "For borrowed and owned conversions; also the prefix one scalar longer is not valid, though a still longer one may be."
  },
  {
   "property": "C08",
   "status": "proved",
   "theorems": [
    "Verif.c08_valid_up_to_exact"
   ],
   "note": "The valid prefixes are exactly those of at most that length."
  },
  {
   "property": "C09",
   "status": "proved",
   "theorems": [
    "Verif.c09_slices_valid",
    "Verif.c09_text_is_substr"
   ],
   "note": "For all three kinds of range."
  },
  {
   "property": "C10",
   "status": "proved",
   "theorems": [
    "Verif.c10_split_substr",
    "Verif.c10_split_text",
    "Verif.c10_refuted_text_boundary"
   ],
   "note": "With the exact condition for a panic in both cases; a TextStr also panics at scalar boundaries where a half is not Basic Text."
  },
  {
   "property": "C11",
   "status": "partial",
   "theorems": [
    "Verif.c11_whitespace",
    "Verif.c11_trim_meaning",
    "Verif.c11_trim_substr",
    "Verif.c11_trim_text_partial",
    "Verif.c11_trim_ascii",
    "Verif.c11_refuted_trim_text"
   ],
   "note": "Proved for TextSubstr. For TextStr exactly when the remaining first and last scalars may stand there, in particular if ASCII; refuted otherwise."
  },
  {
   "property": "C12",
   "status": "partial",
   "theorems": [
    "Verif.c12_push_iff",
    "Verif.c12_append_newline",
    "Verif.c12_extend_iff",
    "Verif.c12_push_valid_partial",
    "Verif.c12_extend_valid_partial",
    "Verif.c12_push_value",
    "Verif.c12_refuted_jamo"
   ],
   "note": "Proved exactly: appending gives Basic Text unless the last scalar of the one and the first of the other make a Hangul syllable (c12_push_iff), and the same for a list of texts (c12_extend_iff); refuted there. Always holds after a text that ends with U+A."
  },
  {
   "property": "C13",
   "status": "partial",
   "theorems": [
    "Verif.c13_repeat_iff",
    "Verif.c13_repeat_substr_iff",
    "Verif.c13_repeat_substr_31",
    "Verif.c13_repeat_text_partial",
    "Verif.c13_repeat_substr_partial",
    "Verif.c13_refuted_text",
    "Verif.c13_refuted_substr"
   ],
   "note": "For TextStr proved exactly: repeating gives Basic Text unless the last and first scalars make a Hangul syllable (c13_repeat_iff). For TextSubstr proved unless it begins with a Hangul vowel or trailing jamo or with something that may not start Basic Text; refuted there. Exact for TextSubstr too (c13_repeat_substr_iff): n copies are a substring if and only if two are and the nonstarters stay within 30 or are interrupted."
  },
  {
   "property": "C14",
   "status": "proved",
   "theorems": [
    "Verif.c14_refuted_after_failure",
    "Verif.c14_reader_writes_valid",
    "Verif.c14_reader_output_valid"
   ],
   "note": "Every text written by any sequence of reads of any buffer sizes over any source script (any chunking, pushes, errors) is a valid substring whose first scalar is a start scalar; complete runs give valid Basic Text. c14_refuted_after_failure: when the source has failed once and the client reads on, the proviso is needed: what the failed read wrote is not delivered, and the rest need not be Basic Text together with what came before."
  },
  {
   "property": "C15",
   "status": "proved",
   "theorems": [
    "Verif.c15_delivered_ends_newline",
    "Verif.c15_refuted_after_failure",
    "Verif.c15_reader_ends_newline",
    "Verif.c15_reader_reaches_end"
   ],
   "note": "A complete run delivers the empty text or text ending with U+A; every infinite schedule of buffers of at least 136 bytes over a source that ends reaches the end. c15_delivered_ends_newline is about what the successful reads deliver, for sources that do not fail; the proviso is needed (c15_refuted_after_failure); counting what failed reads have written it is not (c15_reader_ends_newline)."
  },
  {
   "property": "C16",
   "status": "partial",
   "theorems": [
    "Verif.c16_same_scalars_iff",
    "Verif.c16_same_as_whole_iff",
    "Verif.c16_chunk_independent_partial",
    "Verif.c16_buffer_independent",
    "Verif.c16_refuted_by_empty_read",
    "Verif.c16_refuted_by_unassigned"
   ],
   "note": "Holds for sources whose first read is not empty or that do not begin with U+FEFF, and with no U+34F directly before an unassigned scalar; `c88_cuts` shows that for every other content some cut does make a difference, so the condition is exact. Two refutations with witnesses. Independence of the buffer sizes holds unconditionally. `c110_same_scalars`: without the second proviso the texts still agree apart from U+34F, and `c110_same_iff` says for each split whether it matters. `c16_same_scalars_iff`, `c16_same_as_whole_iff`: exact conditions without any proviso."
  },
  {
   "property": "C17",
   "status": "partial",
   "theorems": [
    "Verif.c17_same_scalars",
    "Verif.c17_single_leaves_out",
    "Verif.c17_same_scalars_iff",
    "Verif.c17_reader_is_stream_iff",
    "Verif.c17_reader_is_stream_partial",
    "Verif.c17_reader_single_read",
    "Verif.c17_refuted_cut"
   ],
   "note": "Equal to Spec.stream under the same provisos as C16, and without them for a source delivered by one read; Spec.stream settles CAN after ESC, the start/end guards and the final newline the way the code does, see DESIGN.md for the differences from the document. `c88_stream`: the provisos are necessary. `c17_same_scalars`: apart from U+34F always equal; in one read only some U+34F are left out. `c17_same_scalars_iff` is exact in U+FEFF too. Exactly: `c17_reader_is_stream_iff` (the delivered text is the stream conversion iff the mark is not preceded by an empty read, the text is Balanced, and no non-final read ends inside a normalization unit). Refuted for reads that end inside (`c17_refuted_cut`)."
  },
  {
   "property": "C18",
   "status": "proved",
   "theorems": [
    "Verif.c18_reader_identity",
    "Verif.c18_reader_adds_newline",
    "Verif.c18_reader_identity_isolated"
   ],
   "note": "Valid text of assigned scalars is delivered unchanged, with U+A added if it does not end with one; `c88_reader_unchanged`: for all cuts only such text."
  },
  {
   "property": "C19",
   "status": "proved",
   "theorems": [
    "Verif.c19_read_total"
   ],
   "note": "No read panics; never more bytes than the buffer holds are written."
  },
  {
   "property": "C20",
   "status": "partial",
   "theorems": [
    "Verif.c20_read_str_utf8_partial",
    "Verif.c20_failed_read_untouched_partial",
    "Verif.c20_refuted",
    "Verif.c20_utf8_iff"
   ],
   "note": "Proved exactly when the buffer is still UTF-8 (c20_utf8_iff): after every successful call, and after a failed one if what it wrote ends at a character boundary of the old content; refuted otherwise."
  },
  {
   "property": "C21",
   "status": "partial",
   "theorems": [
    "Verif.c21_text_substr_prefix_partial",
    "Verif.c21_refuted",
    "Verif.c21_refuted_seam",
    "Verif.c21_written_valid_partial",
    "Verif.c21_buffer_iff"
   ],
   "note": "What is written is a valid substring in every state; proved exactly when the whole buffer still is one (c21_buffer_iff); two refutations (U+0 filling; seam)."
  },
  {
   "property": "C22",
   "status": "proved",
   "theorems": [
    "Verif.c22_same_calls",
    "Verif.c22_newline_forms_cut",
    "Verif.c22_newline_forms",
    "Verif.c22_newline_forms_single"
   ],
   "note": "For content without ESC, all CRLF and lone CR may be replaced by LF; provisos on byte-order marks and U+34F before unassigned scalars as in C16 except for single reads. Without these provisos call by call (`c22_same_calls`, `c22_newline_forms_cut`): any source without ESC, with pushes and errors, against the one with LF for CRLF and CR, cut alike."
  },
  {
   "property": "C23",
   "status": "proved",
   "theorems": [
    "Verif.c23_same_calls",
    "Verif.c23_no_escape",
    "Verif.c23_escape_removed",
    "Verif.c23_escape_removed_at_end",
    "Verif.c23_trailing_escape_adds_newline"
   ],
   "note": "ESC is never delivered; a complete CSI/OSC/Linux/two-character sequence in ordinary text contributes nothing (provisos as in C16). Without these provisos call by call (`c23_same_calls`): the sequence may be cut into reads; the other source has the same reads without its scalars."
  },
  {
   "property": "C24",
   "status": "partial",
   "theorems": [
    "Verif.c24_dropped_iff",
    "Verif.c24_same_calls",
    "Verif.c24_bom_dropped_partial",
    "Verif.c24_second_bom_partial",
    "Verif.c24_refuted",
    "Verif.c24_empty_first"
   ],
   "note": "Dropped unless the first read of the source returns no text: refuted with a witness in that case. c24_empty_first: after an empty first read a leading BOM comes out as U+2060, whatever follows. `c24_dropped_iff`: exactly when.  c24_same_calls: call by call the same as without it, whatever follows, if the first read brings it."
  },
  {
   "property": "C25",
   "status": "proved",
   "theorems": [
    "Verif.c25_same_calls",
    "Verif.c25_translate_same_calls",
    "Verif.c25_modes_only_affect",
    "Verif.c25_modes_translate"
   ],
   "note": "The modes only affect U+85, U+2028, U+2029; each stands for newline or space as the mode says (provisos as in C16). Without these provisos call by call (`c25_same_calls`, `c25_translate_same_calls`)."
  },
  {
   "property": "C26",
   "status": "partial",
   "theorems": [
    "Verif.c26_reported_iff",
    "Verif.c26_never_later",
    "Verif.c26_as_if_ended",
    "Verif.c26_exact",
    "Verif.c26_next_start_partial",
    "Verif.c26_push_after_newline_partial",
    "Verif.c26_push_flushes_partial",
    "Verif.c26_refuted_text_kept",
    "Verif.c26_refuted_push_lost",
    "Verif.c26_refuted_start"
   ],
   "note": "Holds for text ending with a newline before the only push; in general everything up to the last newline or U+34F is delivered. The full claim is refuted three ways.  c26_reported_iff, c26_never_later: exactly which pushes are reported (the read that takes the push in leaves room for a scalar). c26_as_if_ended: at a reported push, with any number of pushes before, all but at most the last line of what would be delivered if the source ended there. c26_next_start_partial: the start, if pushes come at ends of lines.  c26_exact: exactly when all of it has been delivered at a reported push (Spec.AtLineEnd)."
  },
  {
   "property": "C27",
   "status": "partial",
   "theorems": [
    "Verif.c27_error_keeps_text_partial",
    "Verif.c27_refuted",
    "Verif.c27_conserved_partial",
    "Verif.c27_lost_iff"
   ],
   "note": "Proved what is lost exactly: the text written to the buffers of the failed calls, and nothing else (c27_conserved_partial, c27_lost_iff); that there may be such text is the refutation."
  },
  {
   "property": "C28",
   "status": "partial",
   "theorems": [
    "Verif.c28_exact",
    "Verif.c28_exact_plain",
    "Verif.c28_no_newline",
    "Verif.c28_abandon_partial",
    "Verif.c28_refuted",
    "Verif.c28_abandon_iff_partial"
   ],
   "note": "Holds after the end and before the first read; for plain text proved exactly when it panics (in the middle of a line); refuted there.  `c28_exact`: for every content exactly when it panics; `c28_exact_plain`: in terms of the last scalar, without escapes.  After a successful abandon the end of the stream adds no newline (c28_no_newline)."
  },
  {
   "property": "C29",
   "status": "partial",
   "theorems": [
    "Verif.c29_exact",
    "Verif.c29_read_exact_partial",
    "Verif.c29_refuted"
   ],
   "note": "Success fills the buffer exactly; success is impossible unless the text filling the buffer ends with a four-byte scalar, which refutes the claim. c29_exact: for a source that delivers its content in one read, exactly when it succeeds and which error it reports otherwise."
  },
  {
   "property": "C30",
   "status": "proved",
   "theorems": [
    "Verif.c30_sink_scalars",
    "Verif.c30_cr_before_lf"
   ],
   "note": "For every call sequence, constructor and sink behaviour; U+D is only sent as the first half of U+D U+A."
  },
  {
   "property": "C31",
   "status": "partial",
   "theorems": [
    "Verif.c31_stream_iff",
    "Verif.c31_write_nfc",
    "Verif.c31_stream_nfc_partial",
    "Verif.c31_refuted",
    "Verif.c31_refuted_by_valid_text"
   ],
   "note": "Each call sends stream-safe NFC in every mode. The whole stream is, in every mode, for writes that begin with a scalar that may start Basic Text, if and only if no two writes make a Hangul syllable (c31_stream_iff); refuted in general, even for writes of valid Basic Text."
  },
  {
   "property": "C32",
   "status": "partial",
   "theorems": [
    "Verif.c32_first_write_partial",
    "Verif.c32_first_after_flush_partial",
    "Verif.c32_disarmed",
    "Verif.c32_color_partial",
    "Verif.c32_refuted_color",
    "Verif.c32_stream_start_partial",
    "Verif.c32_after_flush_partial",
    "Verif.c32_next_call",
    "Verif.c32_refuted",
    "Verif.c32_refuted_after_flush"
   ],
   "note": "Holds for the call right after construction or a successful flush, and for the whole stream and after each flush if no write is empty (no color); an empty write disarms the check: refuted. Sharper: only the first write after construction or a flush must not be empty, and an empty one switches the check off altogether (c32_disarmed). With color as well, if also every write_text begins with a scalar that may start Basic Text (c32_color_partial); without that it fails, as write_text drops a held-back sequence that has used up the check (c32_refuted_color)."
  },
  {
   "property": "C33",
   "status": "partial",
   "theorems": [
    "Verif.c33_close_iff",
    "Verif.c33_close_iff_sink",
    "Verif.c33_closed_newline_partial",
    "Verif.c33_close_fails",
    "Verif.c33_refuted"
   ],
   "note": "Holds unless write_text is given an empty text: refuted in that case. Converse: close fails when the text does not end with U+A. c33_close_iff: exactly when close succeeds, after any calls. c33_close_iff_sink: the same in terms of what the inner stream answers."
  },
  {
   "property": "C34",
   "status": "proved",
   "theorems": [
    "Verif.c34_failed_write_final",
    "Verif.c34_rejected_sends_nothing"
   ],
   "note": "For every state and sink; every later call fails too; a write rejected for its text has sent nothing."
  },
  {
   "property": "C35",
   "status": "partial",
   "theorems": [
    "Verif.c35_drop_iff",
    "Verif.c35_no_panic",
    "Verif.c35_drop_after_failure_partial",
    "Verif.c35_drop_after_close",
    "Verif.c35_drop_after_flush_partial",
    "Verif.c35_refuted_color",
    "Verif.c35_refuted_sink"
   ],
   "note": "No call panics; drop is safe after a failed write or close, after close, abandon, and a flush refused for a joiner. Refuted for a flush inside a color sequence and for a flush failing in the sink in the middle of a line. c35_drop_iff: exactly when drop panics, after any calls."
  },
  {
   "property": "C36",
   "status": "proved",
   "theorems": [
    "Verif.c36_color_sequences",
    "Verif.c36_no_escape"
   ],
   "note": "For every call sequence; if the sink itself fails half way through a write, the sequence it was sending may be cut there."
  },
  {
   "property": "C37",
   "status": "proved",
   "theorems": [
    "Verif.c37_crlf_any_sink",
    "Verif.c37_crlf"
   ],
   "note": "For every call sequence over sinks that do not fail. c37_crlf_any_sink: also on sinks that fail, if they fail at the same operations."
  },
  {
   "property": "C38",
   "status": "proved",
   "theorems": [
    "Verif.c38_write_str_exact",
    "Verif.c38_write_text_exact",
    "Verif.c38_write_substr_exact",
    "Verif.c38_write_str_accepts"
   ],
   "note": "Also in the middle of a stream, in both newline modes; the exact acceptance condition of write_str and the exact text sent are given."
  },
  {
   "property": "C39",
   "status": "proved",
   "theorems": [
    "Verif.c39_byte_writes",
    "Verif.c39_longest_exists",
    "Verif.c39_count"
   ],
   "note": "For all byte strings and writer states."
  },
  {
   "property": "C40",
   "status": "partial",
   "theorems": [
    "Verif.c40_flush_iff",
    "Verif.c40_flush_iff_sink",
    "Verif.c40_flush_fails",
    "Verif.c40_flush_ok_partial",
    "Verif.c40_refuted"
   ],
   "note": "Holds unless write_text is given an empty text: refuted in that case. c40_flush_iff: exactly when flush succeeds, after any calls. c40_flush_iff_sink: the same in terms of what the inner stream answers."
  },
  {
   "property": "C41",
   "status": "partial",
   "theorems": [
    "Verif.c41_any_content",
    "Verif.c41_text_lines",
    "Verif.c41_lines_partial",
    "Verif.c41_refuted_lines",
    "Verif.c41_refuted_unterminated"
   ],
   "note": "Proved for newline-terminated content: the items are the lines, each with its own verdict; refuted for valid content whose lines are not valid by themselves, and for an unterminated last line. With an unterminated last line the items are exact too (c41_any_content)."
  },
  {
   "property": "C42",
   "status": "proved",
   "theorems": [
    "Verif.c42_any_content",
    "Verif.c42_lossy_lines_valid",
    "Verif.c42_lossy_lines",
    "Verif.c42_unterminated"
   ],
   "note": "For every source; items are exact for terminated lines, and what happens to an unterminated one is stated. With an unterminated last line the items are exact too (c42_any_content)."
  },
  {
   "property": "C43",
   "status": "partial",
   "theorems": [
    "Verif.c43_ok_appends",
    "Verif.c43_err_valid_partial",
    "Verif.c43_no_io_error",
    "Verif.c43_refuted_source_error",
    "Verif.c43_failure_clears",
    "Verif.c43_lossy_ok",
    "Verif.c43_lossy_err_partial",
    "Verif.c43_refuted_lossy_source_error",
    "Verif.c43_valid_iff"
   ],
   "note": "Proved unless the source fails in the middle of a line; refuted there (unchecked text is left in the TextString). Likewise for read_text_line_lossy. `c43_valid_iff`: exactly when the buffer is valid."
  },
  {
   "property": "C44",
   "status": "partial",
   "theorems": [
    "Verif.c44_copy_text_safe",
    "Verif.c44_copy_using_status_safe",
    "Verif.c44_copy_text",
    "Verif.c44_copy_using_status_partial",
    "Verif.c44_refuted_using_status",
    "Verif.c44_using_status_exact",
    "Verif.c44_using_status_lines"
   ],
   "note": "copy_text: proved for every source that ends without failing, pushes included; and for every source and sink, Ok means everything was sent. copy_text_using_status: refuted with a push in the middle of a line; c44_using_status_exact says exactly when it copies and what it has sent when it fails, and c44_using_status_lines proves it for sources that push at ends of lines."
  },
  {
   "property": "C45",
   "status": "proved",
   "theorems": [
    "Verif.c45_reads_send_nothing",
    "Verif.c45_newline_read_then_close",
    "Verif.c45_other_reads"
   ],
   "note": "For every interleaving of reads and writes."
  },
  {
   "property": "C46",
   "status": "proved",
   "theorems": [
    "Verif.c46_accepted_unchanged",
    "Verif.c46_rejected_changed",
    "Verif.c46_replacement"
   ],
   "note": "For every scalar, and for a rejected scalar in every context."
  },
  {
   "property": "C47",
   "status": "partial",
   "theorems": [
    "Verif.c47_reader_iff",
    "Verif.c47_lossy_iff",
    "Verif.c47_checked_iff",
    "Verif.c47_lossy_isolated_partial",
    "Verif.c47_reader_isolated_partial",
    "Verif.c47_checked_isolated_partial",
    "Verif.c47_checked_only_inserts",
    "Verif.c47_checked_back",
    "Verif.c47_isolated_unchanged",
    "Verif.c47_refuted"
   ],
   "note": "Proved for lossy, checked and stream conversion unless the text contains U+34F directly before an unassigned scalar; refuted there (a U+34F already before the scalar suppresses the one after it).  The exact condition, however the content is cut: c47_reader_iff, c47_lossy_iff; for the checked conversion c47_checked_iff."
  },
  {
   "property": "C48",
   "status": "partial",
   "theorems": [
    "Verif.c48_refuted_valid",
    "Verif.c48_refuted_yes",
    "Verif.c48_no_partial",
    "Verif.c48_answers",
    "Verif.c48_repaired_partial"
   ],
   "note": "Refuted: the test is inverted, so every valid string gets Some(false) and Some(true) is always wrong. Proved: what the answers mean where they are right, and that with the test turned round the check would agree."
  },
  {
   "property": "C49",
   "status": "proved",
   "theorems": [
    "Verif.c49_writer_reader_iff",
    "Verif.c49_writer_reader",
    "Verif.c49_writer_reader_split_partial"
   ],
   "note": "For a string read in one piece, unconditionally; for any split, if no U+34F comes directly before an unassigned scalar (C16). The text added at the end is spelled out. `c49_writer_reader_iff`: for every split, exactly when."
  },
  {
   "property": "C50",
   "status": "proved",
   "theorems": [
    "Verif.c50_order"
   ],
   "note": "For all pairs of scalar sequences."
  },
  {
   "property": "C51",
   "status": "proved",
   "theorems": [
    "Verif.c51_bytes_borrowed",
    "Verif.c51_bytes_owned",
    "Verif.c51_bytes_errors",
    "Verif.c51_malformed_position",
    "Verif.c51_encoding_unique"
   ],
   "note": "For all byte strings."
  },
  {
   "property": "C52",
   "status": "partial",
   "theorems": [
    "Verif.c52_same_scalars",
    "Verif.c52_same_calls",
    "Verif.c52_refuted_empty_read",
    "Verif.c52_bom_writer",
    "Verif.c52_bom_read_back_partial"
   ],
   "note": "Writer side for every call sequence and sink; the reader side needs a non-empty first read (C24) and the proviso of C16. `c52_same_scalars`: apart from U+34F without that proviso.  c52_same_calls: without it, call by call, if both come in the same reads. Refuted for an empty first read (`c52_refuted_empty_read`)."
  },
  {
   "property": "C53",
   "status": "partial",
   "theorems": [
    "Verif.c53_accepts_iff",
    "Verif.c53_substring_accepts_partial",
    "Verif.c53_substring_valid",
    "Verif.c53_refuted_mark"
   ],
   "note": "Of the valid substrings exactly the Basic Text strings are accepted; refuted for a lone combining mark. `c53_accepts_iff`: for all strings, it accepts what TextString::from_text does."
  },
  {
   "property": "C54",
   "status": "partial",
   "theorems": [
    "Verif.c54_refuted_interrupted",
    "Verif.c54_read_iff",
    "Verif.c54_read_to_text_string_partial",
    "Verif.c54_refuted_error",
    "Verif.c54_refuted_jamo"
   ],
   "note": "Proved after Ok unless the text begins with a Hangul vowel or trailing jamo; refuted after Err and for jamo. c54_refuted_interrupted: after an interrupted read too."
  },
  {
   "property": "C55",
   "status": "partial",
   "theorems": [
    "Verif.c55_round_trip_iff",
    "Verif.c55_bom_inserts",
    "Verif.c55_round_trip_bom_iff",
    "Verif.c55_closed_stream_valid",
    "Verif.c55_round_trip_lf",
    "Verif.c55_round_trip_crlf",
    "Verif.c55_round_trip_bom_partial",
    "Verif.c55_single_write"
   ],
   "note": "For one write of any string of assigned scalars, and for any sequence of writes that are not empty and begin at a boundary, in LF and CRLF mode for every split; in BOM mode for every split whose first read is not empty (false otherwise, see C24). `c55_round_trip_iff`: with unassigned scalars, exactly when; at most U+34F are inserted. `c55_round_trip_bom_iff`: in BOM mode exactly if the first read is not empty."
  },
  {
   "property": "C56",
   "status": "partial",
   "theorems": [
    "Verif.c56_start",
    "Verif.c56_end_partial",
    "Verif.c56_refuted_end"
   ],
   "note": "Start rule proved for every scalar. End rule proved except for U+0890 and U+0891, which are Prepend but accepted at the end (refuted)."
  },
  {
   "property": "C57",
   "status": "partial",
   "theorems": [
    "Verif.c57_check",
    "Verif.c57_check_sequences",
    "Verif.c57_no_row",
    "Verif.c57_row_partial",
    "Verif.c57_row_exact_partial",
    "Verif.c57_refuted_ffi"
   ],
   "note": "Proved for every scalar except U+FB03, where the document's replacement column is a misprint (refuted); CR, FF and ESC belong to the rows for sequences."
  },
  {
   "property": "C58",
   "status": "partial",
   "theorems": [
    "Verif.c58_substr_exact",
    "Verif.c58_exact",
    "Verif.c58_bytes_valid_up_to_partial",
    "Verif.c58_refuted_malformed"
   ],
   "note": "Proved for well-formed UTF-8, refuted otherwise. `c58_exact`: for ill-formed bytes, exactly when.  c58_substr_exact: for substrings, the longest valid beginning on well-formed bytes, the well-formed part otherwise."
  },
  {
   "property": "C59",
   "status": "partial",
   "theorems": [
    "Verif.c59_color_writes_partial",
    "Verif.c59_color_calls_partial",
    "Verif.c59_color_needed",
    "Verif.c59_close_iff",
    "Verif.c59_flush_iff",
    "Verif.c59_drop_iff",
    "Verif.c59_writes_as_writer_partial",
    "Verif.c59_calls_as_writer_partial",
    "Verif.c59_reads_as_reader",
    "Verif.c59_new",
    "Verif.c59_over",
    "Verif.c59_refuted_color",
    "Verif.c59_refuted_flush"
   ],
   "note": "Input half proved, also for a stream that is over (c59_over). Output half proved with color off, for writes, and for flush and close if they succeed on the writer; refuted for color sequences and flushing across a read.  c59_color_writes_partial, c59_color_calls_partial: the output half with color on, if no line is read in the middle of a color sequence (ReadsOutside); c59_color_needed: the refutation is such a case.  c59_close_iff, c59_flush_iff, c59_drop_iff: exactly when closing and flushing succeed and dropping panics, in every mode: what counts is what was sent since a line was last read."
  },
  {
   "property": "C60",
   "status": "partial",
   "theorems": [
    "Verif.c60_refuted",
    "Verif.c60_exact_partial",
    "Verif.c60_exact_never_ends_with_newline"
   ],
   "note": "Proved for buffers that are not empty; refuted for the empty buffer in debug builds."
  },
  {
   "property": "C61",
   "status": "partial",
   "theorems": [
    "Verif.c61_accepted_iff",
    "Verif.c61_substring",
    "Verif.c61_basic_text_accepted",
    "Verif.c61_accepted_partial",
    "Verif.c61_accepted_assigned_partial",
    "Verif.c61_refuted_isolation",
    "Verif.c61_refuted_ender"
   ],
   "note": "Proved for TextSubstr. For TextStr: everything in Basic Text form is accepted; the converse unless the string ends with U+0890 or U+0891 or has unassigned scalars that are not isolated; refuted there.  c61_accepted_iff says exactly what is accepted."
  },
  {
   "property": "C62",
   "status": "proved",
   "theorems": [
    "Verif.c62_equal_iff_equivalent",
    "Verif.c62_text_equal_iff_equivalent"
   ],
   "note": "Canonical equivalence is defined by rewriting, independently of the normalization algorithm."
  },
  {
   "property": "C63",
   "status": "proved",
   "theorems": [
    "Verif.c63_owned_is_nfc",
    "Verif.c63_decomposition_unique",
    "Verif.c63_owned_equivalent",
    "Verif.c63_owned_same_iff"
   ],
   "note": "Normalization Form C is defined by canonical decomposition (rewriting) and composition as in the Unicode Standard."
  },
  {
   "property": "C64",
   "status": "partial",
   "theorems": [
    "Verif.c64_owned_is_strict_partial",
    "Verif.c64_refuted_isolation"
   ],
   "note": "Proved unless the string ends with U+0890 or U+0891 or has U+34F directly before an unassigned scalar; refuted there. The exact condition is `c89_strict`."
  },
  {
   "property": "C65",
   "status": "partial",
   "theorems": [
    "Verif.c65_lossy_is_document_partial",
    "Verif.c65_refuted_bom",
    "Verif.c65_refuted_inherent",
    "Verif.c65_refuted_escape_start",
    "Verif.c65_refuted_escape_end",
    "Verif.c65_refuted_can",
    "Verif.c65_refuted_ffi",
    "Verif.c65_refuted_ender",
    "Verif.c65_lossy_is_document_iff",
    "Verif.c65_same_scalars_partial",
    "Verif.c65_escapes_partial"
   ],
   "note": "Proved for every cutting unless the string begins with U+FEFF, U+17B4 or U+17B5, ends with U+0890 or U+0891, contains ESC or U+FB03, or has U+34F directly before an unassigned scalar; refuted in each case. With escape sequences (`c65_escapes_partial`) if there is no CAN, the last newline is not part of one, and none uncovers a non-starter at the beginning or a non-ender at the end; refuted in these cases too. After ESC the document's own result need not be Basic Text. Apart from U+34F (`c65_same_scalars_partial`) only U+FB03, CAN together with ESC, and a last newline that is part of an escape sequence (one newline more) make a difference. Exactly (`c65_lossy_is_document_iff`): without a leading U+FEFF, ESC and U+FB03, the result is the document's iff the string does not begin with U+17B4 or U+17B5, does not end with U+0890 or U+0891, the text is Balanced, and no read but the last ends inside a normalization unit."
  },
  {
   "property": "C66",
   "status": "partial",
   "theorems": [
    "Verif.c66_reader_is_document_partial",
    "Verif.c66_refuted_joiner",
    "Verif.c66_refuted_form_feed",
    "Verif.c66_refuted_nel",
    "Verif.c66_reader_is_document_iff",
    "Verif.c66_same_scalars_partial",
    "Verif.c66_modes_same_scalars_partial",
    "Verif.c66_escapes_partial",
    "Verif.c66_refuted_swallowed",
    "Verif.c66_modes_partial"
   ],
   "note": "Proved without NEL and LSPS Compatibility for every split unless the content begins with U+17B4 or U+17B5, ends with U+C or a non-ender, contains ESC or U+FB03, or has U+34F directly before an unassigned scalar; refuted for U+C, a final joiner and NEL Compatibility. With the modes (`c66_modes_partial`) if no scalar they turn into a newline comes after U+D or U+C or at the end (refuted). With escape sequences (`c66_escapes_partial`) if there is no CAN, the last newline is not part of one (refuted), and none uncovers a non-starter at the beginning or a non-ender at the end. Apart from U+34F (`c66_same_scalars_partial`) only U+FB03, CAN together with ESC, a final U+C, and a last newline that is part of an escape sequence (one newline more) make a difference; `c66_modes_same_scalars_partial` for the modes. Exactly (`c66_reader_is_document_iff`): without the modes, ESC and U+FB03, the delivered text is the document's iff the content does not begin with U+17B4 or U+17B5, does not end with U+C or with a non-ender other than U+0890 and U+0891, the text is Balanced, and no read but the last ends inside."
  },
  {
   "property": "C67",
   "status": "proved",
   "theorems": [
    "Verif.c67_bytes_read",
    "Verif.c67_bytes_end"
   ],
   "note": "For every byte string, split, buffers and mode; Normalization Form C and Stream-Safe Text Format are the Unicode definitions."
  },
  {
   "property": "C68",
   "status": "partial",
   "theorems": [
    "Verif.c68_write_all_total",
    "Verif.c68_write_close_iff",
    "Verif.c68_written_is_read",
    "Verif.c68_written_is_read_split_partial",
    "Verif.c68_refuted_split",
    "Verif.c68_rejected_is_changed",
    "Verif.c68_written_is_read_iff"
   ],
   "note": "Proved for bytes read in one piece, and for every split unless they have U+34F directly before an unassigned scalar; refuted for splits there. The failure direction is proved without proviso. Also the exact set of bytes that can be written. `c68_written_is_read_iff`: for each split, exactly when."
  },
  {
   "property": "C69",
   "status": "partial",
   "theorems": [
    "Verif.c69_concatenation",
    "Verif.c69_concatenation_read",
    "Verif.c69_concatenation_read_iff",
    "Verif.c69_one_after_the_other",
    "Verif.c69_refuted_cut"
   ],
   "note": "Validity proved without proviso; that reading the concatenation gives it back is proved if every scalar is assigned, or the reads end at the end of one of the two texts; in general the equivalence in `c69_concatenation_read_iff` says for which reads (not for those that end between a U+34F and its unassigned scalar). Witness: `c69_refuted_cut`."
  },
  {
   "property": "C70",
   "status": "proved",
   "theorems": [
    "Verif.c70_bytes_lossy_total_valid",
    "Verif.c70_bytes_lossy_well_formed",
    "Verif.c70_bytes_lossy_accepted",
    "Verif.c70_ill_formed",
    "Verif.c70_loss_visible_iff",
    "Verif.c70_loss_is_visible"
   ],
   "note": "The cutting is quantified over. Agreement with from_text_bytes is for assigned scalars (C02 refutes the rest); visibility of losses is for text without ESC, as stated. With escape sequences: `c70_loss_visible_iff`."
  },
  {
   "property": "C71",
   "status": "proved",
   "theorems": [
    "Verif.c71_replacements_any",
    "Verif.c71_lossy_any",
    "Verif.c71_replacements",
    "Verif.c71_lossy_replacements",
    "Verif.c71_no_replacement"
   ],
   "note": "For every content, split, mode and buffers: `c71_replacements_any`, `c71_lossy_any`; the others are the cases without ESC."
  },
  {
   "property": "C72",
   "status": "proved",
   "theorems": [
    "Verif.c72_newlines_any",
    "Verif.c72_newlines"
   ],
   "note": "For every content, split, mode and buffers: `c72_newlines_any` (the content is counted behind a leading U+FEFF, unless the first read was empty); the other is the case without ESC."
  },
  {
   "property": "C73",
   "status": "proved",
   "theorems": [
    "Verif.c73_lines_cut",
    "Verif.c73_lines_independent"
   ],
   "note": "`c73_lines_cut`: for every source, cut in any way, with pushes; the other is the case of one read."
  },
  {
   "property": "C74",
   "status": "partial",
   "theorems": [
    "Verif.c74_pieces_decode",
    "Verif.c74_prompt",
    "Verif.c74_split_anywhere_partial",
    "Verif.c74_refuted_bom",
    "Verif.c74_exact"
   ],
   "note": "Proved for all cuts if the first read has three bytes or there is no leading U+FEFF, and the content has no U+34F directly before an unassigned scalar; refuted for a leading U+FEFF cut in two. Promptness and completeness of the decoding are proved without proviso. The Utf8Reader of the dependency is modelled as decoding each read completely. `c110_bytes_same_scalars`: apart from U+34F without the second proviso.  `c74_exact`: for each cut exactly whether it matters."
  },
  {
   "property": "C75",
   "status": "partial",
   "theorems": [
    "Verif.c75_total",
    "Verif.c75_pieces_iff",
    "Verif.c75_lines_partial",
    "Verif.c75_refuted_cut",
    "Verif.c75_refuted_mark",
    "Verif.c75_exact"
   ],
   "note": "Proved for pieces that are whole lines; exactly which pieces can be written is proved for all; refuted for pieces cut inside a scalar (the write fails) and before a combining mark (not normalized).  `c75_exact`: exactly when the pieces can be written, and when with the same result."
  },
  {
   "property": "C76",
   "status": "proved",
   "theorems": [
    "Verif.c76_all_vectored",
    "Verif.c76_vectored",
    "Verif.c76_empty"
   ],
   "note": "default_write_vectored and default_write_all_vectored are modelled as in the standard library, without Interrupted."
  },
  {
   "property": "C77",
   "status": "partial",
   "theorems": [
    "Verif.c77_fmt",
    "Verif.c77_fmt_lines_partial",
    "Verif.c77_refuted",
    "Verif.c77_exact"
   ],
   "note": "Proved for pieces that are empty or end with a newline; in general it is proved to be write_str of the pieces in turn; refuted for a letter and a mark in different pieces.  `c77_exact`: success is always the same, and the effect exactly if normalizing the pieces gives the normalized string."
  },
  {
   "property": "C78",
   "status": "partial",
   "theorems": [
    "Verif.c78_substr_total",
    "Verif.c78_substr_exact",
    "Verif.c78_substr_rest",
    "Verif.c78_arbitrary_partial",
    "Verif.c78_refuted",
    "Verif.c78_take_rest",
    "Verif.c78_exact"
   ],
   "note": "Proved for well-formed bytes, and for arbitrary_take_rest; refuted for ill-formed bytes. `c78_exact`: for ill-formed bytes, exactly when.  For TextSubstr: c78_substr_total (never panics; what is made and what is left are the bytes given), c78_substr_exact (valid exactly if the bytes are well-formed or their well-formed part is a valid substring), c78_substr_rest."
  },
  {
   "property": "C79",
   "status": "partial",
   "theorems": [
    "Verif.c79_step_iff",
    "Verif.c79_history_partial",
    "Verif.c79_lines",
    "Verif.c79_never_recovers",
    "Verif.c79_refuted_hangul"
   ],
   "note": "Proved as long as no step makes a Hangul syllable of scalars that were apart, which is shown to be the exact condition; proved without proviso for lines. Witness: `c79_refuted_hangul`."
  },
  {
   "property": "C80",
   "status": "partial",
   "theorems": [
    "Verif.c80_junction_iff",
    "Verif.c80_clusters_partial",
    "Verif.c80_newline",
    "Verif.c80_refuted"
   ],
   "note": "Proved unless the second text begins with U+34F, the first ends with U+0890 or U+0891, or they meet in a Hangul syllable or a pair of regional indicators, which is shown to be the exact condition for the junction; refuted in each case."
  },
  {
   "property": "C81",
   "status": "proved",
   "theorems": [
    "Verif.c81_ascii_accepted",
    "Verif.c81_ascii_read",
    "Verif.c81_ascii_written",
    "Verif.c81_ascii_split",
    "Verif.c81_ascii_push"
   ],
   "note": "Proved."
  },
  {
   "property": "C82",
   "status": "partial",
   "theorems": [
    "Verif.c82_read_twice_iff",
    "Verif.c82_read_twice_partial",
    "Verif.c82_read_twice_whole_partial",
    "Verif.c82_refuted_cut"
   ],
   "note": "Proved for what has no unassigned scalars, and for unassigned scalars when the second reader gets everything at once; refuted for other splits of unassigned scalars; `c82_read_twice_iff` says exactly for which reads it holds."
  },
  {
   "property": "C83",
   "status": "partial",
   "theorems": [
    "Verif.c83_lossy_same_iff_partial",
    "Verif.c83_refuted_substring",
    "Verif.c83_substring_lossy_valid",
    "Verif.c83_lossy_same_exact"
   ],
   "note": "Proved for TextString without unassigned scalars (with them only one direction holds, see C02); refuted for TextSubstring. Exact for TextString (c83_lossy_same_exact): the argument comes back if and only if it is Basic Text with U+34F before every unassigned scalar and no read but the last ends inside."
  },
  {
   "property": "C84",
   "status": "proved",
   "theorems": [
    "Verif.c84_read_size",
    "Verif.c84_lossy_size",
    "Verif.c84_owned_size",
    "Verif.c84_write_size"
   ],
   "note": "Proved: at most 30 scalars for each read, 6 for each converted or written."
  },
  {
   "property": "C85",
   "status": "proved",
   "theorems": [
    "Verif.c85_find",
    "Verif.c85_contains",
    "Verif.c85_matches",
    "Verif.c85_slices",
    "Verif.c85_char_indices",
    "Verif.c85_find_if",
    "Verif.c85_matches_if",
    "Verif.c85_char_is_string",
    "Verif.c85_matches_from_end",
    "Verif.c85_matches_empty",
    "Verif.c85_most_matches"
   ],
   "note": "Proved for strings, chars and closures as patterns, from the left and from the end, the empty string included. Closures are modelled as predicates on scalars."
  },
  {
   "property": "C86",
   "status": "partial",
   "theorems": [
    "Verif.c86_lines",
    "Verif.c86_lines_valid_partial",
    "Verif.c86_refuted_text",
    "Verif.c86_refuted_read"
   ],
   "note": "Proved that the lines are the lines and are valid substrings; refuted that they are Basic Text, even for what a reader delivered."
  },
  {
   "property": "C87",
   "status": "partial",
   "theorems": [
    "Verif.c87_lines_prompt_partial",
    "Verif.c87_refuted_bounded"
   ],
   "note": "Proved that newlines are passed on if no escape came; refuted that what is kept back is bounded: until a newline comes nothing is delivered.  Exactly what is kept back, escapes included: c118_as_if_ended."
  },
  {
   "property": "C88",
   "status": "proved",
   "theorems": [
    "Verif.c88_cuts",
    "Verif.c88_cuts_without_empty_reads",
    "Verif.c88_stream",
    "Verif.c88_reader_unchanged",
    "Verif.c88_lossy_cuts",
    "Verif.c88_lossy_unchanged",
    "Verif.c88_lossy_again"
   ],
   "note": "Equivalences; `Clear` is the condition on U+34F. The reader theorems are about finite sources read to their end, in every mode."
  },
  {
   "property": "C89",
   "status": "proved",
   "theorems": [
    "Verif.c89_normalizes",
    "Verif.c89_unchanged",
    "Verif.c89_isolates",
    "Verif.c89_single_read",
    "Verif.c89_single_read_isolates",
    "Verif.c89_form",
    "Verif.c89_strict"
   ],
   "note": "Equivalences; `Balanced` is the condition on U+34F. Also for readers whose source delivers its whole content in one read."
  },
  {
   "property": "C90",
   "status": "partial",
   "theorems": [
    "Verif.c90_about_itself",
    "Verif.c90_accepted_iff",
    "Verif.c90_refuted",
    "Verif.c90_refuted_exists",
    "Verif.c90_row_partial",
    "Verif.c90_follow_reader_partial",
    "Verif.c90_follow_lossy_partial",
    "Verif.c90_refuted_escape"
   ],
   "note": "Proved with exactly which scalars have a usable suggestion; refuted for the 1005 others, whose suggestion is the scalar itself, and after an escape."
  },
  {
   "property": "C91",
   "status": "partial",
   "theorems": [
    "Verif.c91_at_most_one",
    "Verif.c91_consults_iff",
    "Verif.c91_without_source",
    "Verif.c91_session",
    "Verif.c91_refuted"
   ],
   "note": "Proved that there is at most one read of the source and exactly when there is one; refuted that there is none when text is ready."
  },
  {
   "property": "C92",
   "status": "partial",
   "theorems": [
    "Verif.c92_split_at_error",
    "Verif.c92_split_at_error_borrowed_partial",
    "Verif.c92_refuted_owned",
    "Verif.c92_exact_borrowed_partial",
    "Verif.c92_exact_owned"
   ],
   "note": "Proved that the position divides accepted from rejected text; refuted that it is the first place that cannot be accepted.  c92_exact_borrowed_partial: the position is exact if the scalar there may end a text; c92_exact_owned: for TextString the scalar at the position is the first that cannot be accepted exactly if it is forbidden, cannot start, or cannot end; otherwise the text up to it is only not normalized."
  },
  {
   "property": "C93",
   "status": "partial",
   "theorems": [
    "Verif.c93_safe",
    "Verif.c93_cat",
    "Verif.c93_cat_unchanged",
    "Verif.c93_cat_twice_partial",
    "Verif.c93_refuted_twice",
    "Verif.c93_cat_twice_iff"
   ],
   "note": "Proved for all bytes and splits; the second run for assigned scalars, refuted otherwise; `c93_cat_twice_iff` says exactly for which reads of the second run it holds."
  },
  {
   "property": "C94",
   "status": "proved",
   "theorems": [
    "Verif.c94_chain",
    "Verif.c94_chain_categorized",
    "Verif.c94_reader",
    "Verif.c94_writer"
   ],
   "note": "The adapters of the dependency are modelled after its source (Verif/Pull.lean), with fuel for their loops; for enough fuel nothing runs out."
  },
  {
   "property": "C95",
   "status": "partial",
   "theorems": [
    "Verif.c95_write_error",
    "Verif.c95_text_error_iff",
    "Verif.c95_first",
    "Verif.c95_first_ascii",
    "Verif.c95_single",
    "Verif.c95_first_crlf",
    "Verif.c95_refuted_first"
   ],
   "note": "Proved that the error is about a scalar of the text, with an equivalence outside color mode, and that it is the first for normalized text; refuted that it is the first in general. `c95_single`: whatever the text, also in CRLF mode, if all rejected scalars have one error (so if there is only one), that is the one reported; `c95_first_crlf`: the first also in CRLF mode."
  },
  {
   "property": "C96",
   "status": "partial",
   "theorems": [
    "Verif.c96_returns",
    "Verif.c96_status_returns",
    "Verif.c96_ok_fills",
    "Verif.c96_panic_iff",
    "Verif.c96_ascii_no_panic_partial",
    "Verif.c96_refuted_panic",
    "Verif.c96_refuted_interrupted",
    "Verif.c96_agrees"
   ],
   "note": "Proved that they return, that Ok means the buffer is filled with the next text, and exactly when they panic; refuted that they do not panic (a read that ends inside a scalar of the old content) and that an empty read of the source is no failure."
  },
  {
   "property": "C97",
   "status": "partial",
   "theorems": [
    "Verif.c97_nfc_cat",
    "Verif.c97_ssnfc_cat",
    "Verif.c97_nfc_output",
    "Verif.c97_ssnfc_output",
    "Verif.c97_failure",
    "Verif.c97_nfc_twice_iff",
    "Verif.c97_ssnfc_twice_iff",
    "Verif.c97_refuted_idempotent",
    "Verif.c97_text_unchanged"
   ],
   "note": "All proved except that the programs are idempotent, which is refuted: exactly on inputs with \\r\\r\\n or with \\r at the end a second run changes something."
  },
  {
   "property": "C98",
   "status": "partial",
   "theorems": [
    "Verif.c98_passes",
    "Verif.c98_other_assertions",
    "Verif.c98_refuted_cut",
    "Verif.c98_passes_iff",
    "Verif.c98_refuted"
   ],
   "note": "Proved for bytes delivered in one piece, as a slice of up to 4096 bytes is. For bytes delivered in several pieces it is refuted: one assertion (written equals read) can fail, and exactly for bytes a writer accepts with U+34F directly before an unassigned scalar."
  },
  {
   "property": "C99",
   "status": "proved",
   "theorems": [
    "Verif.c99_calls",
    "Verif.c99_flush",
    "Verif.c99_close",
    "Verif.c99_joiner",
    "Verif.c99_bytes",
    "Verif.c99_text",
    "Verif.c99_str",
    "Verif.c99_after_failure"
   ],
   "note": "Closed forms for flush, close and write_text, equivalences for the others. The complaint about the text for write_str is stated outside color mode (in color mode see C95). Kinds of error and messages are modelled as constructors."
  },
  {
   "property": "C100",
   "status": "partial",
   "theorems": [
    "Verif.c100_conserved",
    "Verif.c100_held",
    "Verif.c100_plain",
    "Verif.c100_crlf",
    "Verif.c100_refuted"
   ],
   "note": "Proved without color, in both newline modes and on any sink (c100_plain, c100_crlf). With color it holds exactly if no write_text comes while part of a color sequence is held back (c100_conserved); refuted there: the part is dropped and every call reports success."
  },
  {
   "property": "C101",
   "status": "partial",
   "theorems": [
    "Verif.c101_assigned",
    "Verif.c101_isolated_iff",
    "Verif.c101_isolated_stable_partial",
    "Verif.c101_older_accepts",
    "Verif.c101_older_reads",
    "Verif.c101_older_converts",
    "Verif.c101_lossy_stable_partial",
    "Verif.c101_refuted_not_isolated",
    "Verif.c101_refuted_singleton"
   ],
   "note": "For all pairs of versions of the data obeying the laws of the theory (TextLaws) with the newer one extending the older. Text of assigned scalars: nothing changes. Isolated text: stays valid exactly if its new scalars are in NFC by themselves. Refuted for text that is not isolated (accepted by the checks, c101_refuted_not_isolated with U+105D2 of Unicode 16) and for new scalars with a singleton decomposition. Older versions reading newer text: proved in full. The repository's own tables (check, replace, start and end) are those of the pinned commit in both versions."
  },
  {
   "property": "C102",
   "status": "partial",
   "theorems": [
    "Verif.c102_number",
    "Verif.c102_variant",
    "Verif.c102_rejected",
    "Verif.c102_reader_partial",
    "Verif.c102_lossy_partial",
    "Verif.c102_information_partial",
    "Verif.c102_refuted_selector",
    "Verif.c102_refuted_escape",
    "Verif.c102_named",
    "Verif.c102_named_lossy",
    "Verif.c102_named_owned",
    "Verif.c102_named_information",
    "Verif.c102_named_means"
   ],
   "note": "Proved for sources without escape sequences and without the selectors U+FE00 to U+FE02 themselves; refuted for both: the variation sequence written out gives the same text as the ideograph, and ideographs inside an escape sequence are removed with it.  Exact for every source (c102_named, c102_named_lossy, c102_named_owned, c102_named_information): the result names, by variation sequences, the ideographs that the source names outside escape sequences, by the scalars or by variation sequences."
  },
  {
   "property": "C103",
   "status": "partial",
   "theorems": [
    "Verif.c103_outcome",
    "Verif.c103_close_iff",
    "Verif.c103_resume",
    "Verif.c103_errors",
    "Verif.c103_refuted_closes"
   ],
   "note": "Proved except that close_into_inner flushes and closes the inner stream, as its documentation says: refuted, the stream is returned just as it is. If it fails the inner stream is abandoned and dropped. c103_resume is stated for an inner stream whose flush does nothing, which makes the comparison with one writer possible."
  },
  {
   "property": "C104",
   "status": "proved",
   "theorems": [
    "Verif.c104_anywhere",
    "Verif.c104_unchanged"
   ],
   "note": "For every text around the scalar; that a text is unchanged is proved for lossy and checked conversion, reader and writer."
  },
  {
   "property": "C105",
   "status": "partial",
   "theorems": [
    "Verif.c105_strict_stream_partial",
    "Verif.c105_lines_partial",
    "Verif.c105_exact",
    "Verif.c105_refuted",
    "Verif.c105_document_bom",
    "Verif.c105_bom_partial"
   ],
   "note": "Proved for strings without U+34F directly before an unassigned scalar; c105_exact gives the exact condition, c105_refuted a witness. With BOM Compatibility the steps of the document never succeed (they insert U+FEFF and then reject it), so there the writer is compared with the conversion without that option, after U+FEFF."
  },
  {
   "property": "C106",
   "status": "partial",
   "theorems": [
    "Verif.c106_same_scalars",
    "Verif.c106_same_cuts",
    "Verif.c106_lossy_same_scalars",
    "Verif.c106_reader_partial",
    "Verif.c106_lossy_partial",
    "Verif.c106_normalized_first_partial",
    "Verif.c106_refuted_ideograph",
    "Verif.c106_refuted_brackets",
    "Verif.c106_refuted_escape",
    "Verif.c106_refuted_marks"
   ],
   "note": "Proved for contents in Stream-Safe form without escape sequences, CJK compatibility ideographs, U+2329, U+232A and without U+34F directly before an unassigned scalar. For each of the first four there is a witness that it is needed (for the ideographs and U+2329, U+232A it is by design); the last is needed because isolation depends on the split into reads (C17). `c106_same_scalars`, `c106_lossy_same_scalars`: without it apart from U+34F; `c106_same_cuts`: and exactly if no read ends inside."
  },
  {
   "property": "C107",
   "status": "proved",
   "theorems": [
    "Verif.c107_preceded",
    "Verif.c107_delivered_iff",
    "Verif.c107_unchanged_iff",
    "Verif.c107_lines",
    "Verif.c107_places"
   ],
   "note": "Equivalence for each single split; complete runs of error-free sources."
  },
  {
   "property": "C108",
   "status": "proved",
   "theorems": [
    "Verif.c108_checked",
    "Verif.c108_scalars",
    "Verif.c108_owned",
    "Verif.c108_written",
    "Verif.c108_parts"
   ],
   "note": "The value of the literal token is taken as given; Rust token parsing is not modelled."
  },
  {
   "property": "C109",
   "status": "proved",
   "theorems": [
    "Verif.c109_writes",
    "Verif.c109_dog",
    "Verif.c109_reads"
   ],
   "note": "The output is a sink that does not fail; standard input does not report errors and is decoded as by Utf8Reader. That the invalid line ends the stream for good is part of c109_writes."
  },
  {
   "property": "C110",
   "status": "proved",
   "theorems": [
    "Verif.c110_only_inserts",
    "Verif.c110_same_scalars",
    "Verif.c110_same_iff",
    "Verif.c110_longer",
    "Verif.c110_lossy_same_scalars",
    "Verif.c110_lossy_same_iff",
    "Verif.c110_bytes_same_scalars",
    "Verif.c110_valid_only_inserts",
    "Verif.c110_only_inserts_any"
   ],
   "note": "Relative to one read of the whole, for every content. `ReadsInside` is stated with the text of the content so far (`settled`), which is the content itself where nothing is replaced. Without the condition on U+FEFF see C16.  c110_only_inserts_any drops the condition on the byte-order mark: for every source what is delivered is the result for the content as the reader takes it, read whole, with U+34F inserted."
  },
  {
   "property": "C111",
   "status": "proved",
   "theorems": [
    "Verif.c111_one_line",
    "Verif.c111_valid",
    "Verif.c111_injective",
    "Verif.c111_unchanged_iff",
    "Verif.c111_debug_differs",
    "Verif.c111_debug"
   ],
   "note": "The escapes of `char` are modelled from the documentation of the standard library; its tables of printable scalars are parameters (used for escape_debug only)."
  },
  {
   "property": "C112",
   "status": "proved",
   "theorems": [
    "Verif.c112_iff",
    "Verif.c112_equivalence",
    "Verif.c112_positions"
   ],
   "note": "For all pairs of texts."
  },
  {
   "property": "C113",
   "status": "proved",
   "theorems": [
    "Verif.c113_read_iff",
    "Verif.c113_lossy_iff",
    "Verif.c113_checked_iff",
    "Verif.c113_written_iff",
    "Verif.c113_same_texts"
   ],
   "note": "Both directions, for the reader in all modes, both string conversions and the plain writer (bytes written in one call)."
  },
  {
   "property": "C114",
   "status": "proved",
   "theorems": [
    "Verif.c114_same",
    "Verif.c114_drop",
    "Verif.c114_crlf_refused",
    "Verif.c114_bom_refused",
    "Verif.c114_refuted_text",
    "Verif.c114_plain_on_color",
    "Verif.c114_color",
    "Verif.c114_color_drop",
    "Verif.c114_color_on_plain_refuted"
   ],
   "note": "For all sequences of calls and inner streams, plain, CRLF and color. The conditions on written TextSubstr are necessary (c114_refuted_text)."
  },
  {
   "property": "C115",
   "status": "proved",
   "theorems": [
    "Verif.c115_only_inserts",
    "Verif.c115_same_iff",
    "Verif.c115_assigned",
    "Verif.c115_refuted_cut"
   ],
   "note": "The exact condition, and a source for which the texts differ (c115_refuted_cut)."
  },
  {
   "property": "C116",
   "status": "partial",
   "theorems": [
    "Verif.c116_equality",
    "Verif.c116_symmetric_partial",
    "Verif.c116_refuted_one_way",
    "Verif.c116_pairs",
    "Verif.c116_one_impl",
    "Verif.c116_hash"
   ],
   "note": "Proved, except that Cow<TextSubstr> == TextStr and Cow<TextStr> == TextSubstr compile in this order only (c116_refuted_one_way); all other pairs are symmetric."
  },
  {
   "property": "C117",
   "status": "partial",
   "theorems": [
    "Verif.c117_written_iff",
    "Verif.c117_texts_written",
    "Verif.c117_read_alike",
    "Verif.c117_same_scalars",
    "Verif.c117_text_back",
    "Verif.c117_marks",
    "Verif.c117_refuted_mark",
    "Verif.c117_refuted_other",
    "Verif.c117_refuted_hidden"
   ],
   "note": "Proved exactly when a string with documented color sequences is accepted (c117_written_iff): unless the m that ends one is composed with the text after it, which only U+301, U+307 and U+323 can do (c117_marks, refuted there); that what is sent, if it ends with a newline, reads as it would without colors. Refuted also that nothing else passes: undocumented sequences are accepted, and a color sequence hides a mark at the start and a joiner before a flush from the checks."
  },
  {
   "property": "C118",
   "status": "proved",
   "theorems": [
    "Verif.c118_buffers",
    "Verif.c118_beginning",
    "Verif.c118_beginning_stream",
    "Verif.c118_as_if_ended",
    "Verif.c118_exact",
    "Verif.c118_lines_stream"
   ],
   "note": "c118_as_if_ended compares the reads so far with any complete reading of the source cut off there. c118_beginning_stream and c118_lines_stream state the same with the document's conversion; they need the provisos of C16 (U+034F not directly before an unassigned scalar, byte order mark not split off).  c118_exact: while the source goes on, all of it has been delivered exactly if what has come ends at the end of a line (Spec.AtLineEnd: its items end in a newline, and it does not end in a carriage return), pushes, escapes and compatibility modes included."
  },
  {
   "property": "C119",
   "status": "proved",
   "theorems": [
    "Verif.c119_back",
    "Verif.c119_only",
    "Verif.c119_length",
    "Verif.c119_no_marks"
   ],
   "note": "encode_utf16 is modelled from the standard library's documentation; decoding is written down separately from the Unicode Standard, D91."
  },
  {
   "property": "C120",
   "status": "proved",
   "theorems": [
    "Verif.c120_shape",
    "Verif.c120_plain",
    "Verif.c120_text",
    "Verif.c120_uncut",
    "Verif.c120_cut",
    "Verif.c120_substr",
    "Verif.c120_substr_needs",
    "Verif.c120_fill_needed",
    "Verif.c120_written"
   ],
   "note": "Formatter::pad is modelled from the standard library. c120_cut shows that a text cut behind U+200D is no Basic Text, c120_substr_needs that every other printable ASCII fill scalar breaks some substring."
  },
  {
   "property": "C121",
   "status": "partial",
   "theorems": [
    "Verif.c121_outcome",
    "Verif.c121_lost_partial",
    "Verif.c121_nothing_lost_iff",
    "Verif.c121_read_on_partial",
    "Verif.c121_refuted"
   ],
   "note": "Panics and what is returned: proved. That no text is lost is refuted: text read but not yet delivered is dropped without a report, where abandon would panic. Proved: if the last read did not fill its buffer at most the unfinished last line is lost, and nothing if what came ends with a newline and has no ESC; and then a new duplexer continues exactly, except that it puts a U+34F before a scalar that no text may start with (and would drop a U+FEFF).  c121_nothing_lost_iff: exactly when nothing is lost, escapes and pushes included (Spec.AtLineEnd)."
  },
  {
   "property": "C122",
   "status": "partial",
   "theorems": [
    "Verif.c122_text",
    "Verif.c122_read",
    "Verif.c122_written",
    "Verif.c122_closed_partial",
    "Verif.c122_refuted_closed"
   ],
   "note": "c122_text, c122_read, c122_written hold in full. The last line of a closed writer is terminated except after a final write of an empty text (see C33): c122_closed_partial has that condition, c122_refuted_closed shows that it is needed."
  },
  {
   "property": "C123",
   "status": "proved",
   "theorems": [
    "Verif.c123_prepared",
    "Verif.c123_anywhere",
    "Verif.c123_lossy",
    "Verif.c123_refuted"
   ],
   "note": "c123_prepared, c123_anywhere, c123_lossy; c123_refuted shows that the conditions on escapes and on the modes cannot be dropped."
  },
  {
   "property": "C124",
   "status": "partial",
   "theorems": [
    "Verif.c124_excluded",
    "Verif.c124_included",
    "Verif.c124_holes",
    "Verif.c124_refuted"
   ],
   "note": "c124_excluded, c124_included and c124_holes prove everything but the last sentence, which is false (c124_refuted): an unassigned scalar between U+34F and a private-use scalar are accepted, and the explicit bidi controls are not."
  },
  {
   "property": "C125",
   "status": "partial",
   "theorems": [
    "Verif.c125_sequences",
    "Verif.c125_transcript",
    "Verif.c125_terminal_partial",
    "Verif.c125_refuted"
   ],
   "note": "c125_sequences and c125_transcript give c125_terminal_partial, where the texts in front of sequences do not end in CR or FF, the text does not begin with U+FEFF behind a sequence, and a sequence at the very end does not come after a newline. c125_refuted: ESC 7 and ESC 8 of the document leave their digit in the text, and the other conditions are needed too."
  },
  {
   "property": "C126",
   "status": "proved",
   "theorems": [
    "Verif.c126_calls",
    "Verif.c126_in_time",
    "Verif.c126_empty_call",
    "Verif.c126_exact"
   ],
   "note": "`c126_calls` bounds the number of calls that have not reported the end, `c126_in_time` the same in the size of the source, `c126_exact` is a source for which the bound is met, `c126_empty_call` says what a call without text has done."
  },
  {
   "property": "C127",
   "status": "proved",
   "theorems": [
    "Verif.c127_write",
    "Verif.c127_write_failed",
    "Verif.c127_others",
    "Verif.c127_at_most_one",
    "Verif.c127_session",
    "Verif.c127_nothing_held"
   ],
   "note": "For every writer state: `c127_write`, `c127_write_failed`, `c127_others`; `c127_at_most_one` and `c127_session` count the operations of the sink, `c127_nothing_held` is about the buffer. Abandoning the sink is not counted as an operation."
  },
  {
   "property": "C128",
   "status": "proved",
   "theorems": [
    "Verif.c128_substr",
    "Verif.c128_text_iff",
    "Verif.c128_text_ascii",
    "Verif.c128_read_iff",
    "Verif.c128_guarded",
    "Verif.c128_refuted_always"
   ],
   "note": "c128_substr, c128_text_iff, c128_text_ascii, c128_read_iff (every cut), c128_guarded (one read); c128_refuted_always: the exception does occur, with lines of one text."
  },
  {
   "property": "C129",
   "status": "partial",
   "theorems": [
    "Verif.c129_sizes",
    "Verif.c129_read",
    "Verif.c129_least",
    "Verif.c129_copy",
    "Verif.c129_copy_all",
    "Verif.c129_inside",
    "Verif.c129_refuted_large"
   ],
   "note": "Holds for all stacks; the promise fails for sources that need more than 4096 bytes, which no stream of this crate does (c129_refuted_large)."
  },
  {
   "property": "C130",
   "status": "partial",
   "theorems": [
    "Verif.c130_copy",
    "Verif.c130_whole_partial",
    "Verif.c130_missing",
    "Verif.c130_room",
    "Verif.c130_refuted",
    "Verif.c130_using_status",
    "Verif.c130_refuted_valid",
    "Verif.c130_kinds",
    "Verif.c130_one_kind"
   ],
   "note": "Termination and safety for all sources (c130_copy), completeness if no interrupted call had written anything (c130_whole_partial), exactly then (c130_missing), which is the case after a read that leaves room (c130_room); the variant using the status (c130_using_status). It fails after a line longer than the buffer: c130_refuted, 135 of 140 bytes and success. Sources with errors of both kinds: c130_kinds (the copy ends as if all were interruptions, or with the first error of another kind after having sent all that was delivered) and c130_one_kind. c130_refuted_valid: the text that arrives need not even be Basic Text."
  },
  {
   "property": "C131",
   "status": "partial",
   "theorems": [
    "Verif.c131_exact_lines",
    "Verif.c131_unwind",
    "Verif.c131_writer",
    "Verif.c131_abandoned",
    "Verif.c131_duplexer",
    "Verif.c131_exact",
    "Verif.c131_refuted",
    "Verif.c131_other_order"
   ],
   "note": "Exact: c131_unwind, c131_writer and c131_abandoned for panics while writers are alive, c131_duplexer for any duplexer and c131_exact in terms of what was read and written. What is missing: the claim that abandoning a duplexer never aborts, refuted by c131_refuted; c131_other_order shows that with the two lines of `abandon` exchanged it would hold. That a panic during unwinding aborts is a rule of the language, taken as given; the drop of the inner stream is not modelled.  c131_exact_lines: also when lines have been read in between."
  },
  {
   "property": "C132",
   "status": "partial",
   "theorems": [
    "Verif.c132_lines_partial",
    "Verif.c132_heard",
    "Verif.c132_heard_iff",
    "Verif.c132_refuted_prompt",
    "Verif.c132_pieces",
    "Verif.c132_pieces_prompt",
    "Verif.c132_refuted_cut"
   ],
   "note": "`c132_lines_partial`: every dialogue of messages that end with a newline; at the end both ends can be closed, abandoned and dropped. Missing: messages that do not end with one. `c132_heard` says what is heard of any message said between lines (up to the last U+A or U+34F), `c132_heard_iff` when that is all of it, and `c132_refuted_prompt` that a prompt without a newline is not heard though it was flushed and arrived with a push. In these the transport keeps each message in one piece; `c132_pieces` and `c132_pieces_prompt` do without that for whole lines of assigned scalars: in whatever pieces they arrive, all is heard, each line as soon as it has arrived; `c132_refuted_cut`: not so for unassigned scalars."
  },
  {
   "property": "C133",
   "status": "partial",
   "theorems": [
    "Verif.c133_one_line",
    "Verif.c133_accepted_iff",
    "Verif.c133_written_iff",
    "Verif.c133_tells",
    "Verif.c133_refuted",
    "Verif.c133_index"
   ],
   "note": "c133_one_line, c133_tells and c133_index hold in full. That the message can be written holds exactly if it does not name the scalar or the standard library shows it escaped (c133_accepted_iff, c133_written_iff); it fails for the others, such as U+2126 (c133_refuted), since the message then contains the scalar that is not allowed."
  },
  {
   "property": "C134",
   "status": "partial",
   "theorems": [
    "Verif.c134_again",
    "Verif.c134_text",
    "Verif.c134_documents",
    "Verif.c134_reached",
    "Verif.c134_alone",
    "Verif.c134_refuted_bom",
    "Verif.c134_reported_iff",
    "Verif.c134_refuted_missed"
   ],
   "note": "Proved: after any run whose last call reports the end, all later calls are those of a new reader whose source first brings nothing (c134_again, c134_text); documents in one source are delivered one after the other, whether or not the ends between them are seen (c134_documents), and all is read in the end (c134_reached); a document that does not begin with U+FEFF is delivered as if it were alone (c134_alone); the end of a document is reported exactly if the read that takes it leaves four bytes of its buffer (c134_reported_iff). Refuted: U+FEFF at the start of a later document becomes U+2060 (c134_refuted_bom), and an end may never be reported, so that the caller waits for what comes after it (c134_refuted_missed)."
  },
  {
   "property": "C135",
   "status": "partial",
   "theorems": [
    "Verif.c135_keys_partial",
    "Verif.c135_delivered",
    "Verif.c135_refuted",
    "Verif.c135_lost"
   ],
   "note": "c135_keys_partial gives the text of every run of keys in which a push comes behind the keys whose meaning depends on what follows (Escape, CR, FF, Alt with a bracket); c135_delivered says what has been delivered at a push: the text up to the last newline. c135_lost says which keys give nothing and which U+FFFD. c135_refuted: without the pushes Escape takes the letter behind it; nothing is delivered before Enter; many keys give the same."
  },
  {
   "property": "C136",
   "status": "proved",
   "theorems": [
    "Verif.c136_broken_off",
    "Verif.c136_bytes",
    "Verif.c136_shared",
    "Verif.c136_last_differs"
   ],
   "note": "Complete for runs that reach the end of both sources. For bytes the earlier reads are the same and the rest of the whole source comes in its last read; where the earlier reads are cut is settled by C74."
  },
  {
   "property": "C137",
   "status": "proved",
   "theorems": [
    "Verif.c137_returns",
    "Verif.c137_all",
    "Verif.c137_rest",
    "Verif.c137_agree"
   ],
   "note": "For sources without errors that end (where a source fails see C27, after the end C134). The loops of the standard library and layered_io (read_exact, read_exact_using_status, read_vectored, read_to_end) are modelled from their documentation."
  },
  {
   "property": "C138",
   "status": "proved",
   "theorems": [
    "Verif.c138_exact",
    "Verif.c138_lines",
    "Verif.c138_one_read",
    "Verif.c138_written"
   ],
   "note": "c138_exact gives the delivered text exactly; c138_lines the consequence for lines, in terms of the bytes; c138_one_read the lines of isolated text; c138_written composes it with a writer."
  },
  {
   "property": "C139",
   "status": "proved",
   "theorems": [
    "Verif.c139_window",
    "Verif.c139_from_line",
    "Verif.c139_not_unchanged"
   ],
   "note": "c139_window gives the delivered text exactly; c139_from_line reads from a line on and says when it is unchanged; c139_not_unchanged shows that the U+34F does occur."
  },
  {
   "property": "C140",
   "status": "proved",
   "theorems": [
    "Verif.c140_two",
    "Verif.c140_two_iff",
    "Verif.c140_observed",
    "Verif.c140_all",
    "Verif.c140_delimiters",
    "Verif.c140_not_equals"
   ],
   "note": "c140_two gives the whole from the fields exactly; c140_two_iff says when converting field by field is the same; c140_observed says it of the results alone; c140_all is for any number of fields; c140_delimiters lists the ASCII delimiters; c140_not_equals shows that `=` is not one. Strings in several reads: C88."
  },
  {
   "property": "C141",
   "status": "proved",
   "theorems": [
    "Verif.c141_pieces",
    "Verif.c141_template",
    "Verif.c141_template_text",
    "Verif.c141_fields",
    "Verif.c141_translate",
    "Verif.c141_not_any",
    "Verif.c141_written"
   ],
   "note": "c141_pieces is the general statement about pieces next to each other; c141_template and c141_template_text are for templates; c141_fields for fields; c141_translate for replacing delimiters; c141_not_any shows that the literal part may not end with any scalar. c141_written: `write!` of pieces, the values any strings, with a delimiter or newline wherever two meet, is write_str of the formatted string."
  },
  {
   "property": "C142",
   "status": "proved",
   "theorems": [
    "Verif.c142_utf8_cat",
    "Verif.c142_utf8_unchanged",
    "Verif.c142_after_text",
    "Verif.c142_utf8_first",
    "Verif.c142_nfc_first",
    "Verif.c142_nfc_last",
    "Verif.c142_refuted_nfc_first"
   ],
   "note": "c142_utf8_cat and c142_utf8_unchanged: utf8-cat by itself. c142_after_text: the others after text-cat. c142_utf8_first, c142_nfc_first: others before text-cat; c142_refuted_nfc_first: the inputs excluded make a difference. c142_nfc_last: nfc-cat after ssnfc-cat, exactly."
  },
  {
   "property": "C143",
   "status": "proved",
   "theorems": [
    "Verif.c143_bytes",
    "Verif.c143_room",
    "Verif.c143_full",
    "Verif.c143_kept",
    "Verif.c143_scalars",
    "Verif.c143_read",
    "Verif.c143_lines"
   ],
   "note": "`c143_bytes` (exactly the first bytes), `c143_room`, `c143_full` (the results), `c143_kept`, `c143_scalars` (at most a part of one scalar at the end), `c143_read` (any text, against reading the whole), `c143_lines` (Basic Text). This lifts the simplification of the scalar sink that failing writes are cut at scalars. That a stream's write leaves the bytes that fit is an assumption about it (as `write_all` to a file does)."
  },
  {
   "property": "C144",
   "status": "proved",
   "theorems": [
    "Verif.c144_read",
    "Verif.c144_lines",
    "Verif.c144_first_line",
    "Verif.c144_complete",
    "Verif.c144_sessions",
    "Verif.c144_refuted_vowel"
   ],
   "note": "`c144_read` (the exact output), `c144_lines`, `c144_first_line`, `c144_complete`, `c144_sessions` (the sessions as calls of writers on streams with limited room, by C143). `c144_refuted_vowel`: without the condition on first scalars the last scalar left and the first one of the next session are read as one syllable."
  },
  {
   "property": "C145",
   "status": "proved",
   "theorems": [
    "Verif.c145_confined",
    "Verif.c145_one_line",
    "Verif.c145_beginning",
    "Verif.c145_refuted_escape"
   ],
   "note": "`c145_confined` (with what is delivered between the lines: a read of the damaged bytes alone behind an empty line), `c145_one_line`, `c145_beginning` (damage at the beginning of the file), `c145_refuted_escape` (for every text with a scalar before `]`: what follows is lost)."
  },
  {
   "property": "C146",
   "status": "proved",
   "theorems": [
    "Verif.c146_call",
    "Verif.c146_session",
    "Verif.c146_all",
    "Verif.c146_refused",
    "Verif.c146_not_all"
   ],
   "note": "`c146_call` (one call in any state), `c146_session`, `c146_all` (everything reported if no buffer is filled), `c146_refused`; `c146_not_all`: a push is dropped for good when the text fills the buffer."
  },
  {
   "property": "C147",
   "status": "proved",
   "theorems": [
    "Verif.c147_text",
    "Verif.c147_valid",
    "Verif.c147_like_one",
    "Verif.c147_own",
    "Verif.c147_read",
    "Verif.c147_refuted_parts",
    "Verif.c147_calls"
   ],
   "note": "c147_text: what is in the log; c147_valid: Basic Text, complete lines; c147_like_one: a single writer; c147_own: each writer behaves as if alone (for calls of any kind); c147_read: reading it back; c147_refuted_parts: parts of lines, proved by a witness.  c147_calls: calls of any kind, writing text and bytes, flushing, closing and abandoning included."
  },
  {
   "property": "C148",
   "status": "proved",
   "theorems": [
    "Verif.c148_pieces",
    "Verif.c148_total",
    "Verif.c148_lines",
    "Verif.c148_capacity",
    "Verif.c148_sent",
    "Verif.c148_fits",
    "Verif.c148_refuted_capacity",
    "Verif.c148_refuted_cut"
   ],
   "note": "c148_pieces: what the buffer does, for all bytes; c148_total: no panic, no endless loop; c148_lines, c148_capacity, c148_sent: whole lines; c148_fits: what fits; c148_refuted_capacity, c148_refuted_cut: the dependence on the capacity, proved by witnesses. The buffer is the standard library's, modelled by its documentation and source; what remains in it after a failure is not modelled."
  },
  {
   "property": "C149",
   "status": "proved",
   "theorems": [
    "Verif.c149_bytes",
    "Verif.c149_whole",
    "Verif.c149_no_refusal",
    "Verif.c149_refused",
    "Verif.c149_ends",
    "Verif.c149_count",
    "Verif.c149_no_error"
   ],
   "note": "BufReader itself belongs to the standard library; its read (bypass when empty and the caller has at least the capacity, otherwise fill once and serve from the buffer) is modelled by hand in Verif.BufferedReader and is part of the trusted base for this property. c149_bytes: the running statement for all sources; c149_whole and c149_ends: completeness and termination; c149_no_refusal and c149_refused: the two sides of the 136-byte limit. c149_count: the number returned by each call, what failing calls deliver, absence of panics and the bound on the buffer, in every state that calls lead to. c149_no_error: on sources that do not fail."
  },
  {
   "property": "C150",
   "status": "proved",
   "theorems": [
    "Verif.c150_lines",
    "Verif.c150_lossy",
    "Verif.c150_small",
    "Verif.c150_refuted_text_lines"
   ],
   "note": "BufReader::fill_buf, read_until, read_line and Lines::next belong to the standard library and are modelled by hand. c150_lines: lines and text_lines; c150_lossy: text_lines_lossy; c150_small: the capacity limit; c150_refuted_text_lines: lines that text_lines refuses do occur. `fills … j` are the fills before the first that reports the end; each theorem also says that all later fills report the end again."
  },
  {
   "property": "C151",
   "status": "proved",
   "theorems": [
    "Verif.c151_pieces",
    "Verif.c151_whole",
    "Verif.c151_sent",
    "Verif.c151_room",
    "Verif.c151_total",
    "Verif.c151_refuted_long"
   ],
   "note": "LineWriter belongs to the standard library (LineWriterShim::write_all over BufWriter); it is modelled by hand in Verif.LineBuffered. c151_pieces and c151_total: all bytes and all writers; c151_whole and c151_sent: texts of whole lines; c151_room: when there is room; c151_refuted_long: the need for it. The hypothesis WIdle says that the writer is between writes, in its normal state, with a sink that works; idle_new shows it of new writers."
  },
  {
   "property": "C152",
   "status": "proved",
   "theorems": [
    "Verif.c152_pipe",
    "Verif.c152_refuted_direct"
   ],
   "note": "c152_pipe: the pipe; c152_refuted_direct: without the line buffer. BufReader and LineWriter are the hand-written models of C149 and C151. The condition on unassigned scalar values is that of C47: a text in which one is not between two U+34F is normalized by the writer once more (C151, c151_sent)."
  },
  {
   "property": "C153",
   "status": "proved",
   "theorems": [
    "Verif.c153_buffered",
    "Verif.c153_stuck",
    "Verif.c153_refuted_direct",
    "Verif.c153_ends",
    "Verif.c153_count"
   ],
   "note": "Take belongs to the standard library and is modelled by hand in Verif.Take. c153_buffered, c153_ends and c153_count: with the buffer; c153_stuck and c153_refuted_direct: without it. c153_ends is for calls all of one size."
  },
  {
   "property": "C154",
   "status": "proved",
   "theorems": [
    "Verif.c154_chain",
    "Verif.c154_text",
    "Verif.c154_refuted_sources",
    "Verif.c154_ends",
    "Verif.c154_count"
   ],
   "note": "Chain belongs to the standard library and is modelled by hand in Verif.Chain. c154_chain: the bytes; c154_text: that they are Basic Text; c154_ends: that the end comes; c154_count: the numbers returned; c154_refuted_sources: the last sentence, by a witness."
  }
 ]
}