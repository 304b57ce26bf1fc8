{"id": "C01", "title": "Lossy string conversion always returns valid Basic Text", "statement": "TextString::from_text_lossy(s) returns normally (its internal assertion and unwrap never fire) and the string it returns is accepted by TextStr::from_text.", "quantifier": "every finite sequence of Unicode scalar values, of any length", "why_tests_cant": "The input space is all Unicode strings; the result passes through a terminal-escape state machine, a replacement table, isolation, stream-safe insertion and NFC, and validity is about their composition on arbitrary context.", "anchors": ["src/text_string.rs: TextString::from_text_lossy", "src/text_input.rs: process_raw_string, read_with_status", "internals/src/text_utils.rs: is_basic_text"]}
{"id": "C02", "title": "Lossy conversion leaves valid text alone", "statement": "If TextStr::from_text(s) is Ok and every scalar of s is assigned or private-use, TextString::from_text_lossy(s) == s.", "quantifier": "every valid Basic Text string without unassigned scalars", "why_tests_cant": "It is a statement about all valid strings; tests only sample them.", "anchors": ["src/text_string.rs: TextString::from_text_lossy", "src/text_input.rs: process_raw_string, queue_next"]}
{"id": "C03", "title": "Lossy conversion is idempotent", "statement": "TextString::from_text_lossy applied to its own output returns that output unchanged.", "quantifier": "every finite sequence of Unicode scalar values, of any length; and every way the reader may be handed the bytes", "why_tests_cant": "Idempotence of normalization with isolation quantifies over all strings and all chunkings.", "anchors": ["src/text_string.rs: from_text_lossy", "internals/src/isolate_unassigned.rs: next"]}
{"id": "C04", "title": "Lossy conversion follows the documented algorithm", "statement": "TextString::from_text_lossy(s) equals the document's conversion: leading BOM becomes U+2060, terminal escape sequences are dropped, newline forms are unified, scalars are substituted by the replacement table, U+34F guards a bad first/last scalar, unassigned scalars are isolated, CJK compatibility ideographs become variation sequences, and the result is put in Stream-Safe NFC; no final newline is added or removed.", "quantifier": "every finite sequence of Unicode scalar values, of any length", "why_tests_cant": "It equates two functions on all strings.", "anchors": ["docs/BasicText.md: Conversion", "src/text_string.rs: from_text_lossy", "src/text_input.rs: process_raw_string"]}
{"id": "C05", "title": "Checked conversion only returns valid text", "statement": "If TextString::from_text(s) is Ok(t) then TextStr::from_text(t) is Ok.", "quantifier": "every finite sequence of Unicode scalar values, of any length", "why_tests_cant": "Soundness over all strings of normalization, isolation and the start/end rules.", "anchors": ["src/text_string.rs: TextString::from_text", "src/text_output.rs: state_machine, write_buffer, flush"]}
{"id": "C06", "title": "Checked conversion accepts and preserves valid text", "statement": "If TextStr::from_text(s) is Ok then TextString::from_text(s) is Ok, and the text is returned unchanged when every scalar is assigned or private-use.", "quantifier": "every valid Basic Text string", "why_tests_cant": "Completeness over all valid strings.", "anchors": ["src/text_string.rs: TextString::from_text, TextStr::from_text", "src/text_output.rs: state_machine"]}
{"id": "C07", "title": "The reported valid prefix really is valid", "statement": "When TextStr::from_text / TextString::from_text fails, error.valid_up_to() is a char boundary strictly inside the string and the prefix of that length is accepted by TextStr::from_text; the search for it terminates.", "quantifier": "every rejected string", "why_tests_cant": "The binary search runs over a predicate that is not monotone; termination and the invariant must hold for every string.", "anchors": ["src/text_string.rs: TextError::compute_valid_up_to", "src/text_substring.rs: compute_valid_up_to"]}
{"id": "C08", "title": "The substring error position is exact", "statement": "When TextSubstr::from_text fails with valid_up_to = k, the prefix of length k is a valid substring and no longer prefix of the string is.", "quantifier": "every rejected string", "why_tests_cant": "Maximality is a universally quantified statement over prefixes, and needs validity to be prefix-closed for all strings.", "anchors": ["src/text_substring.rs: compute_valid_up_to, TextSubstr::from_text"]}
{"id": "C09", "title": "Slicing never leaves valid text", "statement": "Every slice s[i..j] on char boundaries of a TextStr or TextSubstr is itself accepted by TextSubstr::from_text (the unchecked Index impls are sound).", "quantifier": "every valid string and every pair of char boundaries", "why_tests_cant": "Needs closure of stream-safe NFC under arbitrary substrings.", "anchors": ["src/text_string.rs: Index impls", "src/text_substring.rs: Index impls, get_unchecked"]}
{"id": "C10", "title": "split_at is safe and lossless", "statement": "TextSubstr::split_at(mid) panics exactly when mid is not a char boundary; TextStr::split_at(mid) either panics or returns two halves that are each valid Basic Text; in both cases the halves concatenate to the original.", "quantifier": "every valid string and every byte index", "why_tests_cant": "Quantifies over all strings and indices.", "anchors": ["src/text_string.rs: split_at", "src/text_substring.rs: split_at"]}
{"id": "C11", "title": "Trimming preserves validity", "statement": "trim, trim_start and trim_end of a TextStr return valid Basic Text; of a TextSubstr return a valid substring.", "quantifier": "every valid string", "why_tests_cant": "The unchecked constructors make this a proof obligation over every valid string.", "anchors": ["src/text_string.rs: trim, trim_start, trim_end", "src/text_substring.rs: trim, trim_start, trim_end"]}
{"id": "C12", "title": "Appending valid text yields valid text", "statement": "push_text, +, += and extend of a valid TextString with a valid TextStr give a valid TextString (Basic Text is closed under concatenation).", "quantifier": "every pair of valid strings", "why_tests_cant": "Closure of a normal form under concatenation over all pairs.", "anchors": ["src/text_string.rs: push_text, Add, AddAssign, Extend"]}
{"id": "C13", "title": "Repeating valid text yields valid text", "statement": "TextStr::repeat(n) returns valid Basic Text; TextSubstr::repeat(n) returns a valid substring.", "quantifier": "every valid string and every n", "why_tests_cant": "Quantifies over all strings and all counts.", "anchors": ["src/text_string.rs: repeat", "src/text_substring.rs: repeat"]}
{"id": "C14", "title": "Everything a TextReader delivers is Basic Text", "statement": "Whatever the source contains and however it splits it, as long as it does not fail, the concatenation of everything a TextReader has delivered so far is a valid Basic Text substring, begins with a scalar allowed at the start, and once the end is reported is a valid Basic Text string.", "quantifier": "every source content, every split into reads with any status, every sequence of destination buffer sizes", "why_tests_cant": "Quantifies over all I/O schedules and all contents.", "anchors": ["src/text_input.rs: read_with_status, process_raw_string, queue_next", "src/text_reader.rs"]}
{"id": "C15", "title": "A TextReader stream ends with a newline", "statement": "When a TextReader whose source has not failed reports end-of-stream, the total text delivered is empty or ends with U+A, and nothing is still buffered inside the reader.", "quantifier": "every source content and schedule", "why_tests_cant": "Depends on parser state and queue contents at every possible end point.", "anchors": ["src/text_input.rs: process_raw_string lines 346-382, queue_next, read_with_status"]}
{"id": "C16", "title": "Reader output is independent of how the source is split", "statement": "For a fixed source content, the text delivered up to end-of-stream does not depend on how the source splits it into reads nor on the destination buffer sizes.", "quantifier": "every content, every two splittings, every two sequences of buffer sizes", "why_tests_cant": "Infinitely many schedules per content.", "anchors": ["src/text_input.rs: read_with_status, queue_next, process_raw_string", "internals/src/isolate_unassigned.rs"]}
{"id": "C17", "title": "Reader output is the documented stream conversion", "statement": "The text a TextReader delivers for a content is the documented stream conversion of it (BOM dropped, escapes dropped, newlines unified, replacements, U+34F guards, isolation, stream-safe NFC, final newline).", "quantifier": "every content, delivered in any single or multiple reads", "why_tests_cant": "Refinement between an incremental machine and a whole-string function.", "anchors": ["docs/BasicText.md: Conversion From Unicode stream to Basic Text stream", "src/text_input.rs"]}
{"id": "C18", "title": "Reading a Basic Text stream is the identity", "statement": "If the source content is valid Basic Text of assigned scalars that is empty or ends with U+A, the TextReader delivers exactly it, for every split and every buffer sizes.", "quantifier": "every valid stream, every schedule", "why_tests_cant": "All streams and schedules.", "anchors": ["src/text_input.rs"]}
{"id": "C19", "title": "A read never panics, overruns or under-reports", "statement": "A read into a buffer of at least 136 bytes never panics on account of the buffer: it writes at most the buffer's length, the bytes written are the complete UTF-8 encoding of the text delivered, and the returned count is their number; a shorter buffer gives InvalidInput and leaves the reader untouched.", "quantifier": "every reader state, buffer size and source behaviour", "why_tests_cant": "The slice write panics if the room invariant ever fails, for any mixture of scalar widths.", "anchors": ["src/text_input.rs: read_with_status lines 391-402, 463-481", "internals/src/unicode.rs: MAX_UTF8_SIZE, NORMALIZATION_BUFFER_SIZE"]}
{"id": "C20", "title": "read_str keeps the caller's str valid", "statement": "After read_str, read_str_with_status returns (Ok or Err), the whole caller-supplied str buffer is still valid UTF-8.", "quantifier": "every prior buffer content, reader state and source behaviour", "why_tests_cant": "Memory-safety obligation of unsafe code over all buffer contents and cut points.", "anchors": ["src/text_input.rs: read_str, read_str_with_status, clear_to_char_boundary, is_char_boundary"]}
{"id": "C21", "title": "read_text_substr keeps the caller's TextSubstr valid", "statement": "After read_text_substr / read_text_substr_with_status the whole caller-supplied TextSubstr buffer is still a valid substring.", "quantifier": "every prior valid buffer content and every text delivered", "why_tests_cant": "Unsafe-code obligation over all contents.", "anchors": ["src/text_input.rs: read_text_substr, read_text_substr_with_status, clear_to_char_boundary"]}
{"id": "C22", "title": "Newline forms are unified", "statement": "For content without ESC, replacing any CRLF by LF, or any lone CR by LF, does not change the text a TextReader delivers.", "quantifier": "every ESC-free content, however split into reads (excluded: content with U+34F directly before an unassigned scalar read in several pieces, and an empty first read before a byte-order mark; C16 and C24 settle those)", "why_tests_cant": "All contexts of CR, LF and FF.", "anchors": ["src/text_input.rs: process_raw_string State::Cr, State::Ff"]}
{"id": "C23", "title": "Terminal escape sequences are removed", "statement": "The delivered text never contains ESC, and a complete CSI, OSC, Linux '[[' or two-character escape sequence contributes nothing to the delivered text wherever it occurs in ordinary text, that is before some further text or after a scalar that is not a newline, CR, FF or byte-order mark.", "quantifier": "every content, every parameter string, every such position, however split into reads (excluded: content with U+34F directly before an unassigned scalar read in several pieces, and an empty first read before a byte-order mark; C16 and C24 settle those)", "why_tests_cant": "Unbounded sequences and positions.", "anchors": ["src/text_input.rs: process_raw_string State::Esc, CsiStart, Csi, Osc, Linux"]}
{"id": "C24", "title": "A leading BOM is dropped", "statement": "A single U+FEFF at the very start of the content is not delivered, however the content is split; a second one becomes U+2060.", "quantifier": "every content and every split", "why_tests_cant": "Depends on the split.", "anchors": ["src/text_input.rs: process_raw_string line 280 (at_start)"]}
{"id": "C25", "title": "NEL and LS/PS compatibility modes only affect those scalars", "statement": "With nel compatibility U+85 acts as a newline and with lsps compatibility U+2028/U+2029 do; on content without them the modes change nothing; without the modes they are delivered as spaces.", "quantifier": "every content, however split into reads (excluded: content with U+34F directly before an unassigned scalar read in several pieces, and an empty first read before a byte-order mark; C16 and C24 settle those)", "why_tests_cant": "All contents.", "anchors": ["src/text_input.rs: with_nel_compatibility, with_lsps_compatibility, process_raw_string"]}
{"id": "C26", "title": "A push flushes", "statement": "When the source reports a push, the reader eventually reports a push with all content received before it delivered, and the first text delivered after it begins with a scalar allowed at the start.", "quantifier": "every content and schedule", "why_tests_cant": "All schedules.", "anchors": ["src/text_input.rs: process_raw_string, pending_status, read_with_status lines 405-413, 441-447"]}
{"id": "C27", "title": "A source error loses no text", "statement": "If a read fails because the source fails, no text that was ready for delivery is lost: a later read still delivers it.", "quantifier": "every reader state at the moment of failure", "why_tests_cant": "All states and failure points.", "anchors": ["src/text_input.rs: read_with_status line 417"]}
{"id": "C28", "title": "Abandoning a reader does not panic", "statement": "abandon() on a TextReader or TextDuplexer returns normally in any state.", "quantifier": "every reader state", "why_tests_cant": "All states.", "anchors": ["src/text_input.rs: abandon", "src/text_duplexer.rs: abandon"]}
{"id": "C29", "title": "read_exact_str can succeed", "statement": "If the stream has at least as many bytes left as the buffer, ending on a scalar boundary, read_exact_str / read_exact_text_substr fills the buffer; on an empty buffer it succeeds trivially.", "quantifier": "every buffer length and content", "why_tests_cant": "All lengths and contents.", "anchors": ["src/text_input.rs: read_exact_str, minimum_buffer_size", "src/text_duplexer.rs: read_exact_str, read_exact_text_substr"]}
{"id": "C30", "title": "No disallowed scalar ever reaches the sink", "statement": "For every sequence of write_str, write_text, write, flush and close calls with any sink failures, every scalar that reaches the sink is one Basic Text allows, except the U+D of CRLF mode and the U+1B of complete color sequences in color mode.", "quantifier": "every operation history and failure pattern", "why_tests_cant": "All histories.", "anchors": ["src/text_output.rs: state_machine, state_machine_char, write_buffer", "internals/src/categorize.rs"]}
{"id": "C31", "title": "Writer output is stream-safe NFC", "statement": "The text a TextWriter has sent to its sink is in Stream-Safe NFC (per write call, and over the whole stream).", "quantifier": "every operation history", "why_tests_cant": "All strings and all ways to split them into writes.", "anchors": ["src/text_output.rs: state_machine, write_buffer"]}
{"id": "C32", "title": "Writer output starts properly", "statement": "The first scalar sent to the sink, and the first one sent after each flush, is allowed at the start of Basic Text.", "quantifier": "every operation history", "why_tests_cant": "All histories.", "anchors": ["src/text_output.rs: write_buffer lines 262-292, flush"]}
{"id": "C33", "title": "A closed writer's stream ends with newline", "statement": "If close returns Ok and no write had failed, the text sent to the sink is empty or ends with U+A.", "quantifier": "every operation history", "why_tests_cant": "All histories.", "anchors": ["src/text_output.rs: check_nl, close, close_into_inner, normal_write_text, crlf_write_text"]}
{"id": "C34", "title": "A failed write is final", "statement": "After a write call has failed, the stream is abandoned and no further scalar ever reaches the sink.", "quantifier": "every operation history and failure pattern", "why_tests_cant": "All histories.", "anchors": ["src/text_output.rs: prepare_failure, abandon, write_buffer"]}
{"id": "C35", "title": "The writer never panics internally and is safe to drop after failure", "statement": "No write, flush or close call panics; after any of them has returned an error, and after a successful close, dropping the writer does not panic.", "quantifier": "every operation history and failure pattern", "why_tests_cant": "All histories.", "anchors": ["src/text_output.rs: state_machine_char (unwrap), Drop, prepare_failure, flush"]}
{"id": "C36", "title": "Color mode only lets complete color sequences through", "statement": "With ANSI color enabled, every U+1B in the sink begins a complete sequence ESC '[' (scalars U+20..U+3F)* 'm', even when the sequence is split over several writes; without it no U+1B reaches the sink.", "quantifier": "every operation history", "why_tests_cant": "All histories and splits.", "anchors": ["src/text_output.rs: state_machine_char, write_str"]}
{"id": "C37", "title": "CRLF mode only changes newlines", "statement": "With CRLF compatibility the sink receives exactly the LF-mode output with each U+A replaced by U+D U+A, and success/failure is unchanged.", "quantifier": "every string written", "why_tests_cant": "Needs normalization to split at newlines for every string.", "anchors": ["src/text_output.rs: crlf_write_str, crlf_write_text"]}
{"id": "C38", "title": "Writing valid text delivers exactly it", "statement": "Writing a valid Basic Text string of assigned scalars with write_str delivers exactly those scalars to the sink; so does write_text for any valid text.", "quantifier": "every valid string", "why_tests_cant": "All valid strings.", "anchors": ["src/text_output.rs: normal_write_str, normal_write_text"]}
{"id": "C39", "title": "Byte writes handle only whole scalars", "statement": "write(bytes) on a TextWriter consumes exactly the longest well-formed UTF-8 prefix and returns its length, behaving like write_str on it; it fails if that prefix is empty and bytes is not.", "quantifier": "every byte string", "why_tests_cant": "All byte strings.", "anchors": ["src/text_output.rs: write lines 472-489"]}
{"id": "C40", "title": "flush cannot split a joined sequence", "statement": "flush fails if the last scalar sent is ZWJ or a prepend scalar or a color sequence is incomplete; otherwise, when it succeeds the text sent so far ends with a scalar allowed at the end.", "quantifier": "every operation history", "why_tests_cant": "All histories.", "anchors": ["src/text_output.rs: flush, state_machine_char"]}
{"id": "C41", "title": "Checked lines are the lines", "statement": "text_lines over a source whose content is valid Basic Text ending in newline yields the content's lines in order, each valid Basic Text; joining them with newlines gives the content back.", "quantifier": "every content and every number of lines", "why_tests_cant": "All contents.", "anchors": ["src/buf_read_text.rs: read_text_line, TextLines::next"]}
{"id": "C42", "title": "Lossy lines are valid", "statement": "Each item of text_lines_lossy is valid Basic Text.", "quantifier": "every content", "why_tests_cant": "All contents.", "anchors": ["src/buf_read_text.rs: read_text_line_lossy, TextLinesLossy::next"]}
{"id": "C43", "title": "A failed checked line read leaves a valid buffer", "statement": "After read_text_line returns (Ok or Err) the caller's TextString is valid Basic Text; on Ok it is the old content followed by the line.", "quantifier": "every prior content and every source", "why_tests_cant": "All contents.", "anchors": ["src/buf_read_text.rs: read_text_line"]}
{"id": "C44", "title": "copy_text copies", "statement": "copy_text and copy_text_using_status deliver to the sink exactly the text the source delivers, and return its length in bytes.", "quantifier": "every source schedule", "why_tests_cant": "All schedules and contents.", "anchors": ["src/copy.rs: copy_text, copy_text_using_status"]}
{"id": "C45", "title": "Duplexer input newline relaxes output newline", "statement": "On a TextDuplexer, after input ending in newline has been read, closing does not require a newline; reading never changes what has been sent.", "quantifier": "every interleaving of reads and writes", "why_tests_cant": "All interleavings.", "anchors": ["src/text_duplexer.rs: read_with_status, newline"]}
{"id": "C46", "title": "Checking and replacing agree", "statement": "Every scalar the checker accepts is left unchanged by the lossy replacement, and every scalar the checker rejects is changed by lossy conversion; replacements consist only of accepted scalars or of scalars normalization changes.", "quantifier": "every Unicode scalar value", "why_tests_cant": "1.1 million scalars against two independently hand-written tables, proved for all by exhaustive kernel computation lifted by a lemma.", "anchors": ["internals/src/check.rs", "internals/src/replace.rs"]}
{"id": "C47", "title": "Unassigned scalars are isolated", "statement": "In the text produced by lossy or checked conversion every unassigned scalar is immediately preceded and followed by U+34F, and removing isolation's U+34F gives the text back.", "quantifier": "every string", "why_tests_cant": "All contexts.", "anchors": ["internals/src/isolate_unassigned.rs", "docs/BasicText.md"]}
{"id": "C48", "title": "The quick check agrees with the full check", "statement": "is_basic_text_substr_quick(s) is Some(true) only if is_basic_text_substr(s) and Some(false) only if not.", "quantifier": "every string", "why_tests_cant": "All strings.", "anchors": ["internals/src/text_utils.rs: is_basic_text_substr_quick"]}
{"id": "C49", "title": "Writer and reader agree", "statement": "If a TextWriter accepts s in one write_str, the text it sends is what a TextReader would deliver for s, up to the final newline.", "quantifier": "every accepted string", "why_tests_cant": "All strings.", "anchors": ["fuzz/fuzz_targets/text.rs", "src/text_output.rs", "src/text_input.rs"]}
{"id": "C50", "title": "Comparison is by scalar values", "statement": "TextStr/TextString/TextSubstr ordering and equality (bytewise UTF-8) coincide with lexicographic ordering and equality of the scalar sequences.", "quantifier": "every pair of strings", "why_tests_cant": "All pairs.", "anchors": ["src/text_string.rs: derive(PartialEq, Eq, PartialOrd, Ord)", "src/partial_eq.rs"]}
{"id": "C51", "title": "Byte conversions decode UTF-8 faithfully", "statement": "TextString::from_text_vec / TextStr::from_text_bytes succeed exactly on well-formed UTF-8 of acceptable text; on bytes that are the encoding of s they agree with from_text(s); encodings are unique.", "quantifier": "every byte string", "why_tests_cant": "All byte strings.", "anchors": ["src/text_string.rs: from_text_vec, from_text_bytes"]}
{"id": "C52", "title": "BOM mode round trips", "statement": "A writer in BOM mode sends U+FEFF first and then exactly what a plain writer would; a reader of that stream delivers the same text as a reader of the plain stream.", "quantifier": "every operation history", "why_tests_cant": "All histories.", "anchors": ["src/text_output.rs: with_bom_crlf_compatibility/with_bom", "src/text_input.rs"]}
{"id": "C53", "title": "Owned and borrowed substrings accept the same strings", "statement": "TextSubstring::from_text accepts every string TextSubstr::from_text accepts.", "quantifier": "every string", "why_tests_cant": "All strings.", "anchors": ["src/text_substring.rs: TextSubstring::from_text, TextSubstr::from_text"]}
{"id": "C54", "title": "read_to_text_string preserves validity", "statement": "After read_to_text_string returns, Ok or Err, the caller's TextString is valid Basic Text.", "quantifier": "every prior content and every source", "why_tests_cant": "All contents.", "anchors": ["src/text_string.rs: default_read_to_text_string"]}
{"id": "C55", "title": "Round trip through writer and reader", "statement": "Text of assigned scalars that a TextWriter accepted in one write and then closed is read back unchanged by a TextReader, in LF, CRLF and BOM modes, for every split.", "quantifier": "every accepted string and every schedule", "why_tests_cant": "All strings and schedules.", "anchors": ["src/text_output.rs", "src/text_input.rs"]}
{"id": "C56", "title": "Start and end rules follow the documented classes", "statement": "A scalar may not start Basic Text exactly if it is a normalization-form non-starter, or its Grapheme_Cluster_Break is ZWJ, SpacingMark or Extend and it isn't U+34F; it may not end Basic Text exactly if its Grapheme_Cluster_Break is ZWJ or Prepend.", "quantifier": "every Unicode scalar value", "why_tests_cant": "1.1 million scalars, and two generated tables against the Unicode data.", "anchors": ["internals/src/unicode.rs", "internals/src/text_utils.rs: is_basic_text_start, is_basic_text_end", "docs/BasicText.md: Definitions"]}
{"id": "C57", "title": "Checking and replacing follow the documented Sequence Table", "statement": "For every scalar, the check fails and the replacement differs from the scalar exactly when the Sequence Table has a row for it, and the replacement is the row's.", "quantifier": "every Unicode scalar value", "why_tests_cant": "The table is written by hand three times: in the document, in check.rs and in replace.rs.", "anchors": ["docs/BasicText.md: Sequence Table", "internals/src/check.rs", "internals/src/replace.rs"]}
{"id": "C58", "title": "Errors of byte conversions report a valid prefix", "statement": "When TextStr::from_text_bytes fails with valid_up_to = k, the first k bytes are a valid Basic Text string (as the arbitrary support assumes when it builds a TextStr from them unchecked).", "quantifier": "every rejected byte string", "why_tests_cant": "All byte strings.", "anchors": ["src/text_string.rs: from_text_bytes, impl Arbitrary", "src/text_error.rs: From<Utf8Error>"]}
{"id": "C59", "title": "A duplexer is a reader and a writer", "statement": "Interleaving reads and writes on a TextDuplexer sends what the writes alone send on a TextWriter, with the same results, and delivers what the reads alone deliver on a TextReader.", "quantifier": "every interleaving of calls, source and sink", "why_tests_cant": "All interleavings.", "anchors": ["src/text_duplexer.rs: read_with_status, read_exact_str", "src/text_output.rs: newline"]}
{"id": "C60", "title": "Exact reads on a duplexer never panic", "statement": "read_exact_str and read_exact_text_substr on a TextDuplexer return for every buffer, and read what they read on a TextReader.", "quantifier": "every buffer length, source and state", "why_tests_cant": "All lengths and states.", "anchors": ["src/text_duplexer.rs: read_exact_str, read_exact_text_substr"]}
{"id": "C61", "title": "Accepted strings are the strings in Basic Text form", "statement": "TextSubstr::from_text accepts exactly the strings that are in Unicode Normalization Form C and in Stream-Safe Text Format and contain no sequence of the Sequence Table; TextStr::from_text accepts exactly the strings in Basic Text form as the document defines it.", "quantifier": "every string", "why_tests_cant": "All strings, against definitions given by Unicode and the document, not by the functions used to check.", "anchors": ["docs/BasicText.md: Definitions", "internals/src/text_utils.rs: is_basic_text, is_basic_text_substr", "src/text_string.rs: TextStr::from_text", "src/text_substring.rs: TextSubstr::from_text"]}
{"id": "C62", "title": "Equality of texts is canonical equivalence", "statement": "Two TextStr (or TextSubstr) values compare equal exactly if they are canonically equivalent Unicode strings.", "quantifier": "every pair of accepted strings", "why_tests_cant": "All pairs; canonical equivalence is a closure over rewriting steps.", "anchors": ["src/text_string.rs: derive(PartialEq), TextStr::from_text"]}
{"id": "C63", "title": "Checked conversion normalizes and keeps the meaning", "statement": "TextString::from_text of a stream-safe string of assigned scalars returns its Unicode Normalization Form C; two such strings convert to the same text exactly if they are canonically equivalent.", "quantifier": "every accepted stream-safe string of assigned scalars", "why_tests_cant": "All strings.", "anchors": ["src/text_string.rs: TextString::from_text"]}
{"id": "C64", "title": "Checked conversion is the document's strict conversion", "statement": "TextString::from_text(s) succeeds with t exactly if the document's strict string conversion of s succeeds with t.", "quantifier": "every string", "why_tests_cant": "All strings, against the letter of the document.", "anchors": ["docs/BasicText.md: Strict conversion", "src/text_string.rs: TextString::from_text"]}
{"id": "C65", "title": "Lossy conversion is the document's conversion", "statement": "TextString::from_text_lossy(s) is the result of the document's string conversion, step by step as written.", "quantifier": "every string and every cutting", "why_tests_cant": "All strings, against the letter of the document.", "anchors": ["docs/BasicText.md: Conversion", "src/text_string.rs: from_text_lossy"]}
{"id": "C66", "title": "Reading is the document's stream conversion", "statement": "What a TextReader delivers is the result of the document's stream conversion of the content, step by step as written, also with NEL and LSPS Compatibility.", "quantifier": "every content, split and buffer sizes", "why_tests_cant": "All contents and schedules, against the letter of the document.", "anchors": ["docs/BasicText.md: Conversion (streams), Options", "src/text_input.rs"]}
{"id": "C67", "title": "Whatever the bytes, the text read is sane", "statement": "Reading any byte string through a TextReader to the end succeeds, and the text has no U+FEFF, no U+FFFC, no control codes but U+A and U+9, is empty or ends with U+A, is in NFC and Stream-Safe Text Format, does not start with a normalization non-starter, and TextStr::from_text accepts it.", "quantifier": "every byte string, well-formed or not, every split, buffer sizes and mode", "why_tests_cant": "The fuzz target asserts this for the inputs it happens to try.", "anchors": ["fuzz/fuzz_targets/text.rs", "src/text_reader.rs: from_utf8", "src/text_input.rs: read_with_status"]}
{"id": "C68", "title": "Writing bytes either agrees with reading or fails for a reason", "statement": "For every byte string: if write_all and closing the writer succeed, a reader of the same bytes delivers exactly what was written, and TextStr accepts it; if they fail, every reader changes the bytes, and if they end with a newline, TextStr and TextString do not accept them.", "quantifier": "every byte string, every split", "why_tests_cant": "The fuzz target asserts this for the inputs it happens to try.", "anchors": ["fuzz/fuzz_targets/text.rs", "src/text_writer.rs: impl Write", "src/text_output.rs: write, close_into_inner"]}
{"id": "C69", "title": "Texts read are closed under concatenation", "statement": "The concatenation of any two texts read to their ends by TextReaders, from sources that do not fail, is accepted by TextStr::from_text, and reading it gives it back.", "quantifier": "every pair of sources without errors, all schedules", "why_tests_cant": "Pairs of all texts.", "anchors": ["fuzz/fuzz_targets/text.rs", "docs/BasicText.md: streams", "src/text_input.rs"]}
{"id": "C70", "title": "Lossy conversion of arbitrary bytes", "statement": "TextString::from_text_bytes_lossy succeeds for every byte string with a valid Basic Text string; on well-formed bytes it is from_text_lossy; it returns what from_text_bytes accepts, if all scalars are assigned; each maximal ill-formed subpart becomes one U+FFFD, and ill-formed bytes always leave a U+FFFD in the result unless an escape sequence swallows it.", "quantifier": "every byte string", "why_tests_cant": "All byte strings.", "anchors": ["src/text_string.rs: from_text_bytes_lossy"]}
{"id": "C71", "title": "Replacement characters count the losses", "statement": "The number of U+FFFD that come out of a reader or of from_text_lossy is the number of scalars outside escape sequences that are U+FFFD or that the Sequence Table replaces by U+FFFD: nothing forbidden disappears without a trace, and nothing else is replaced.", "quantifier": "every content without ESC, every split, buffer sizes and mode", "why_tests_cant": "All contents; counts over arbitrarily long inputs through normalization.", "anchors": ["src/text_input.rs", "internals/src/replace.rs", "docs/BasicText.md: Sequence Table"]}
{"id": "C72", "title": "Reading keeps the number of lines", "statement": "The number of newlines a reader delivers is the number of newlines of the stretches of its content between escape sequences, in its mode (U+A, U+D U+A and lone U+D once each, U+85 in NEL mode, U+2028 and U+2029 in LSPS mode), plus one if the content is not empty and does not end with one.", "quantifier": "every content without ESC, every split, buffer sizes and mode", "why_tests_cant": "All contents and all ways of cutting a U+D U+A in two.", "anchors": ["src/text_input.rs: process_raw_string", "docs/BasicText.md: Newlines"]}
{"id": "C73", "title": "Lines are converted independently", "statement": "Reading a content whose first line has no ESC gives the conversion of that line, followed by what the rest of the content gives behind an empty line.", "quantifier": "every first line without ESC and every rest", "why_tests_cant": "All contents; normalization could carry state from line to line.", "anchors": ["src/text_input.rs: process_raw_string, queue_next"]}
{"id": "C74", "title": "Byte sources may be cut anywhere", "statement": "What a TextReader over a byte source delivers depends only on the bytes, not on how the reads cut them, even inside a scalar or an ill-formed sequence; at every moment all but at most three of the bytes that have come are decoded.", "quantifier": "every byte string, well-formed or not, every two ways of cutting it, buffer sizes and mode", "why_tests_cant": "All cuts of all byte strings.", "anchors": ["src/text_reader.rs", "src/text_input.rs: read_with_status, process_raw_string"]}
{"id": "C75", "title": "Bytes may be written in pieces", "statement": "Writing bytes with several write_all calls, as io::copy does, has the same result as writing them with one.", "quantifier": "every byte string, every way of cutting it, every plain or CRLF writer", "why_tests_cant": "All cuts of all byte strings.", "anchors": ["src/text_output.rs: write", "src/text_writer.rs: impl Write"]}
{"id": "C76", "title": "Vectored writes are writes in turn", "statement": "write_all_vectored of any buffers has the same effect and result as write_all of each buffer in turn, terminates and does not panic; write_vectored writes the first buffer that is not empty and counts at least one and not more than all of its bytes.", "quantifier": "every list of buffers, in every state of the writer", "why_tests_cant": "All lists of buffers, with partial writes at ill-formed bytes.", "anchors": ["src/text_output.rs: write_vectored, write_all_vectored", "src/text_writer.rs: impl Write"]}
{"id": "C77", "title": "Formatted writes write the formatted string", "statement": "write!(writer, ...) has the same effect as write_str of the formatted string.", "quantifier": "every list of pieces that formatting produces, every writer", "why_tests_cant": "All lists of pieces.", "anchors": ["src/text_writer.rs: impl Write"]}
{"id": "C78", "title": "Generated texts are valid", "statement": "The texts that Arbitrary makes for &TextStr and TextString from any bytes are Basic Text.", "quantifier": "every byte string", "why_tests_cant": "All byte strings; a fuzzer tries some.", "anchors": ["src/text_string.rs: impl Arbitrary for &TextStr"]}
{"id": "C79", "title": "A TextString stays valid whatever is done to it", "statement": "After any sequence of push_text, +, +=, extend, clear and read_to_text_string on a TextString, it is Basic Text.", "quantifier": "every sequence of operations with every valid argument", "why_tests_cant": "Sequences of any length.", "anchors": ["src/text_string.rs: push_text, extend, clear, default_read_to_text_string"]}
{"id": "C80", "title": "Concatenation keeps grapheme clusters apart", "statement": "The extended grapheme clusters (UAX #29) of the concatenation of two texts are those of the first followed by those of the second; this is what the rules about the start and the end of Basic Text are for.", "quantifier": "every pair of texts", "why_tests_cant": "All pairs; cluster rules look back without bound.", "anchors": ["docs/BasicText.md: non-starter, non-ender", "internals/src/text_utils.rs: is_basic_text_start, is_basic_text_end", "src/text_string.rs: push_text"]}
{"id": "C81", "title": "ASCII is transparent", "statement": "An ASCII string is accepted by TextStr, TextSubstr, TextString and TextSubstring exactly if its scalars are printable, spaces, tabs or newlines, and is then unchanged by them; a TextReader delivers it unchanged but for a newline added at the end if there is none; a TextWriter sends it unchanged; split_at anywhere in it does not panic; and appending it to any text, or any text to it, gives a text.", "quantifier": "every ASCII string, every split of it, buffer sizes, mode and state of the writer", "why_tests_cant": "All strings, splits and states; the smoke tests use a few words.", "anchors": ["internals/src/check.rs", "internals/src/replace.rs", "src/text_input.rs: process_raw_string", "src/text_output.rs: write_str", "src/text_string.rs: split_at, push_text"]}
{"id": "C82", "title": "Reading twice is reading once", "statement": "Reading again what a TextReader delivered from a source that does not fail delivers the same, in any mode and however it is split.", "quantifier": "every source, every mode of both readers, every split of what was delivered", "why_tests_cant": "Idempotence over all streams and splits.", "anchors": ["src/text_input.rs: read_with_status, process_raw_string"]}
{"id": "C83", "title": "Lossy conversion changes exactly what is not valid", "statement": "from_text_lossy returns its argument unchanged if and only if from_text accepts it: for TextString and TextStr, and for TextSubstring and TextSubstr.", "quantifier": "every string, every way its bytes are handed to the reader", "why_tests_cant": "All strings.", "anchors": ["src/text_string.rs: from_text_lossy", "src/text_substring.rs: from_text_lossy"]}
{"id": "C84", "title": "Sizes stay in proportion", "statement": "What a TextReader delivers, what the conversions return, and what a TextWriter sends is at most a constant times as long as what was given, whatever the sequence of pushes, errors, ends of stream, flushes and failures.", "quantifier": "every source and sequence of reads; every sequence of calls of a writer; every string", "why_tests_cant": "All inputs and sequences; an input that grows without bound would be a denial of service.", "anchors": ["src/text_input.rs: read_with_status", "src/text_output.rs: state_machine, flush", "src/text_string.rs: from_text, from_text_lossy"]}
{"id": "C85", "title": "Searching finds scalars", "statement": "find and rfind return the position of the first and last place where the scalars of the pattern stand in the text, contains, starts_with and ends_with say whether they do, match_indices returns the disjoint matches from the left and rmatch_indices those from the end, in both cases as many as can be had; slicing at a position found does not panic and gives valid substrings.", "quantifier": "every text and every string pattern", "why_tests_cant": "All texts and patterns; the search is over bytes.", "anchors": ["src/text_string.rs: find, rfind, contains, starts_with, ends_with, match_indices", "src/text_substring.rs: find"]}
{"id": "C86", "title": "Lines of a text are texts", "statement": "lines() yields the strings without newline that, each followed by a newline, make up the text; each is Basic Text, as the TODO there hopes.", "quantifier": "every text", "why_tests_cant": "All texts.", "anchors": ["src/text_string.rs: lines", "src/text_substring.rs: lines"]}
{"id": "C87", "title": "Readers pass on complete lines at once", "statement": "When a read returns with room left in the buffer, every newline that has come from the source has been delivered; and what is kept back is bounded.", "quantifier": "every source and sequence of reads", "why_tests_cant": "All sources and buffer sizes.", "anchors": ["src/text_input.rs: queue_next, read_with_status"]}
{"id": "C88", "title": "Exactly these contents depend on how they arrive", "statement": "What a TextReader delivers, and what from_text_lossy returns, does not depend on how the content is split into reads if and only if the content (with escape sequences removed) has no U+34F directly before an unassigned scalar and, for a reader whose source may begin with an empty read, does not begin with U+FEFF; Basic Text is unchanged by them, however split, if and only if all its scalars are assigned.", "quantifier": "every content; all ways of splitting it and all buffer sizes", "why_tests_cant": "An equivalence over all contents and all splits: both that the other contents are safe, and that for each of these a harmful split exists.", "anchors": ["src/text_input.rs: process_raw_string, queue_next", "internals/src/isolate_unassigned.rs", "src/text_string.rs: from_text_lossy"]}
{"id": "C89", "title": "Exactly these strings are converted as documented", "statement": "What TextString::from_text returns for an accepted string is its documented normalization, with all unassigned scalars isolated, if and only if every unassigned scalar that has a U+34F directly before it has an unassigned scalar or U+34F directly behind it; it is the document's strict conversion if and only if also the last scalar is not U+890 or U+891; Basic Text is returned unchanged if and only if all its unassigned scalars have a U+34F directly before them.", "quantifier": "every string", "why_tests_cant": "An equivalence over all strings.", "anchors": ["src/text_string.rs: from_text", "internals/src/isolate_unassigned.rs", "internals/src/text_utils.rs: is_basic_text_end", "docs/BasicText.md"]}
{"id": "C90", "title": "A rejection's suggestion is usable", "statement": "When check_basic_text_char rejects a scalar with a suggestion (use X instead of Y), Y is that scalar and X consists of scalars it accepts; and putting X in place of Y gives the text that the reader or the lossy conversion would have made.", "quantifier": "every scalar; every text around it, every split of it", "why_tests_cant": "All scalars and all texts around them; the tests look at a few messages.", "anchors": ["internals/src/check.rs: check_basic_text_char, replacement", "internals/src/replace.rs"]}
{"id": "C91", "title": "A read waits for its source at most once, and only when it must", "statement": "One call of read makes at most one read of the source, and none if it has text to return; a read without one has filled its buffer.", "quantifier": "every state of the reader, source and buffer size", "why_tests_cant": "All states and sources.", "anchors": ["src/text_input.rs: read_with_status"]}
{"id": "C92", "title": "The reported position divides good from bad", "statement": "When from_text fails, the part before the reported position is accepted by itself and the rest is not; the position is that of the first scalar that cannot be accepted.", "quantifier": "every string", "why_tests_cant": "All strings.", "anchors": ["src/text_string.rs: from_text, compute_valid_up_to, FromTextError"]}
{"id": "C93", "title": "text-cat writes Basic Text", "statement": "io::copy from a TextReader on any bytes to a byte sink ends, and writes UTF-8 of Basic Text that is empty or ends with a newline, whose length it returns; if the sink fails what was written is a beginning of that. A second text-cat after the first changes nothing.", "quantifier": "every sequence of bytes, every way it is split into reads, every buffer size of at least 136 bytes, every behaviour of the sink", "why_tests_cant": "All byte strings and splits.", "anchors": ["examples/text-cat.rs", "src/text_input.rs", "src/text_reader.rs: Read"]}
{"id": "C94", "title": "Pulling scalar by scalar is normalizing the whole", "statement": "Reader and writer pull their text through a chain of iterators one scalar at a time, the reader across calls and the writer stopping at the first failure. The calls of next always return, and what is read and written is as if each piece of text were normalized as a whole.", "quantifier": "every text, source, sequence of buffer sizes and state of the writer", "why_tests_cant": "All interleavings of pulling with reads and failures, over all texts.", "anchors": ["src/text_input.rs: queue_next", "src/text_output.rs: state_machine, state_machine_slow_path", "internals/src/isolate_unassigned.rs", "internals/src/categorize.rs"]}
{"id": "C95", "title": "The error of a write is about its text", "statement": "When a write fails because of its text, the reported BasicTextError is the one that check_basic_text_char gives for a scalar of that text (or Escape for U+1B in it, or in color mode an unrecognized escape), and it is about the first such scalar; writes never panic on the missing error; the other errors are a missing starter at the start and those of the inner stream.", "quantifier": "every state of the writer and every text", "why_tests_cant": "All texts and states; the tests check a few errors.", "anchors": ["src/text_output.rs: state_machine_char, write_buffer", "internals/src/categorize.rs: record_error"]}
{"id": "C96", "title": "The default exact reads fill the buffer or fail", "statement": "default_read_exact_text_substr and default_read_exact_text_substr_using_status on a reader always return; on Ok the buffer is filled with the next text of the stream; they do not panic, and do not fail while the text that fills the buffer is still to come.", "quantifier": "every state of the reader, source and buffer content", "why_tests_cant": "All states, sources and contents of the buffer.", "anchors": ["src/read_text.rs: default_read_exact_text_substr, default_read_exact_text_substr_using_status", "src/text_substring.rs: split_at_mut"]}
{"id": "C97", "title": "nfc-cat and ssnfc-cat normalize the whole stream", "statement": "nfc-cat (ssnfc-cat) on a UTF-8 stream in any pieces writes the NFC (the Stream-Safe NFC) of the whole input with \\r\\n made \\n and the last line terminated, and succeeds; when the source fails, the complete lines have been written, converted; Basic Text that ends with a newline is copied byte for byte; running the program on its own output changes nothing.", "quantifier": "every UTF-8 input and every way of delivering it", "why_tests_cant": "Lines are normalized one by one, and those the quick check accepts are not: that the result is the normalization of the whole is a law of all texts.", "anchors": ["examples/nfc-cat.rs: main", "examples/ssnfc-cat.rs: main"]}
{"id": "C98", "title": "The project's fuzz target cannot fail", "statement": "fuzz/fuzz_targets/text.rs, run on any bytes, finishes without a failed assertion: what the reader delivers is free of U+FEFF, U+FFFC and controls, ends with a newline, is Stream-Safe NFC and starts with a starter; the writer writes what was read or refuses bytes that reading changes and from_text refuses; and the text read can be appended to itself.", "quantifier": "every sequence of bytes, every way the source delivers them, every sequence of buffer sizes of at least 136 bytes", "why_tests_cant": "Fuzzing samples inputs; this is the statement that no input, and no way of delivering it, fails an assertion.", "anchors": ["fuzz/fuzz_targets/text.rs"]}
{"id": "C99", "title": "Each failure of a writer is reported as what it is", "statement": "When flush fails it says whether an escape sequence is unfinished, or the text sent so far ends with a ZWJ or Prepend, or the inner stream failed, and that is the case; the same for close, which also says when the text does not end with a newline; a write of bytes complains of the encoding exactly if they do not begin with a scalar; write_text never complains of the text, write_str of the text exactly if it has a scalar that is not allowed, and both of the beginning exactly if a beginning is expected and the text may not begin so. After a failed write or close every flush and close reports the inner stream's error. (\"The text sent so far\" begins at the last empty text given to write_text, see C33.)", "quantifier": "every sequence of calls on a writer in any mode, every behaviour of the inner stream", "why_tests_cant": "The errors are functions of the writer's state, the claim is about what has been written: all histories.", "anchors": ["src/text_output.rs: check_nl, close, flush, write, write_buffer, write_text_substr, write_str"]}
{"id": "C100", "title": "Nothing a writer accepts is lost", "statement": "After calls on a TextWriter that all returned Ok, the inner stream has received the concatenation of what the calls were given (texts as they are, strings in normalized form, of bytes the whole scalars they begin with; U+A as U+D U+A in CRLF mode), except for a color sequence whose end has not been written yet.", "quantifier": "every sequence of calls on a new writer that all succeed, in LF, CRLF and color mode", "why_tests_cant": "All sequences of calls: the buffer and the held-back sequence carry text from one call to the next.", "anchors": ["src/text_output.rs: write_text, write_str, state_machine_char, write_buffer"]}
{"id": "C101", "title": "Valid text stays valid when Unicode grows, and older versions can read newer text", "statement": "A string that is valid Basic Text stays valid when the library is built with newer Unicode data, as the documentation intends; with unassigned scalars isolated this holds for them too. A string that is valid under newer data is accepted by a library with older data, which reads it in whatever pieces it comes and changes it only by inserting U+34F.", "quantifier": "every string, every two versions of the Unicode data of which the newer leaves the properties of assigned scalars alone, all splits into reads and all buffer sizes", "why_tests_cant": "Future versions of Unicode cannot be tested against; the statement quantifies over all of them.", "anchors": ["docs/Background.md: No Stability (Yet)", "internals/src/isolate_unassigned.rs", "internals/src/text_utils.rs: is_basic_text", "src/text_input.rs: queue_next"]}
{"id": "C102", "title": "CJK compatibility ideographs keep their identity", "statement": "There are 1002 CJK compatibility ideographs that NFC would replace by an equivalent unified ideograph. Reading text and the lossy conversions replace each by that equivalent followed by a variation selector, a different pair for each, so that the result tells which of them the text contained, how many and in which order. The strict conversions reject them.", "quantifier": "every string, every way it is split into reads, every sequence of buffer sizes", "why_tests_cant": "All texts: normalization could move or drop a selector depending on what stands around it.", "anchors": ["docs/NFC.md: CJK Compatibility Ideographs", "src/text_input.rs: queue_next", "internals/src/text_utils.rs: check_basic_text_char", "internals/src/unicode.rs"]}
{"id": "C103", "title": "Taking the inner stream back", "statement": "close_into_inner succeeds exactly when close would find nothing wrong with the text (nothing held back, text empty or ending with a newline); it flushes and closes the inner stream and returns it. abandon_into_inner always returns it. Neither panics. A new writer on the stream taken back continues as the old one would after a flush.", "quantifier": "every sequence of calls on a writer in any mode, every behaviour of the inner stream, every sequence of calls on the next writer", "why_tests_cant": "All histories of two writers in turn.", "anchors": ["src/text_writer.rs: close_into_inner, abandon_into_inner", "src/text_output.rs: close_into_inner, abandon_into_inner, check_nl, Drop", "src/text_duplexer.rs: close_into_inner, abandon_into_inner"]}
{"id": "C104", "title": "Private-use scalars are ordinary text", "statement": "A private-use scalar (U+E000 to U+F8FF, and planes 15 and 16 without their last two code points) is Basic Text by itself and can stand anywhere: text with one in it is valid exactly if what stands before and after it is. Although Unicode assigns no character to it, it is not isolated: valid text of private-use and assigned scalars is returned as it is by the conversions, read as it is and written as it is.", "quantifier": "every private-use scalar, every text around it, every split into reads, every writer ready for text", "why_tests_cant": "All 137468 scalars in all contexts.", "anchors": ["internals/src/text_utils.rs: is_private_use_area", "internals/src/isolate_unassigned.rs"]}
{"id": "C105", "title": "Writing is the document's strict stream conversion", "statement": "Writing a string to a new writer and closing it succeeds exactly when the document's strict conversion from a Unicode stream to a Basic Text stream does, and the inner stream then has got its result; with CRLF Compatibility and BOM Compatibility alike. The same holds if the text is written in several calls of whole lines.", "quantifier": "every string, every way of writing it in whole lines, plain, CRLF and BOM writers", "why_tests_cant": "All strings and all ways to cut them into lines; the document's conversion exists only as prose.", "anchors": ["docs/BasicText.md: From Unicode stream to Basic Text stream, strict", "src/text_output.rs: write_str, state_machine, check_nl, close", "src/text_writer.rs"]}
{"id": "C106", "title": "Canonically equivalent sources read alike", "statement": "Two texts that Unicode regards as the same (canonically equivalent: precomposed or decomposed letters, combining marks of different classes in another order, U+212B for U+C5) are read as the same text by TextReader, in every mode, and converted to the same string by from_text_lossy; so it makes no difference whether a source is normalized before it is read.", "quantifier": "every two canonically equivalent contents, every way each is split into reads, every sequence of buffer sizes", "why_tests_cant": "All pairs of equivalent strings; replacing, isolating, guarding and normalizing happen one after the other, and each could treat equivalent texts differently.", "anchors": ["docs/NFC.md", "docs/BasicText.md", "src/text_input.rs: queue_next, process_raw_string", "internals/src/replace.rs: replace"]}
{"id": "C107", "title": "A read may end anywhere except between a U+34F and the unassigned scalar it protects", "statement": "In the text a reader delivers from a source that does not fail, every unassigned scalar comes directly after a U+34F. Basic Text that ends with a newline is delivered as it is exactly when that is so in it and no read from the source, except the last, ends after such a U+34F and before the next U+34F or newline. So a source that hands over whole lines, or everything at once, never matters.", "quantifier": "every text, every way it is split into reads, every sequence of buffer sizes, every mode", "why_tests_cant": "All splits of all texts; the effect appears only where a read ends at one of few places.", "anchors": ["src/text_input.rs: queue_next, read_with_status", "internals/src/isolate_unassigned.rs: IsolateUnassigned"]}
{"id": "C108", "title": "String literals are checked like strings", "statement": "text!(\"…\") and text_substr!(\"…\") compile exactly if TextStr::from_text and TextSubstr::from_text accept the string, and are the same text, which a writer that is ready sends as it is. A literal accepted by text! is accepted by TextString::from_text too, which returns it as it is exactly if each unassigned scalar comes directly after a U+34F. The parts of a literal are text_substr! literals.", "quantifier": "every value of a string literal", "why_tests_cant": "All strings; the macros run at compile time and have their own call of the check.", "anchors": ["literals/src/lib.rs: text, text_substr", "src/text_string.rs: from_text, from_text_unchecked", "src/text_substring.rs: from_text, from_text_unchecked"]}
{"id": "C109", "title": "The documentation's example program does what its comments say", "statement": "In the example program of the crate's documentation no unwrap panics on a standard output that accepts what is written and whatever standard input holds: the greeting and the service dog written in two parts arrive unchanged, the valid line is written, the invalid line is refused with nothing of it sent, dropping the writer after that refusal does not panic, and what is read from any bytes is Basic Text.", "quantifier": "every state of the output so far, every byte sequence on standard input, every split of it into reads and all buffer sizes from 136 up", "why_tests_cant": "The doctest runs it once, with whatever standard input happens to be.", "anchors": ["src/lib.rs: crate documentation, Examples", "src/text_writer.rs", "src/text_output.rs: write_text_substr, prepare_failure, Drop", "src/read_text.rs: read_to_text_string", "literals/src/lib.rs"]}
{"id": "C110", "title": "However a source is cut, only U+34F can be added", "statement": "What a reader delivers for a content that comes in several reads is what it delivers for the content in one read, with some U+34F inserted, so that any two ways of cutting give the same text apart from U+34F. It is the same text exactly if no read but the last ends after a U+34F that stands directly before an unassigned scalar and not later than before the next U+34F or newline, and longer otherwise. The same is true of the lossy conversion of strings, for bytes, and for what a writer has accepted. Basic Text that is read can only get U+34F inserted and a final newline.", "quantifier": "every content, every way it is split into reads (the first not empty if it begins with U+FEFF), every sequence of buffer sizes, every mode", "why_tests_cant": "All pairs of splits of all contents, including those for which the text does depend on the split.", "anchors": ["src/text_input.rs: queue_next, read_with_status", "internals/src/isolate_unassigned.rs: IsolateUnassigned", "src/text_string.rs: from_text_lossy"]}
{"id": "C111", "title": "Escaped text is text again and can be told apart", "statement": "For every TextStr and TextSubstr, what escape_unicode and escape_default yield is printable ASCII on one line and Basic Text, and the escaped forms of different texts are different. escape_default leaves exactly the texts of printable ASCII without quotes and backslashes as they are. escape_debug too gives different results for different texts and stays on one line, but yields strings that are not Basic Text for some texts.", "quantifier": "every text and every pair of texts", "why_tests_cant": "All texts, with every scalar in every position.", "anchors": ["src/text_string.rs: escape_debug, escape_default, escape_unicode", "src/text_substring.rs: escape_debug, escape_default, escape_unicode"]}
{"id": "C112", "title": "Comparing without regard to ASCII case compares scalars", "statement": "eq_ignore_ascii_case holds for two texts exactly if they have the same scalars one by one, letters A to Z counting as a to z: it never takes parts of different scalars for the same although it works on bytes. It is an equivalence, and matching texts have the same positions.", "quantifier": "every pair of texts", "why_tests_cant": "All pairs of texts; the comparison is on bytes.", "anchors": ["src/text_string.rs: eq_ignore_ascii_case", "src/text_substring.rs: eq_ignore_ascii_case"]}
{"id": "C113", "title": "Exactly which texts the conversions can give", "statement": "A text can be delivered by TextReader (from some source that does not fail, in some reads), or be what a writer has sent of bytes written to it as a whole before it was closed, if and only if it is Basic Text, every unassigned scalar in it comes directly after a U+34F, and it is empty or ends with a newline. A text can be returned by from_text_lossy, or by TextString::from_text, if and only if it is Basic Text and every unassigned scalar in it comes directly after a U+34F. So reading, converting and writing agree on what text they produce.", "quantifier": "every text, over all sources, splits into reads, buffer sizes, strings and bytes it could come from", "why_tests_cant": "That a text cannot come out of any source is a statement about all sources.", "anchors": ["src/text_input.rs: queue_next, read_with_status", "src/text_string.rs: from_text_lossy, from_text", "src/text_output.rs: write_str, close"]}
{"id": "C114", "title": "A writer on a writer is a writer", "statement": "TextWriter can be the inner stream of a TextWriter. Whatever calls are made on the outer one, every call returns the same and the inner stream receives the same, failing or not, as if only the inner writer were there, plain or with CRLF Compatibility, or, if both are in color mode, one of them (color sequences cut between calls included); a plain one on one in color mode is a plain one; dropping the pair without ending the last line panics exactly if dropping the one writer would (in both destructors, so it aborts). For text written as TextSubstr this needs that it is not empty and that every unassigned scalar comes directly after a U+34F. An outer writer with CRLF Compatibility cannot write any newline, one with BOM Compatibility cannot be made, and one in color mode on a plain one takes the beginning of a color sequence and fails at its end.", "quantifier": "every sequence of calls with any arguments, every behaviour of the inner stream", "why_tests_cant": "All histories of calls of two writers that each keep a state.", "anchors": ["src/text_writer.rs: impl WriteStr, WriteLayered, Write for TextWriter", "src/text_output.rs: write_buffer, flush, close, prepare_failure, Drop"]}
{"id": "C115", "title": "A reader on a reader adds at most U+34F", "statement": "TextReader can be the source of a TextReader. On a source that does not fail or report pushes, the outer reader delivers the text the inner reader delivers, with nothing but U+34F inserted, in whichever modes the two are; the same text if all its scalars are assigned, and in general exactly if the inner reader does not end a read, other than the last, after a U+34F before an unassigned scalar and before the next U+34F or newline. That can happen, at the end of its 4096-byte buffer.", "quantifier": "every source, every sequence of buffer sizes of the outer reader, all modes of both", "why_tests_cant": "All contents and splits; the difference appears only where a buffer of 4096 bytes fills at the wrong scalar.", "anchors": ["src/text_reader.rs: impl ReadStrLayered for TextReader", "src/text_input.rs: read_with_status, queue_next"]}
{"id": "C116", "title": "Comparing values of different types compares scalars", "statement": "== between values of the text types, str, String, references to them and Cows, in whatever combination it compiles, always returns (it does not call itself for ever), and says whether the two contents are the same scalars. What compiles in one order compiles in the other. Equal values of whatever type feed the same bytes to a hasher, different ones do not, and what is hashed after them can be told apart.", "quantifier": "every pair of types built from the four text types, str and String by references and Cow, all contents", "why_tests_cant": "There are 74 impls, most of which call another impl; which one depends on the rules for method calls, and one that came back to itself would overflow the stack only for that pair of types.", "anchors": ["src/partial_eq.rs", "src/text_string.rs: derive(PartialEq, Eq, Hash)", "src/text_substring.rs: derive(PartialEq, Eq, Hash)"]}
{"id": "C117", "title": "Color does not touch the text", "statement": "A TextWriter with ANSI color enabled accepts exactly the strings that, without the color sequences of docs/Terminal.md in them, it would accept; the sequences reach the sink as they are and the text between them as without color; and a reader that reads what was sent delivers what it would deliver had there been no color sequences.", "quantifier": "All documented color sequences (up to 16 codes, RGB), all strings around them, all call sequences on a color writer, all splits of what is read", "why_tests_cant": "Whether a sequence gets through depends on how normalization treats its last letter together with whatever text follows; tests try a few sequences with ASCII around them.", "anchors": ["src/text_output.rs:337-397 state_machine_char", "src/text_writer.rs with_ansi_color", "src/text_input.rs:279-383 process_raw_string", "docs/Terminal.md:140-201 Color"]}
{"id": "C118", "title": "A reader keeps up with its source", "statement": "At every moment, what a text reader has delivered is a beginning of what it will have delivered in the end, and of what any other way of choosing the buffers delivers or the other way round. When a read leaves room in its buffer, everything that would be delivered if the source ended right there has been delivered, except at most its last line; and all of it, if what has come so far ends in a newline and contains no escape.", "quantifier": "All sources of readable data with pushes and an end (the comparison of buffers also with errors), all sequences of buffer sizes, both newline modes, all places where the source may be cut off.", "why_tests_cant": "Whether output is delivered early enough, and never retracted, depends on how the source is cut up and on the buffers; tests fix both and look at the final result.", "anchors": ["src/text_input.rs: TextInput::read_with_status, queue_next, process_raw_string", "src/text_reader.rs: TextReader"]}
{"id": "C119", "title": "Text as UTF-16 comes back", "statement": "`encode_utf16` of a text can be decoded to exactly that text by the Unicode Standard's rules for UTF-16, and no other sequence of units decodes to it. It gives one unit per scalar and one more per scalar beyond U+FFFF, and the units of two texts one after the other are those of the texts. No unit is U+FEFF, U+FFFE, U+FFFF or U+0, so no part of a text can be taken for a byte order mark or a terminator.", "quantifier": "all strings of Unicode scalars, all sequences of 16-bit units; for the last claim all strings accepted as TextStr or TextSubstr", "why_tests_cant": "Tests look at a few scalars; the claim is about every string and every sequence of units.", "anchors": ["src/text_string.rs: TextStr::encode_utf16", "src/text_substring.rs: TextSubstr::encode_utf16"]}
{"id": "C120", "title": "Printed with width and precision, text stays text", "statement": "Formatting a text or substring with a fill scalar, an alignment, a width and a precision gives its first scalars, as many as the precision says, with the fill scalar on the sides the alignment says as often as the width demands; so the result has as many scalars as the width, or as the cut text if that has more. With a printable ASCII fill scalar a Basic Text string gives a valid substring, and Basic Text exactly if the result does not end with a non-ender; so it does whenever the precision does not cut it. A TextSubstr stays valid for every fill scalar that composes with nothing, and for no other printable ASCII scalar. Printed into a writer with `write!`, a text of assigned scalars arrives exactly as it was printed.", "quantifier": "all TextStr and TextSubstr values, alignments, widths, precisions and printable ASCII fill scalars; all writers between writes", "why_tests_cant": "Tests try a few widths; validity depends on how the scalar at the cut and the fill scalar interact with normalization, for every text.", "anchors": ["src/text_string.rs: Display for TextStr", "src/text_substring.rs: Display for TextSubstr"]}
{"id": "C121", "title": "Taking the stream of a duplexer back", "statement": "close_into_inner and abandon_into_inner of a TextDuplexer never panic; close_into_inner returns the stream exactly if it would on a TextWriter with the same output, abandon_into_inner always, just as it is. No text is lost by that: a new duplexer on the stream taken back continues the text that the old one delivered.", "quantifier": "all duplexers after all sequences of reads and writes, all streams, splits, buffers, and ways of reading on", "why_tests_cant": "What is lost depends on what the reader had taken from the stream and not yet delivered at that moment; tests fix one moment, and the existing ones never take a stream back.", "anchors": ["src/text_duplexer.rs: TextDuplexer::close_into_inner, abandon_into_inner", "src/text_output.rs: TextOutput::close_into_inner, abandon_into_inner, Drop"]}
{"id": "C122", "title": "What is written and read is a POSIX text file, byte for byte", "statement": "The bytes of an accepted TextString, of everything a TextReader delivers up to the end, and of everything a closed TextWriter has sent make up a text file in the POSIX sense: besides tab and newline there is no control byte (and a carriage return only directly before a newline, where the CR LF mode asks for it, and an escape only where color is on), cutting the bytes at the newline byte gives exactly the encoded lines of the text, and the last line is terminated.", "quantifier": "all accepted strings; all readers, sources and lengths of calls; all writers, modes and sequences of calls", "why_tests_cant": "Encodings have no end of scalars to try; that no byte of a longer encoding looks like a newline or control byte has to hold for every one of them, in every sequence of calls.", "anchors": ["docs/Background.md:42-56", "docs/Background.md:377-405", "src/text_output.rs", "src/text_input.rs", "src/text_string.rs"]}
{"id": "C123", "title": "The Sequence Table may be applied beforehand", "statement": "Replacing scalars of the Sequence Table in a source by their replacements before reading changes nothing: every call of the reader has the same result, and lossy conversion gives the same text. In sources without ESC this holds for any choice of the replaced scalars, except those whose replacement is left to normalization or depends on the place (ESC, U+FEFF, CJK compatibility ideographs, U+F77, U+F79, U+2126, U+212A, U+212B, U+FB03). In any source it holds for non-ASCII scalars replaced by one non-ASCII scalar.", "quantifier": "all sources including errors and pushes, both modes, all sequences of calls, all sets of replaced scalars", "why_tests_cant": "The statement compares two runs on sources of different lengths, for every source, every choice of scalars and every sequence of calls.", "anchors": ["internals/src/replace.rs:9-142", "src/text_input.rs:279-383", "docs/BasicText.md"]}
{"id": "C124", "title": "The scalars that the background document excludes and includes are", "statement": "Each scalar that docs/Background.md says is excluded (controls, line and paragraph separators, deprecated and discouraged scalars, holes in blocks, singletons, noncharacters, annotation and object characters, Latin ligatures, the language tag, explicit directional formatting) is refused by every strict conversion wherever it stands, never delivered by a reader, in no result of a lossy conversion and never sent by a writer without the CR LF and color modes; each that it says is included is accepted and delivered; the holes are read as U+FFFD. Its comparison with another format also holds: unassigned scalars and private use are excluded, and the bidi controls included.", "quantifier": "all strings, sources, sequences of calls and operations; all scalars of the lists", "why_tests_cant": "The excluded scalars may stand anywhere in any input.", "anchors": ["docs/Background.md:42-336", "docs/Background.md:433-439", "docs/Background.md:495-496", "internals/src/check.rs:12-165"]}
{"id": "C125", "title": "The sequences of a terminal leave nothing in the text", "statement": "Reading what a program has sent to a terminal, or a terminal to a program, gives the text alone: each of the escape sequences that docs/Terminal.md lists (moving the cursor, clearing, colors, titles, keys with modifiers, pasting), in any number, anywhere in the text and however it is cut into reads, contributes nothing to what a TextReader delivers; every call returns the same as for the reads without the sequences.", "quantifier": "all texts, all sequences of the tables with all their parameters, all ways to cut the source into reads, both modes, all sequences of calls", "why_tests_cant": "The sequences have parameters without bound, may stand anywhere, any number of times, and be cut anywhere.", "anchors": ["docs/Terminal.md:42-44", "docs/Terminal.md:94-132", "docs/Terminal.md:149-151", "docs/Terminal.md:214-215", "docs/Terminal.md:278-321", "src/text_input.rs: process_raw_string"]}
{"id": "C126", "title": "The end is reported within a known number of calls", "statement": "Reading a TextReader with buffers of at least L bytes (L not less than the minimum size), the end of the stream is reported by the time there have been as many calls as the source has reads, two more, and one for every L - 3 bytes delivered; counted in what goes in, one for every L - 3 of 120 bytes for each scalar of the source. A call that succeeds and returns nothing has read the source or has dropped a status that it had kept back, so a loop that reads until the end does not spin.", "quantifier": "all sources (pushes, errors and ends in the middle included), all lengths of buffers, both modes, all sequences of calls", "why_tests_cant": "A test reads a few streams; a loop that runs forever or too often shows on the stream that was not tried.", "anchors": ["src/text_input.rs: read_with_status 385-488", "src/text_input.rs: queue_next 238-277"]}
{"id": "C127", "title": "A writer passes each text on at once, in one write", "statement": "A write to a TextWriter that succeeds has made exactly one write to the sink, of all it had accepted, and holds nothing back, but for an escape sequence that is not complete; one that fails has made none or one that failed, and has abandoned the sink. Flush and close write nothing and make one flush or close of the sink. No call makes more than one operation of the sink, so there is no need to flush for text to get to the sink.", "quantifier": "all states of a writer, all modes (CR LF, color), all calls and sequences of calls, all sinks", "why_tests_cant": "A test sees what has arrived at the end, not in how many pieces and when, and only for the sinks it uses.", "anchors": ["src/text_output.rs: write_buffer 262-292", "src/text_output.rs: write_str 461-470", "src/text_output.rs: flush 492-513", "src/text_output.rs: close 428-434"]}
{"id": "C128", "title": "Lines may be picked, sorted and merged", "statement": "Lines of Basic Text (or of TextSubstr) may be picked, sorted, repeated and merged from any number of texts, as programs like grep, sort, head and tail do: written one after the other with a newline each they are a valid TextSubstr, and Basic Text exactly if the first scalar may be the first of Basic Text, so always if it is ASCII or a newline or began a text before. If the texts were converted or read from sources that do not fail, reading the result gives it back unchanged (unless a read ends between a U+34F and its unassigned scalar), but for a U+34F in front of a first line that may not come first.", "quantifier": "all lists of lines of all texts, in any order and number; all ways to cut them into reads; both modes", "why_tests_cant": "There is no end of selections and orders of lines, and the failure needs a line that begins with a mark.", "anchors": ["src/text_string.rs: lines", "src/text_substring.rs: lines", "src/text_input.rs: read_with_status 385-488"]}
{"id": "C129", "title": "Buffers of the sizes that streams report suffice", "statement": "A TextReader or TextDuplexer, or any number of them on each other, asks for a buffer of at least NORMALIZATION_BUFFER_SIZE bytes and of no less than the stream at the bottom needs, and suggests at least what it asks for. A read with a buffer of the size asked for is never refused for its size, copy_text and copy_text_using_status never fail for that reason whatever the streams suggest, and a reader on a reader never gets refused. Not so for a source that itself needs more than 4096 bytes: the reader passes that on to its caller but always reads 4096 bytes from the source, so that every read fails.", "quantifier": "every stack of readers and duplexers, every size the innermost stream reports, every state of the reader and every source", "why_tests_cant": "All stacks, sizes and states.", "anchors": ["src/text_input.rs: minimum_buffer_size, suggested_buffer_size, read_with_status lines 389, 415-417", "src/text_duplexer.rs: minimum_buffer_size, suggested_buffer_size", "src/text_output.rs: suggested_buffer_size", "src/copy.rs: copy_text, copy_text_using_status"]}
{"id": "C130", "title": "Copying from a source that is interrupted", "statement": "Copying text with the copying function of the library, from a source some of whose reads are interrupted (the error kind that asks to try again), always comes to an end and never reports an interruption. What arrives in the sink is exactly the text of the reads that succeeded, and the returned number is its length. So the copy is complete, the text being that of the same source without interruptions, exactly if no interrupted read had already put text into the buffer: an interruption right after a read that left room for one more scalar, or right after another interruption, loses nothing. But an interruption after a line longer than the buffer does: the copy then returns success with text missing. The variant that uses the status reports the interruption as an error instead, and returns success only if the copy is complete.", "quantifier": "all sources (lists of chunks with any status, and interruptions, in any order), buffer sizes from the minimum on, both compatibility settings, all writers and sinks", "why_tests_cant": "The loss depends on where an interruption falls relative to the buffer boundaries; a test sees one interleaving, and a source that is never interrupted shows nothing.", "anchors": ["src/copy.rs: copy_text, copy_text_using_status", "src/text_input.rs: read_with_status"]}
{"id": "C131", "title": "A panic while a stream is in mid-line cannot be caught, and abandoning a duplexer can be such a panic", "statement": "Dropping a writer panics when its output is in mid-line, so any panic elsewhere, while such a writer is alive in the calls given up, aborts the process instead of unwinding; after `abandon` on the writer, or after a failed write, it does not. Abandoning a duplexer never takes the process down: it succeeds unless text that was read is still undelivered, when it panics and the panic can be caught. The last sentence fails: the input half is abandoned first, so with half a line read and half a line written the panic meets the drop of the output half and the process is aborted.", "quantifier": "Every list of writers in any state; every sequence of calls on a new writer; every duplexer in any state, and every duplexer on any inner stream after any reads and successful writes.", "why_tests_cant": "The outcome is an abort of the test process itself, and it needs both halves of a duplexer to be in particular states at once; tests that abandon a stream do it between whole lines.", "anchors": ["src/text_output.rs: Drop", "src/text_input.rs: TextInput::abandon", "src/text_duplexer.rs: TextDuplexer::abandon"]}
{"id": "C132", "title": "A message written and flushed by one end is heard by the other end at its next read", "statement": "When two programs talk through a `TextDuplexer` each, what one end passes to `write_str` and flushes is what the next read of the other end returns, complete and at once: the text that `TextString::from_text` makes of it.", "quantifier": "Every dialogue of any length: any messages that `TextString::from_text` accepts, said by either end in any order, arriving with the status active or push, new duplexers of either newline form with any settings, and buffers with room for the message and four bytes more.", "why_tests_cant": "A dialogue can be of any length and shape, and each read depends on the state that all messages before it have left in four streams; tests play a few.", "anchors": "src/text_duplexer.rs TextDuplexer (ReadLayered, WriteLayered, WriteStr); src/text_input.rs read_with_status, queue_next; src/text_output.rs write_str, flush; src/text_string.rs from_text"}
{"id": "C133", "title": "An error's message can be read, and written", "statement": "The Display of an error about a text (BasicTextError, as writes return it, and TextError) is one line without control codes, tells which error it is and about which scalar or index, and can itself be written by a TextWriter and accepted by TextString::from_text, so that a program may report it in text.", "quantifier": "all errors, all rejected scalars, all indices, whatever the tables of printable scalars of the standard library say (except that they do not count control codes as printable)", "why_tests_cant": "The messages contain the rejected scalar, quoted by the standard library; tests would have to go through all scalars and all versions of its tables, and injectivity is about pairs.", "anchors": ["internals/src/check.rs: BasicTextError", "src/text_string.rs: impl Display for TextError, impl Display for FromTextError"]}
{"id": "C134", "title": "A reader may be read on after the end", "statement": "When a TextReader has reported the end of its stream, and the stream then goes on (a terminal after the end was typed, a file that grows), further reads deliver what comes as a new reader would: a stream of several documents, each followed by an end, is delivered as the documents' texts one after the other, and each end is reported to the caller.", "quantifier": "all sources (with errors before the end where the statement allows it), any number of documents cut and pushed in any way, all buffer sizes, both compatibility modes", "why_tests_cant": "The state kept over an end (control state, queue, pending status, the start flag) must be the initial one for every history; tests read one document.", "anchors": ["src/text_input.rs: TextInput::read_with_status, process_raw_string", "src/text_reader.rs: TextReader"]}
{"id": "C135", "title": "Keys typed at a terminal", "statement": "A program that reads what is typed at a terminal through a TextReader receives for every key its own text, whatever is typed before and after it and however what the keys send is cut into reads: printable keys and Tab give themselves, Enter a newline, other control codes U+FFFD, Ctrl-L a space, Escape, Alt with a letter and the keys that send the escape sequences of docs/Terminal.md nothing, Alt with a digit the digit; it receives it when it is typed, and can tell the keys apart.", "quantifier": "all runs of keys of docs/Terminal.md (codes U+0 to U+7F, with and without Alt, and all its escape sequences), all divisions of what they send into reads with pushes, both compatibility modes, all buffer lengths", "why_tests_cant": "Tests feed single sequences in one read; the meaning of a key depends on the state that earlier keys and reads have left, and there are infinitely many runs of keys.", "anchors": ["src/text_input.rs: process_raw_string, read_with_status", "docs/Terminal.md: Terminal input"]}
{"id": "C136", "title": "A source that ends early loses only its last line", "statement": "When a source breaks off early - a download cut short, a file still being written - a reader of it delivers the same complete lines as a reader of the whole source would, and after them at most one further line. This holds wherever the source breaks off: inside a read or between two, inside an escape sequence, inside CR LF, and for bytes inside a scalar. So two sources that begin alike deliver alike everything but the last line of what they have in common. That last line itself may come out differently (an accent is missing, an escape sequence is unfinished).", "quantifier": "all texts of all reads before, all positions at which the source breaks off (any scalar; any byte), all continuations, all lengths of the buffers, both settings of the line separators", "why_tests_cant": "A test breaks a file off at a few places; the state at the break (escape sequence, CR, accents, stretch of joiners, half a scalar) and the continuation are unbounded.", "anchors": ["src/text_input.rs TextInput::process_raw_string", "src/text_input.rs TextInput::queue_next", "src/text_input.rs TextInput::read_with_status", "src/text_reader.rs TextReader"]}
{"id": "C137", "title": "The ways to read may be mixed", "statement": "A program may read one TextReader by any mixture of calls - `read`, `read_str`, `read_text_substr`, their `_with_status` forms, `read_vectored`, the exact reads with and without status - with buffers of any sizes. Every call returns. What the buffers receive, one call after the other, is the text that reading with status alone delivers: never a scalar twice, skipped or changed by the choice of the call. At any point the rest can be taken with `read_to_string` or `read_to_end`, and once a call says that the source is at its end, all of the text has been received. The text that an exact read took before it failed is in its buffer.", "quantifier": "all sources of any reads with any statuses before their end, all finite sequences of calls, all sizes and contents of buffers, both settings of the line separators", "why_tests_cant": "A test mixes a few calls on a few sources; the state between calls (queue, held scalars, pending status) and the sizes of the buffers are unbounded.", "anchors": ["src/text_reader.rs Read for TextReader", "src/text_reader.rs ReadStr for TextReader", "src/text_reader.rs ReadText for TextReader", "src/text_reader.rs ReadTextLayered for TextReader", "src/text_input.rs TextInput::read_exact_text_substr_using_status", "src/read_text.rs default_read_exact_text_substr"]}
{"id": "C138", "title": "A Basic Text file cut short reads as its complete lines, and one further line at most", "statement": "Of the bytes of a Basic Text stream of assigned scalars (a file that a writer has sent, say) only a beginning is left, cut after any byte: a full disk, a crash, a transfer that broke off. A reader of what is left, however its reads split the bytes, delivers exactly the scalars of which all bytes are left, unchanged, followed by: U+FFFD and a newline if the cut is inside a scalar; else nothing if they end with a newline or there are none, a newline if their last scalar may end text, and U+34F and a newline otherwise. So all lines that are complete in what is left are delivered unchanged, and what is behind them makes one further line, or none exactly if nothing is behind them. With isolated unassigned scalars the statement about lines holds if what is left comes in one read.", "quantifier": "all Basic Text streams of assigned scalars (all isolated ones for one read), all places to cut their bytes, all ways to split what is left into reads, all buffers of the reader, both reader modes; all writers whose sink takes everything", "why_tests_cant": "a test cuts a few files at a few places; the scalars around the cut may be the first of a composition, a scalar that may not end text, a part of a UTF-8 sequence that itself is split over two reads, and a normalizer could hold back or recombine what is in front of it", "anchors": ["src/text_input.rs (TextInput::read_with_status, process_raw_string)", "utf8-io Utf8Reader (modelled)", "src/text_output.rs (TextOutput)", "docs/BasicText.md"]}
{"id": "C139", "title": "Any part of a Basic Text file can be read", "statement": "A reader gets the bytes of a Basic Text stream of assigned scalars from any byte on to any byte (the tail of a log, a block of a file, what comes after a seek), in any reads. It delivers exactly the scalars of which it gets all bytes, unchanged. Before them it puts one U+FFFD for each byte it gets of a scalar that begins before the part, at most three; if there is none, and the first scalar may not begin text, U+34F. Behind them it puts U+FFFD and a newline if the part ends inside a scalar, else what text needs at its end (C138). So all lines whose bytes are all in the part, with the newline before them, are delivered unchanged. From a line on, the rest of the stream is delivered unchanged exactly if that line begins with a scalar that may begin text; a line of Basic Text need not.", "quantifier": "all Basic Text streams of assigned scalars, all first and last bytes, all ways to split what is between them into reads, all buffers of the reader, both reader modes", "why_tests_cant": "a test seeks to a few places in a few files; both ends of the part can be inside a scalar, the same scalar even, and the first line can begin with a mark", "anchors": ["src/text_input.rs (TextInput::read_with_status, process_raw_string, queue_next)", "utf8-io Utf8Reader (modelled)", "docs/BasicText.md"]}
{"id": "C140", "title": "Fields may be converted one by one", "statement": "Converting a string of fields with a delimiter between them to Basic Text by the lossy conversion, the string having no escapes and being read at once, gives the conversions of the fields with the delimiter between them, but for the U+34F put behind a field ending with a scalar that may not end text and before a field beginning with one that may not begin text. The two are equal exactly if no such U+34F is put. The delimiter may be any allowed assigned scalar that takes no part in normalization: tab, space, digits and the ASCII punctuation except `<`, `=`, `>`, `;` and backquote. With `=` it fails.", "quantifier": "all delimiters of that kind, all fields without escapes, the second and later ones not beginning with U+FEFF, all numbers of fields, all buffer lengths of the conversions", "why_tests_cant": "a test splits a few lines; what is beside the delimiter may be any scalar, and a delimiter fails only for the marks that compose with it", "anchors": ["src/text_string.rs (TextString::from_text_bytes_lossy, TextString::from_text_lossy)", "src/text_input.rs (process_raw_string)", "docs/BasicText.md"]}
{"id": "C141", "title": "Values may be put into templates, and fields picked, ordered and joined", "statement": "A template whose literal parts are valid, whose literal part before each value ends with a newline or a delimiter in the sense of C140, and whose literal part behind each value begins with a scalar that may begin text (no vowel or final of Hangul), filled with values, is accepted unchanged by the checked conversion to TextSubstr exactly if every value is; and by the one to TextStr, if the template begins and ends as text may. Fields with a delimiter or newline between them are accepted together exactly if each is, so fields may be picked, left out, reordered, taken from several strings and joined with another delimiter. Replacing newlines and delimiters by other newlines and delimiters makes no string valid or invalid. Behind a letter or `=` a valid value can make the whole invalid. Writing such a template with write!, the values being any strings, with a delimiter or newline wherever a literal part and a value meet, does the same as writing the formatted string at once.", "quantifier": "all templates of that kind with any number of values, all values, all delimiters, all fields, all replacements of delimiters, all strings", "why_tests_cant": "a test fills a template with a few values; a value may begin with any mark, end with any joiner, or be empty, next to another value", "anchors": ["src/text_substring.rs (TextSubstr::from_text)", "src/text_string.rs (TextStr::from_text)", "internals/src/unicode.rs"]}
{"id": "C142", "title": "The project's filters may be run one after another", "statement": "utf8-cat writes its input with each ill-formed sequence replaced by U+FFFD, in whatever pieces it comes, and copies unchanged exactly what is UTF-8. What text-cat writes, whatever it has read, passes unchanged through utf8-cat, nfc-cat and ssnfc-cat. Running utf8-cat before text-cat changes at most U+34F, and nothing if there is no U+34F directly before an unassigned scalar (the first reads not being shorter than a U+FEFF with which the input begins). Running nfc-cat before text-cat changes nothing of inputs with Unix line ends that have no escapes, CJK compatibility ideographs, U+2329, U+232A or U+34F before an unassigned scalar, and no long runs of marks; for ideographs, these brackets, and CR CR LF it does. Running nfc-cat after ssnfc-cat changes nothing, exactly if the input has no CR CR LF and does not end with CR.", "quantifier": "all inputs (bytes), all ways for them and for what passes between the programs to come in pieces, all buffer sizes", "why_tests_cant": "a test pipes a few files; pipes cut their contents anywhere, even inside scalars, and the programs treat line ends and normalization differently", "anchors": ["examples/utf8-cat.rs (main)", "examples/text-cat.rs (main)", "examples/nfc-cat.rs (main)", "examples/ssnfc-cat.rs (main)"]}
{"id": "C143", "title": "A disk that fills up costs at most one line of what was written", "statement": "When the stream below a TextWriter has no room for all that is written (a full disk, a quota), it ends up with exactly the first bytes of what it would have received otherwise, as many as it has room for, whatever the mode of the writer, the calls and their results. Calls do the same as without a limit up to the first one of which the text does not fit; that one and all later calls fail, and nothing is written after it. All that calls have written which succeeded is there and stays there. A TextReader of it, however the bytes are cut, also in the middle of a scalar, delivers the complete lines that it would deliver of the whole, and at most one further line; if the whole is Basic Text of assigned scalars, it delivers the complete lines as they were written, among them all that were completed by calls that succeeded.", "quantifier": "all writer states and modes, call sequences, amounts of room, and for the reader all cuts of the bytes into reads and all buffer sizes", "why_tests_cant": "A test fills up one disk at a few places; the claim is about every byte at which a stream may stop, and every text on it.", "anchors": ["src/text_output.rs: TextOutput::write_buffer, TextOutput::prepare_failure, TextOutput::flush, TextOutput::close", "src/text_writer.rs: TextWriter", "src/text_input.rs: TextInput::read_with_status"]}
{"id": "C144", "title": "A file that is appended to after crashes is read as what is left of each session", "statement": "If several writers write to one file one after the other, each appending to what is there, and each may be cut short at any byte (a crash, a full disk, also in the middle of a scalar), then a TextReader of the file delivers exactly what is left of each session, one behind the other, with a single U+FFFD for a scalar of which only a part is there, whatever the pieces in which the bytes come and the sizes of the buffers, and a newline at the end if there is none. So nothing of a session damages another one: each complete line of a session but its first is a line of what is delivered, the first too if what was there before ended with a newline, and sessions of which everything got there are delivered as they are. This is for sessions of which the text is Basic Text of assigned scalars and which, but for the first, do not begin with a conjoining vowel or trailing consonant (a Hangul part): such a one can combine with the last scalar that is left of the session before it.", "quantifier": "all lists of sessions (texts, or calls of new writers), all numbers of bytes at which they are cut, all ways to cut the file into pieces, all sizes of buffers that complete the read, both compatibility options", "why_tests_cant": "The cuts are at any byte of any of any number of sessions, with any text on both sides of a cut, and the claim is about what the next session's first scalars do to the remains of the last one; tests try few combinations.", "anchors": ["src/text_reader.rs: TextReader", "src/text_input.rs: TextInput::read_with_status, process_raw_string, queue_next", "src/text_writer.rs: TextWriter", "src/text_output.rs: write_buffer"]}
{"id": "C145", "title": "Damage to a file stays in its lines, unless it has an ESC", "statement": "If bytes of a Basic Text file of assigned scalars are overwritten (a bad block, a faulty transfer, another program), in one or several lines, with any number of any bytes without ESC, also bytes that are no UTF-8, then a TextReader of the file delivers the lines before and behind the damage as they are, whatever the pieces in which the bytes come, and between them what it delivers for the bytes alone. If there is no newline among the bytes it is exactly one line, so line numbers do not change. With ESC this does not hold: an ESC byte put in the place of a scalar before ']' makes the reader lose the whole rest of the file, as this begins an escape sequence that nothing in Basic Text ends.", "quantifier": "all Basic Text streams of assigned scalars, all parts of them up to a newline, all bytes put there, all ways to cut the file into pieces, all sizes of buffers that complete the read, both compatibility options", "why_tests_cant": "The bytes are arbitrary and so is the text around them; tests cannot try all damages, and that state of the decoder, of the escape sequences and of the normalization does not get across a newline is a claim about all of them.", "anchors": ["src/text_reader.rs: TextReader", "src/text_input.rs: TextInput::read_with_status, process_raw_string, queue_next"]}
{"id": "C146", "title": "A reader reports what its source reports, and nothing else", "statement": "What the calls of a reader report is, in order, what its source reported in the reads they made of it: every failure of the source is the result of exactly one call, the one that made the read; no call fails, or reports a push or the end, without the source having done so in that call. A push or an end is not reported only if the call fills its buffer up to at most three bytes; if no call does, all are reported. InvalidInput is the result exactly if the buffer is shorter than 136 bytes, and then nothing changes.", "quantifier": "all sources with any data, failures, pushes and ends, all numbers and sizes of buffers, both compatibility options; every state a reader can get into", "why_tests_cant": "It relates whole sequences of calls to whole sequences of source results; tests check a few of them, and the case where a status is dropped depends on how text and buffer sizes happen to meet.", "anchors": ["src/text_input.rs: TextInput::read_with_status", "src/text_reader.rs: TextReader::read_with_status"]}
{"id": "C147", "title": "Several writers may append lines to one log", "statement": "Several text writers, each new, append to one stream, in turns. If every call is a write of whole lines (a string that ends with U+A), then the stream is, whatever the order of the turns, what the calls that succeeded wrote, normalized as if it was one text; a call that fails leaves nothing in it, and does not hinder the other writers. The stream is Basic Text at all times and consists of complete lines; a single writer given the calls that succeeded would have accepted them all and sent the same; and a reader, whatever the pieces in which the bytes come, delivers it as it is if no unassigned scalars were written. Each writer's results are those it would have alone. The same holds for writes of text and of bytes in lines, and with flushing, closing and abandoning in between: the stream is what the calls that succeeded put into it, Basic Text, in complete lines. With calls that write parts of lines this does not hold, although each writer on its own sends Basic Text.", "quantifier": "all numbers of writers, all sequences of calls on them with all strings, all orders of turns, all pieces of the bytes when reading", "why_tests_cant": "the orders of turns and the strings are without end; tests have one writer", "anchors": ["src/text_writer.rs: TextWriter::write_str", "src/text_output.rs: TextOutput::write_str, TextOutput::write_buffer", "src/text_reader.rs: TextReader::read"]}
{"id": "C148", "title": "A writer may be behind the standard library's buffer", "statement": "A text writer wrapped in a `BufWriter`: writes through the buffer followed by a flush are writes on the text writer in pieces, each of which is writes that follow each other; nothing is lost, repeated or reordered, and it comes to an end without a panic. If every write is of whole lines, then for every capacity writing succeeds exactly if writing everything at once without a buffer does, and the same is sent: the lines, normalized. What fits into the buffer is written at once, also if it was cut in the middle of a line or of a scalar. But otherwise what is sent, and whether writing succeeds, depends on the capacity: a letter and its mark in two writes are composed only if both are in the buffer together, and a scalar that is cut may be refused.", "quantifier": "all capacities, all sequences of writes of all bytes, all writers; for lines, all writers between lines", "why_tests_cant": "the capacity that a program has decides where its writes are cut; tests never get to its end", "anchors": ["src/text_writer.rs: TextWriter::write, TextWriter::flush", "src/text_output.rs: TextOutput::write, TextOutput::write_str, TextOutput::flush"]}
{"id": "C149", "title": "A reader may be put behind the standard library's read buffer", "statement": "A TextReader inside a standard library BufReader may be read with calls of any size, single bytes included, even within a scalar value. If the buffer's capacity is at least 136 bytes, no call is refused for its size. A caller that repeats a call with room for at least one byte comes to the end of a source that ends without failing. It has then received exactly the bytes that reading the TextReader itself to the end gives, with whatever buffers that is done. At every moment, whatever the source does, what has been received and what is still in the buffer are together the bytes of what the reader has delivered. The number a successful call returns is that of the bytes it delivers, which fit the caller's buffer; a call that fails delivers none, and no call panics. With a capacity of at least 136 bytes and a source that does not fail, no call fails but for interruptions, which are to be tried again. With a smaller capacity, every call with room for fewer than 136 bytes is refused, from the first on.", "quantifier": "All capacities, all sequences of call sizes, all sources (including failing ones for the running statement), and both settings of the compatibility options.", "why_tests_cant": "Where the buffer's edge falls in the text depends on the capacity, the call sizes and the pieces of the source together; a test fixes all three.", "anchors": ["src/text_reader.rs: TextReader::read", "src/text_input.rs: TextInput::read, TextInput::read_with_status"]}
{"id": "C150", "title": "Lines can be read from a buffered reader", "statement": "Put a TextReader on a source that ends without failing inside a standard library BufReader with a capacity of at least 136 bytes. Then the standard library's lines, and this crate's text_lines and text_lines_lossy, each give exactly one item for each line of the text that the reader delivers, in order, and then none; they do not depend on the capacity or on how the source is cut up, and short pauses of the source are not seen. lines always gives the line itself, without an error. text_lines gives the line if it is Basic Text by itself, and otherwise an error and goes on; such lines exist although the whole is Basic Text. text_lines_lossy always gives Basic Text. Neither panics, with or without debug assertions. With a smaller capacity every call for a line fails, for ever.", "quantifier": "All capacities, all sources that end without failing, however cut up (for the last sentence all sources), both settings of the compatibility options, with and without debug assertions.", "why_tests_cant": "A line can be spread over any number of fills and the end of a fill can be anywhere in a line or a scalar's normalization; which lines are Basic Text by themselves depends on all of Unicode.", "anchors": ["src/text_reader.rs: TextReader::read", "src/buf_read_text.rs: BufReadText::text_lines, BufReadText::text_lines_lossy, TextLines::next, TextLinesLossy::next"]}
{"id": "C151", "title": "A line buffer makes the pieces of writes immaterial", "statement": "Put a TextWriter whose sink works inside a standard library LineWriter. If the capacity is greater than the longest line and the longest write together, then a text of whole lines may be written in any pieces, even with cuts within a scalar value or between a letter and its mark, and flushed: this succeeds exactly if writing the text at once and flushing does, and leaves the writer in the same state. A new writer has then sent the text, normalized. All that is written comes to the writer in order, in pieces that end where lines end, with what follows the last newline at the flush; this holds for all bytes and all writers, and there is no panic. Without room for a line, what is sent can depend on the pieces.", "quantifier": "All capacities, all byte sequences in all pieces that leave room, all writers (those between writes with a working sink for the equivalence).", "why_tests_cant": "Whether a cut does harm depends on the pair of scalars at the cut, on where the last newline before it was and on how full the buffer is; tests fix all of these.", "anchors": ["src/text_writer.rs: TextWriter::write, TextWriter::flush", "src/text_output.rs: TextOutput::write, TextOutput::write_str, TextOutput::flush"]}
{"id": "C152", "title": "A buffered reader can be piped into a line-buffered writer", "statement": "Take bytes from a TextReader inside a standard library BufReader with a capacity of at least 136 bytes, at most n at a time (n may be 1), until there are no more; give each lot to a new TextWriter, whose sink works, inside a standard library LineWriter with a capacity greater than n and the longest line together; then flush. The end is reached, the writes and the flush succeed, and what the sink receives is exactly the text that the reader delivers, for every source that ends without failing, however it is cut up, if each unassigned scalar value in the text is between two U+34F. Without the line buffer such a pipe can fail at the first scalar value of more than one byte.", "quantifier": "All capacities and lot sizes as stated, all sources that end without failing, however cut up, whose text has its unassigned scalar values isolated (all texts of assigned scalar values among them), both settings of the compatibility options.", "why_tests_cant": "The cuts of the source, of the read buffer, of the lots and of the line buffer fall at independent places; tests fix each of them.", "anchors": ["src/text_reader.rs: TextReader::read", "src/text_writer.rs: TextWriter::write, TextWriter::flush"]}
{"id": "C153", "title": "Limiting a reader with take needs a buffer between", "statement": "Put a TextReader inside a standard library BufReader with a capacity of at least 136 bytes, and that inside the standard library's take with any limit, on a source that ends without failing. At every moment what has been delivered is a beginning of the bytes of the whole text, at most as many as the limit; no call fails, but for interruptions; and once a call with room for a byte gives none, what has been delivered is the bytes of the whole text up to the limit; and calls of any fixed size but 0 come to such a call. A call that succeeds returns the number of the bytes it delivers, and one that fails delivers none. With take around the TextReader itself, every call is refused, for ever, as soon as at least one but fewer than 136 bytes are left up to the limit, so that a longer text usually breaks off with an error before the limit.", "quantifier": "All limits, capacities, sequences of call sizes, both settings of the compatibility options, and all sources that end without failing; for the last sentence all sources and all states of the reader.", "why_tests_cant": "The limit, the call sizes, the capacity and the cuts of the source are independent, and the failure shows only when they combine to leave less than the reader's least buffer.", "anchors": ["src/text_reader.rs: TextReader::read", "src/text_input.rs: TextInput::read_with_status, NORMALIZATION_BUFFER_SIZE"]}
{"id": "C154", "title": "Chaining two readers gives their texts one behind the other, as one Basic Text", "statement": "Chain two new TextReaders with the standard library's chain, on sources that end without failing. At every moment, whatever the sizes of the calls and whichever of them are refused or interrupted, what has been delivered is a beginning of the bytes of the first text followed by the second, where each text is what its reader alone delivers. Once a call gives nothing, all of both has been delivered, and it is Basic Text that is empty or ends in a newline; and if every call has room for at least 136 bytes, such a call comes. A call that succeeds returns the number of the bytes it delivers, and one that fails delivers none. The whole is not what one TextReader delivers on the chained sources: there the first text gets no newline of its own, and a byte order mark at the beginning of the second stays, as a word joiner.", "quantifier": "All sequences of call sizes, all settings of the compatibility options of either reader, and all pairs of sources that end without failing, cut and interrupted in whatever way.", "why_tests_cant": "The sources, their cuts, and the call sizes are independent, and a refused or interrupted call may come at any place, also at the change from one reader to the other.", "anchors": ["src/text_reader.rs: TextReader::read", "src/text_input.rs: TextInput::read_with_status"]}
