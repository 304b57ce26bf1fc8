# Design of the formal model of basic-text

Lean 4.33.0 project in `lean/`, built with `lake build`.  It models `/repo` (sunfishcode/basic-text, Unicode 15.1.0) and
proves the properties listed in `properties.jsonl`; `MANIFEST.json` says which theorem proves which property.

## 1. What is modelled

Strings are lists of Unicode scalar values (`List Char`; a Lean `Char` is exactly a scalar value).  Where the code works on
bytes (`read` buffers, `write(bytes)`, `valid_up_to`, slicing, ordering, lines) UTF-8 is modelled explicitly.

| Rust | Lean | remarks |
| --- | --- | --- |
| `internals/src/{check,replace,categorize,isolate_unassigned,unicode,text_utils}.rs` | `Internals`, `Tables/Repo` | range tables transcribed mechanically from the `matches!` patterns by `tools/gen_tables.py` |
| `src/text_input.rs` (and the forwarding `text_reader.rs`) | `Reader`, `ReadStd` | the whole state machine, the queue, the drain loops, `abandon`, buffers as bytes |
| `src/text_output.rs` (and the forwarding `text_writer.rs`) | `Writer` | the state machine, the three constructors, all calls, `Drop` |
| the iterator chains as iterators: `Categorize` with its error cell, `IsolateUnassigned`, and the adapters of `unicode-normalization` | `Pull`, `PullReader`, `PullWriter` | `next` functions; shown to refine the list functions of the other files (C94), and used for which error is reported (C95) |
| newer versions of the Unicode data | `Stability`, `NewerData` | what it means for one version to extend another; two ways of growing (C101) |
| variants of CJK compatibility ideographs | `Cjk`, `KeptTheory`, `Variants`, `Tables.CjkInverse` | scalars at which normalization can be cut, the inverse of the table of variants, scalars that reading keeps (C102) |
| `close_into_inner`, `abandon_into_inner` with the drop of the writer | `IntoInner` | `takeClosed`, `takeAbandoned`; writers that differ in a finished color sequence only behave alike (C103) |
| the errors of `src/text_output.rs` | `CallErrors` | all calls on a writer with the error each reports (C99) |
| `src/text_string.rs`, `src/text_substring.rs` | `Strings`, `Order` | conversions, `compute_valid_up_to`, slices, `split_at`, `trim*`, `repeat`, `push_text`, `extend`, `read_to_text_string`, comparison |
| `String::from_utf8_lossy`, `write_all`, as used by `from_text_bytes_lossy` and the fuzz target | `Utf8Lossy`, `BytesIO` | bytes cut into maximal ill-formed subparts |
| `utf8_io::Utf8Reader` | `Utf8Stream` | each read of bytes makes one read of a string; up to three bytes are kept |
| vectored writes, `write_fmt`, several `write_all` | `WriteMany` | over `Writer` |
| `Arbitrary` | `Props/Pieces` | for the bytes it looks at |
| `escape_*`, `eq_ignore_ascii_case` | `Escape` | what `char` and `str` do from the documentation of the standard library |
| `encode_utf16` | `Utf16` | what `str` does from the documentation of the standard library |
| `Display` with width and precision | `Pad` | `Formatter::pad` from the standard library |
| `TextWriter` inside `BufWriter` | `Buffered` | `BufWriter` from the standard library; the buffer after a failure is not modelled |
| `TextReader`, or a `BufReader` with it, inside `Take` | `Take` | `Take::read` from the standard library, modelled by hand |
| Two `TextReader`s inside `Chain` | `Chain` | `Chain::read` from the standard library, modelled by hand |
| `TextWriter` inside `LineWriter` | `LineBuffered` | `LineWriter::write_all` from the standard library, modelled by hand; the buffer after a failure is not modelled |
| `TextReader` inside `BufReader` | `BufferedReader` | `BufReader::read` from the standard library, modelled by hand; `seek` and vectored reads are not modelled |
| `lines`, `text_lines`, `text_lines_lossy` on that | `BufferedLines` | `fill_buf` is one read with the capacity's size; `Lines::next` from the standard library |
| several `TextWriter`s on one stream | `Log` | each call's write is appended at once; no concurrency within a call |
| `src/partial_eq.rs`, the derived `PartialEq` and `Hash` | `Equal`, `Tables/Eq` | which impl calls which; method resolution for these bodies |
| searching, `lines`, `char_indices` | `Search`, `SearchMore` | string patterns, over bytes as `str` does; `char` and closures, over `char_indices` |
| `src/buf_read_text.rs` | `Lines` | over a model of `BufRead::read_line` |
| `examples/nfc-cat.rs`, `ssnfc-cat.rs` | `Cats` | the programs, on a standard output that accepts everything |
| `fuzz/fuzz_targets/text.rs` | `Fuzz` | the target, with its assertions, on a source that delivers the bytes in any pieces |
| `src/read_text.rs` | `ExactDefault` | the two default exact reads, on a reader |
| `src/copy.rs` | `Copy` | both loops |
| `literals/src/lib.rs` | `Literals` | `text!` and `text_substr!` as what they expand to, or a compile error |
| the example program in `src/lib.rs` | `DocExample` | on a standard output that accepts everything |
| `examples/text-cat.rs` | `IoCopy` | `std::io::copy` from a reader to a byte sink |
| `TextWriter<TextWriter<…>>`, `TextReader<TextReader<…>>` | `Layered`, `LayeredReader` | the calls with a writer in the place of the sink; the inner reader's results as a source |
| `src/text_duplexer.rs` | `Duplexer`, `HandOver` | composition of the two halves; taking the stream back |
| `docs/Terminal.md`, section Color | `Color`, `Tables/Color` | the grammar of its sequences; the code table is extracted by `tools/gen_color.py` |
| `docs/Terminal.md`, all escape sequences | `Tables/Terminal` | extracted by `tools/gen_terminal.py` |
| `docs/BasicText.md` | `Spec`, `DocSpec`, `Tables/Doc` | `DocSpec` follows the letter of the document, `Spec` what the code makes of it; the Sequence Table is extracted by `tools/gen_doc.py` |

* The inner stream of a reader is an arbitrary finite list of results (text and status, or an error), after which it
  reports the end forever.  The sink of a writer is the text it has received, a flag for "abandoned or closed", and an
  arbitrary list saying how its coming operations fare; a failing write is cut at a scalar (in `Disk`, for C143, at any
  byte).  Theorems quantify over all of these.
* Panics (slices, `unwrap`, `assert!`, arithmetic, `Drop`) are explicit results, never hidden by a default value.  Loops
  without a structural bound take `fuel` and return `none` when it runs out; theorems either show that it does not or say
  that it may be arbitrarily large.
* Dependencies that are not in `/repo`: `unicode-normalization` is modelled as algorithms on lists over a record `Ucd` of
  Unicode data (`Norm`, `StreamSafe`: canonical decomposition and composition, ordering, stream-safe insertion, quick check,
  CJK variants); `layered-io` (`Status`, `default_read`, `default_read_to_end`), `utf8-io` and `std` (UTF-8, `read_exact`,
  `read_until`, `read_line`) from their documented behaviour.
* All helper theorems are proved for every `Ucd` that satisfies the explicit laws `Ucd.Lawful`, `TextLaws`, `StartLaws`; the
  laws are then proved for `ucd15`, the Unicode data themselves (`Ucd15*`, `CharData`, `CharChecks`: kernel evaluation over
  the complete tables, lifted by lemmas to all scalars), so that no theorem is vacuous.  Property theorems are about `ucd15`.

Theorems for properties are in `lean/Verif/Props/*.lean`, named `cNN_...`, apart from the helpers.  A suffix `_partial` means
that the theorem says less than the property; what is missing is said in its comment and in the manifest.  `_refuted` theorems give
a concrete witness that the property does not hold of the code.  Beside the theorems, `example`s show that their hypotheses
are met by concrete non-trivial cases.

## 2. Trusted base

* Lean's kernel, and the axioms `propext`, `Classical.choice`, `Quot.sound`; no other axiom is used by any theorem
  (`AXIOMS.txt` lists them for each property theorem, made by `tools/axioms.sh`).  No `sorry`, `native_decide` or `bv_decide`; `decide +kernel` is evaluation by the kernel.
* That the definitions transcribe the Rust: every one cites file and lines, and says where it simplifies.
* That the models of `unicode-normalization`, `layered-io`, `utf8-io` and `std` match these crates.
* That `ucd15` is Unicode 15.1 data: generated from the Unicode 15.0 tables of the local Perl plus the 15.1 additions to the
  assigned ranges (15.1 changed no decomposition, class or composition); CJK variants are extracted from
  `/repo/tests/basic-text-string.rs`, which lists all 1002.
* That `tools/gen_tables.py`, `tools/gen_cluster.pl`, `tools/gen_doc.py`, `tools/gen_eq.py`, `tools/gen_color.py` and `tools/gen_terminal.py` transcribe the tables.

Evidence for the fidelity of the model (tests, not proofs): `RepoTests/*` runs the inputs of the repository's own tests of readers,
writers and conversions (about 2000, extracted by `tools/gen_tests.py`, and `/repo/samples`) through the model, in the kernel, and the
model gives what the tests expect of the code.

Not modelled: allocation and performance, `Debug` of the types, the conversions to and from `OsStr`/`Path`/`CString`,
file-descriptor and terminal plumbing, iterators that only forward to `str`, concurrency (the types are owned
by one thread), and the kinds and texts of errors of the reader (but for `Interrupted` in `copy_text`, see C130).  `docs/RestrictedText.md`
describes a hypothetical format; the crate for it is empty.

## 3. Modules

* Data: `Table`, `Tables/*`, `Ucd15Data`, `Ucd15Plain`, `Ucd15`, `Ucd15Text`, `Ucd15Start`, `CharData`, `CharChecks`, `TableTheory`.
* Normalization: `Norm`, `NormTheory`, `StreamSafe`, `Splitting` (normalization of concatenations), `ChainTheory` (the whole
  chain isolate / CJK variants / stream-safe / NFC), `IsolationTheory`, `TextLaws`, `HeadTheory`.
* Reader: `Reader`, `ReaderTheory`, `CtlTheory`, `ReaderRuns` (what a sequence of reads has consumed and delivered),
  `ReaderOutput`, `Spec`, `SpecRefine`, `TokenTheory`, `ReaderSpec` (refinement of the machine to the whole-string specification),
  `ReaderLive` (the end is reached), `ReaderCount` (in how many calls), `ReaderExact`, `ReaderFacts`, `SpecLaws`, `ReadStd`, `ExactDefault`.
* Writer: `Writer`, `WriterTheory`, `WriterRuns`, `WriterPlain`, `WriterFacts`, `WriterModes`, `WriterCrlf` (CR LF mode on sinks that fail), `WriterReader` (round trips).
* Strings: `Utf8`, `Utf16`, `Pad`, `Strings`, `SliceTheory`, `LossyTheory`, `LossyWhole`, `StringTheory`, `SpecString`, `Order`.
* Unicode: `NfcSpec` (canonical decomposition and equivalence by rewriting, composition as in the standard), `StreamForm`
  (UAX #15, Stream-Safe Text Format, with compatibility decompositions from `Tables/Compat`), `DocSpec`.
* Bytes: `Utf8Lossy`, `BytesIO`, `Utf8Stream`, `WriteMany`.  Grapheme clusters: `ClusterSpec`.  Counting through the whole chain: `CountTheory`, `LengthTheory`.  What a reader holds back: `HoldTheory`.  Exact conditions for joins: `JoinTheory`, for cuts: `ExactCut`, for isolation: `ExactWhole`.
* The iterator chain: `Pull`, `PullTheory`, `PullReader`, `PullWriter`; the errors of all calls on a writer: `CallErrors`.
* Places where a read may end: `CutPlaces` (over `ExactCut`), and what happens at the others: `CutAdds`, `CutIsolated`, `CutExact`.  Two readers call by call: `Lockstep`, `LockstepForms`, `LockstepPlaces`, `LockstepMap`.  Encodings cut at a byte: `TextFile`.  Text between escape sequences and an empty first read: `Stretches`; a newline in any read: `LineCut`.  The document's conversions apart from U+34F: `DocScalars`.  Canonically equivalent sources: `Equivalence`.  Scalars that reading keeps: `KeptTheory`, `Cjk`, `Variants`.
  Other versions of the data: `Stability`, `NewerData`.  The document's escapes and modes: `DocEscape`, `DocModes`; its strict streams: `StrictStream`.
* The rest: `LineState` (where a reader stands between lines), `Lines`, `Search`, `SearchMore`, `Sizes`, `Copy`, `Interrupted`, `Kinds`, `IoCopy`, `Duplexer`, `Talk`, `TalkPieces`, `Again` (reading on after the end), `Fate`, `IntoInner`, `HandOver`, `Message` (the messages of errors), `Keys` (keys typed at a terminal), `Early` (a source that breaks off), `Ways` (mixing the ways to read), `CutShort` (Basic Text cut short), `Window` (any part of Basic Text), `Fields` and `Delims` (fields and delimiters), `Disk` (a stream of bytes with limited room, on which a failing write may end inside a scalar), `Crash` (texts cut at a byte, one behind the other), `Damage` (bytes put in the place of lines), `Log` (several writers on one stream), `Buffered` (a `BufWriter` around a writer), `BufferedReader` (a `BufReader` around a reader), `BufferedLines` (lines from that), `LineBuffered` (a `LineWriter` around a writer), `Take` (`Read::take`), `Chain` (`Read::chain`), `Literals`, `Cats`, `Fuzz`, `DocExample`; writers on writers and readers on readers: `Layered`, `LayeredColor`, `LayeredReader`; comparison between types: `Equal`; repetition: `RepeatTheory`; color sequences: `Color`.
* Properties: `Props/{Reader,Writer,Strings,Tables,Unicode,Doc,Lines,Copy,Duplexer,Join,Bytes,Lossless,Pieces,Clusters,Everyday,Exact,Errors,Cat,Pull}`
  and `Props/{Abandon,Again,Background,Buffered,BufferedLines,BufferedReader,CallErrors,Calls,Cats,Chain,Cjk,Color,Conserve,CopyStatus,Crash,Crlf,CutAdds,CutExact,CutIsolated,CutPlaces,CutShort,Damage,Disk,DocExact,DocExample,DocScalars,DuplexColor,DuplexExact,Early,Equal,Equivalence,Escaped,Escapes,Escaping,Fate,Fields,Fill,Fuzz,Generate,HandOver,Image,Interrupted,IntoInner,Keys,LastLine,Layered,LayeredColor,LayeredReader,LineBuffered,LineCut,LineTools,Literals,Lockstep,Log,Mark,Messages,OneWrite,Pad,PiecesExact,Pipe,Pipes,Position,Precise,Prepared,PrivateUse,Prompt,Push,ReadExact,Reports,SearchMore,Settled,Sharp,Sharper,Sizes,Stability,StartColor,StrictStream,Take,Talk,Template,TextFile,Transcript,Utf16,Variants,Ways,Window}`.

## 4. Plan per property

| id | model | proof |
| --- | --- | --- |
| C01-C04 | `fromTextLossy` over the reader machine | reader refinement (C17) and normalization theory |
| C05, C06 | `fromTextOwned` over the writer machine | normalization theory, isolation lemmas |
| C07, C08 | `validUpTo` on UTF-8 bytes | loop invariant; prefix closure of validity |
| C09, C10, C11, C13 | string operations on lists | substring closure of stream-safe NFC; refutations for trim and repeat |
| C12 | `pushText` | exact condition: the scalars at the join do not make a Hangul syllable; refutation there |
| C14-C18, C22-C26 | `TextInput` machine over scripts | invariant over all scripts; refinement to `Spec.stream` |
| C88 | same | where the condition fails, a cut is constructed for which the outputs differ by a U+34F |
| C19-C21 | `readWithStatus` on byte buffers | room invariant; UTF-8 suffix lemma; refutations |
| C27-C29 | same | refutations by witness, partial theorems |
| C30-C40 | `Writer` machine over call histories | invariants by induction on histories |
| C41-C43 | `Lines` | induction on lines; refutations for unterminated lines and failing sources |
| C44 | `copyText`, `copyTextUsingStatus` | induction on iterations, for all sources and sinks; reader termination; with pushes: exact condition on the reads, and sources that push at ends of lines |
| C45, C59, C60 | `Duplexer` | simulation between the duplexer and a reader with a writer |
| C46, C57 | tables | kernel evaluation over the complete tables, lifted to all scalars |
| C47, C48 | isolation automaton; quick check | automaton invariant; refutations |
| C49, C52, C55 | writer then reader | normalization theory, reader refinement |
| C50, C51, C39, C58 | UTF-8 | order preservation, decode/encode inverse |
| C53, C54 | as named | as named |
| C56 | tables against Grapheme_Cluster_Break | kernel evaluation, lifted to all scalars |
| C61-C64 | string conversions against Unicode's and the document's definitions | equivalence of the algorithms with the definitions |
| C65, C66 | `fromTextLossy` and the reader against `Doc.string`, `Doc.stream` | C04, C17, and a comparison of `Spec` with `Doc` token by token |
| C67-C70 | the fuzz target's assertions over `BytesIO`; `fromTextBytesLossy` | C14-C18, C30-C38, C61-C64 for the decoded text; induction on bytes for the decoding |
| C74 | `decodeReads` (`Utf8Stream`) | decoding commutes with cutting, induction on bytes; then C16 |
| C75-C77 | `writeChunks`, `writeAllVectored`, `writeFmt` (`WriteMany`) | induction on pieces; writer state of whole lines |
| C78 | `arbitraryText` | C51, C58 |
| C79 | `StringOp` histories | C12, induction on histories |
| C80 | `ClusterSpec`: the rules of UAX #29 | C56 at the junction; induction over the context |
| C71-C73 | reader and `fromTextLossy` | counting a fixed scalar through `Spec.tokens`, `Spec.stream` and the normalization chain |
| C81-C83 | as above | consequences of C02, C05, C06, C14, C15, C18, C38 |
| C84 | reader, writer, conversions | a potential for what the control state may still add; weights of scalars through the normalization chain |
| C85, C86 | `Search`, `SearchMore` | UTF-8 is self-synchronizing; induction on strings; uniqueness of gaps and lines; greedy matching is maximal from either end |
| C89 | isolation automaton | in the other inputs the result has fewer U+34F (a length argument through the normalization chain) |
| C90 | `checkChar`, `replace` | complete tables; the items of the translated text with a suggestion in place of the scalar |
| C91 | `readWithStatus` | case analysis, induction on sessions |
| C92 | `validUpTo` | C07; accepted texts can be joined |
| C93 | `ioCopy` | induction on iterations; C16, C18, C67, C74 |
| C94 | `chainNext`, `readWithStatusP`, `writeStrE` | each adapter yields the list its model computes, by induction; simulation of reads and writes |
| C95 | `writeStrE` | invariant: U+1A is in a buffer of the chain only if the error cell is filled, and the cell holds the error of a scalar already pulled |
| C96 | `fillExact`, `fillExactStatus` | induction on iterations, on the buffer length and on the reads up to the end (C18) |
| C97 | `nfcCat`, `ssnfcCat`, against `unixLines` | induction on lines; U+A and U+D split both normalizations |
| C98 | `fuzzTarget` | composition of C67, C68, C69, C88 |
| C99 | `stepF` | agreement with `step`; invariant relating the state to the last scalar sent |
| C100 | `step`, `pend` | buffer plus held-back sequence is conserved by every step; induction over the calls, with a length argument for the converse |
| C101 | two records of Unicode data `U`, `V` with `Extends U V` | normal forms of assigned text agree (induction over the normalizer), isolated text is split at its U+34F; two concrete extensions of the data (`addPair`, `addSingleton`), proved to obey all laws, as witnesses |
| C102 | readers and lossy conversions over all splits and buffers | base and selector are scalars at which the normalizer can be cut (checked for all 1002 entries, lifted by `nfc_divide`), so an ideograph comes out as its variant in every context; induction over the ideographs of a text; the table has an inverse (`cjkInverse`, generated, checked by the kernel) |
| C103 | what is returned, what is dropped and whether dropping panics, after any calls | the state of the writer as a function of the text sent (C99); simulation of two writers that differ in a finished color sequence |
| C104 | the same functions on text with private-use scalars | no table of the model has an entry in the private-use ranges (decided on the tables), so the scalars are inert; C02, C06, C18, C38 |
| C105 | the document's strict stream conversion (`DocStrictStream`), the writer in its three modes | line by line: the writer sends the normal form (C30-C38), normalization commutes with U+A → U+D U+A; then C64, C89 |
| C106 | canonical equivalence of the Unicode Standard (D70, `NfcSpec.lean`), the reader and the string conversion | one decomposition or exchange step at a time (`nfd_steps`): items, byte order mark and guards of the translation change only by an equivalence; then the normalization chain on Stream-Safe text is NFC of an equivalent text; witnesses for the exceptions |
| C107 | the cuts the reader makes at the last boundary after each read (`segAll`), on text it hands on as it is | each piece is normalized by itself: unchanged, or one U+34F longer if it begins with an unassigned scalar; the places where a piece begins are those behind the last boundary of what has been read (`fineCuts_iff`); C69, C82 and C93 get equivalences from it |
| C108 | the two literal macros (`Literals.lean`), token parsing aside | case analysis, with the laws of the checked conversions, `normChain_eq_iff` and the writer's `c38` |
| C109 | the example program of `src/lib.rs` (`DocExample.lean`): literals, calls and `unwrap`s | the writer's step lemmas for a writer that is ready, `readToEnd_total`, C14 |
| C110 | as C107; `Spec.Adds`, `Spec.settled` (text that is certain so far), `Spec.ReadsInside` | induction over the reads: a cut behind a U+34F with an unassigned scalar next inserts one or two U+34F, every other cut changes nothing (`CutAdds`) |
| C111 | the escapes of `char` and the three functions over them (`Escape.lean`) | a function that reads one escaped scalar back; hexadecimal digits by strong induction; C81 |
| C112 | `eqIgnoreAsciiCase` on bytes (`Escape.lean`) | making a scalar lower case is making its bytes lower case (table for ASCII, ranges of the bytes otherwise); UTF-8 is injective |
| C113 | `output`, `Converts`, `fromTextOwned`, `writeClose`; `Spec.Attained`: valid by the check, every unassigned scalar directly after U+34F | soundness from C14, C107, C05; completeness: such a text is given back when read, converted or written itself (exact forms of C107, C02, C89) |
| C114 | `Layered` (`Layered.lean`): `write_buffer`, `flush`, `close`, failing, with a writer in the place of the sink | the three writers keep step as long as the sink is alive (normalizing is idempotent, the states are the same; with color the inner one is in the ground state, as it gets whole sequences only: `LayeredColor.lean`), and when it is gone everything fails alike |
| C115 | `innerReads` (`LayeredReader.lean`): the results of the inner reader for 4096-byte buffers are the outer reader's source | up to the end they are reads of valid text (C113), then C107 and C110; the witness fills the buffer |
| C116 | `Ty`, the table of impls (`Tables/Eq.lean`, by `tools/gen_eq.py`), `resolve` (`Equal.lean`): which impl a call of `eq` reaches | the chains of the table by evaluation, all types by induction; bytes never contain 0xff |
| C117 | `Color`, `Tables/Color` | the scalars of a sequence divide normalization; induction on sequences; `form_escape` for reading |
| C118 | The segments of ReaderExact of every prefix of a source | the segments of a longer run extend those of a shorter one; when a read leaves room the queue holds no boundary, so ending the source adds one segment |
| C119 | `encodeUtf16` (`Utf16.lean`) | a decoder written separately; induction over the scalars and over the units; table of the scalars that are checked |
| C120 | `displayPieces` (`Pad.lean`), the strings `Formatter::pad` writes | numbers of fill scalars; joining criterion of C12; fill scalars that divide normalization (table); C77 for writers |
| C121 | `Duplexer.takeClosed`, `takeAbandoned`; reading on as a second reader on the rest of the source | the writer's theorem for the output half (C103), promptness (C118) for what is lost, conversion line by line (C73) with the guard at the start for reading on |
| C122 | `Spec.pieces`, `Spec.ControlByte` on bytes, `encode` | every byte below 0x80 of an encoding is a scalar of its own (`encode_low`), so cutting commutes with encoding (`pieces_encode`); then C14, C15, C30, C33 |
| C123 | two readers in step on different sources (`Substitutes`, `LockstepMap`) | a scalar and its replacement leave the ground state of the escape automaton and the buffered text alike (`row_same`, `ground_feed`), lifted call by call |
| C124 | range lists copied from the document, section by section | going through the ranges in the kernel (`among_all`), then C14, C01, C30 and C123 |
| C125 | the document's tables, extracted (`Tables/Terminal`), with what may stand for their parts (`Spec.FitsRow`) | every row is an escape sequence of the reader's automaton, by its form; then C23 call by call, by induction on the number of sequences |
| C126 | what one call can do to source, status and buffer (`ReaderCount.lean`) | every call is paid for by an event of the source, by the first read at its end, by a status kept back, or by a full buffer; induction on the calls |
| C127 | the writer of C30 (`Writer.lean`) | the second half of a write by cases; induction on the calls |
| C128 | lists of lines, each a line of some text (`Spec.Drawn`), written with newlines (`Spec.ofLines`) | a newline is inert for normalization, so the parts are normalized apart; C86, C107 and C113 |
| C129 | `Sizes`, `Stack`, `ask` (`Sizes.lean`) | the sizes of a stack in closed form; a read is refused exactly for less than 136 bytes; induction on the loops of copying |
| C130 | `copyRetry`: `copy_text` on a source whose errors are all interruptions | induction over the reads, with C27 for the loss; refuted by a line longer than the buffer |
| C131 | What a panic does with the streams alive (`unwind`, `retire`) and the fate of `abandon` on the duplexer | The exact drop condition of C35 and the exact abandon condition of C28, joined through the independence of the halves (C59); the abort by a concrete run |
| C132 | two duplexers whose inner streams feed each other, `tell` and `talk` | induction on the dialogue with the invariant `AtRest`; what is heard of one message is computed; witness for the prompt; with a transport that cuts as it likes, induction on the pieces (`hears_all`) |
| C133 | the format strings and `{:?}` of `char` and slices (`Message.lean`), the tables of the standard library as parameters | the shape of a quoted scalar; reading a message back (`unquote_debug`, `listed_inj`); C90 for the suggested scalars, C68 for writing |
| C134 | `readMany` over sources with several `end_` events | the state at a reported end is computed (`end_state`); segments of concatenated sources (`segments_then`) |
| C135 | a key is a code with or without Alt or an instance of a row of the document; groups of keys in any reads, each followed by a push | the state machine returns to the ground state after each key; the texts are ASCII or U+FFFD, which normalization keeps |
| C136 | the reader's state after the common part, and what each continuation adds | what a reader releases before a newline never depends on what follows; the end adds at most one newline; a half scalar becomes one replacement scalar |
| C137 | each way of reading as a loop over reads with status; mixtures | each call amounts to some reads with status, so the exact form of runs applies; loops end since the end is reached with a buffer of any one size |
| C138 | The beginning of a text as bytes (`cut_bytes`) and as the reader's input (`stream_beginning`) | A beginning of valid text is valid but for its end; the lossy decoding of its bytes is the complete scalars and at most one U+FFFD; C16 and C74 for the splits |
| C139 | A part of a text as bytes (`window_bytes`) and as the reader's input (`stream_part`) | Every part of valid text is valid but for its ends; continuation bytes decode to one U+FFFD each; C138 for the end |
| C140 | fields, delimiter, lossy conversion | the control translation splits at a delimiter, normalization splits at an inert starter; the guards at the ends computed |
| C141 | concatenations of valid pieces, templates, fields, scalar replacement | normalization splits at an inert starter; substrings of valid text are valid; induction on the pieces |
| C142 | utf8-cat as the decoding of a byte stream, the other programs as in C93 and C97, each on what the other wrote | decoding in pieces is decoding the whole; text read is Stream-Safe NFC with Unix line ends; C16, C97, C106 |
| C143 | a stream of bytes with limited room (`OnDisk`), calls on it by way of what they send to an unlimited one | simulation of the unlimited stream up to the first text that does not fit, and C136/C138 for reading |
| C144 | texts cut at a byte, one behind the other (`crashed`), and what is left of them scalar by scalar (`leftOf`) | decoding an incomplete scalar followed by the first byte of another; what is left of Basic Text begins and ends well, so the whole is normalized as it stands |
| C145 | a file with other bytes in it | decoding may be done separately before and from a byte that begins a scalar (`lossy_parts`); C73 twice, C72 for the number of lines |
| C146 | the results of calls and of the source's reads as lists of reports | cases of one call, induction over the calls |
| C147 | Writers with a handle each of one stream; each call appends what its writer sends | invariant: each writer is between lines or has failed; `writeStr_lines`, `normChain_lines`; reading by C88 |
| C148 | `BufWriter::write_all` and `flush` of the standard library around the writer | induction over the writes: a session is `write_all`s of groups of writes; `writeChunks_lines` |
| C149 | a `BufReader` around a `TextReader` as a state with capacity and unread bytes | each call is either served from the buffer or is one read of the reader (`bufr_step`); induction over the calls, then C16 for the independence of buffer sizes and `constant_reach` for the end |
| C150 | the fills of a `BufReader` as reads of the capacity's size, as a source for the line model of C41 and C42; `Lines::next` | the fills before the end are steady and have the bytes of the whole output (`fills_whole`, by `constant_reach`, `read_after_end` and C16); then C122 for the lines and C41, C42 for the iterators |
| C151 | a `LineWriter` as the `BufWriter` of C148 with the line rule | induction over the writes: with room, the buffer never has a newline and never overflows (`line_session`); then writes of whole lines are independent (`writeChunks_lines`) |
| C152 | the lots of C149 written as in C151 | `c149_ends` gives the bytes and the end, `chunks_short` the size of the lots, `c151_room` and `c151_whole` the equivalence with one write, `direct_text` its success |
| C153 | `Take` around a reader and around the `BufReader` of C149 | its calls are calls of the `BufReader` of smaller sizes (`takeReads_calls`); then C149 and C118; the end by induction over the limit (`c153_ends`) |
| C154 | `Chain` around two readers | its calls are reads of the first reader up to its end and then of the second (`calls_chain`, by induction over the calls); then C118, C14, C15 and the concatenation lemma of C69; the end by `chain_reach` |
| C87 | reader | the drain loops stop with an empty queue or a full buffer; counting newlines |

## 5. Where the code does not do what is claimed

Each of these is a theorem (`_refuted`) with a witness, unless marked otherwise.

1. `is_basic_text_substr_quick` has its test inverted (C48).
2. An unassigned scalar after a U+34F that is already in the input gets no U+34F after it, and `is_basic_text` does not check
   isolation at all; so converting valid text may change it, and results depend on how the input is cut (C02, C03, C04, C06, C16, C47).
   C88 and C89 say exactly for which inputs.
3. A BOM after an empty first read is not dropped (C16, C24).  Bytes a writer accepts may be read differently if they are cut (C68, from item 2).
4. A push does not deliver text after the last newline or U+34F; a status seen while the buffer was full is reported as active (C26).
5. A source error loses text that had been drained into the buffer of that call, and leaves the buffer without the clean-up
   that keeps a `str` valid (C20, C27).
6. The zeros written to get to a scalar boundary are not Basic Text, and the old contents after the text read need not fit it (C21).
7. `abandon` on a reader panics in the middle of a line (C28).
8. `read_exact*` succeeds only if the text filling the buffer ends with a four-byte scalar (C29; `c29_exact` says exactly when, for a source that delivers its content in one read).
9. Normalization is per write: combining scalars at the beginning of a write are sent as they are (C31); an empty write disarms
   the check of the first scalar (C32); `write_text("")` makes the writer forget what it has written (C33, C40).
10. Dropping a writer after some failed flushes panics (C35).
11. `trim` of a `TextStr`, `repeat` and appending may give text that is not Basic Text (C11, C12, C13, C54).
12. `TextSubstring::from_text` refuses substrings that `TextSubstr::from_text` accepts (C53); `valid_up_to` for ill-formed bytes is
    not a valid prefix (C58); `read_to_text_string` leaves invalid text after an error (C54).
13. `TextLines` drops the last scalar of an unterminated last line (panic in debug builds); the lines of valid text need not be
    valid; `read_text_line` leaves unchecked text in the buffer if the source fails in the middle of a line (C41, C43).
14. `copy_text_using_status` fails after a push if what the reader still holds may not start a text (C44).
15. On a duplexer, reading a line makes the writer forget an unfinished color sequence and an unfinished joined sequence (C59);
    `read_exact_str` of an empty buffer panics in debug builds (C60).
16. U+0890 and U+0891 are Prepend but accepted at the end (C56).  The document's row for U+FB03 is a misprint (C57).
17. Differences between the letter of the document and the code (C61, C64, C65, C66): after a leading BOM the code guards a
    non-starter; U+17B4 and U+17B5 at the start are replaced without a guard; CAN in an escape sequence is swallowed with it;
    non-starters behind a leading, and joiners before a final, escape sequence are guarded (the document's result is not
    Basic Text there); in streams, the end is looked at before the final newline is added (final U+C, joiners, NEL);
    U+85 after U+D or U+C in NEL mode.  `Spec` settles these the way the code does; `Doc` is the document.
18. Bytes written in pieces that are cut inside a scalar are refused, so that `io::copy` of valid text may fail (C75); pieces cut before
    a combining mark, and the pieces of `write!`, are not normalized together (C75, C77); an empty vectored write disarms the check
    of the first scalar (`c76_empty`, like item 9).
19. A byte order mark that arrives in two reads is not dropped, if the inner `Utf8Reader` reports a read without scalars (C74, from item 3).
20. `Arbitrary` makes invalid texts from ill-formed bytes (C78, from item 12).
21. Texts may begin with U+34F, end with U+0890, or meet in a flag or a Hangul syllable, so that a grapheme cluster spans two of them (C80).
22. `TextSubstring::from_text_lossy` changes valid substrings that begin with a mark or end with a joiner (C83).
23. The lines of a text need not be texts, so that the `TextLines` the TODO at `src/text_string.rs:814` asks for cannot be (C86).
24. A reader keeps a line until its end comes, however long it is (C87).
25. (Not a theorem.)  `TextSubstr::starts_with` has a type parameter that cannot be inferred (`src/text_substring.rs:763`).
26. For 1005 of the 1064 scalars rejected with "Use ... instead of ...", the suggestion is the scalar itself (C90): `check.rs:158-165`
    takes it from `replace`, which leaves U+2126, U+212A, U+212B and the CJK compatibility ideographs to normalization.
27. A read whose text is ready reads the source again before it returns, unless its buffer is full (C91); this is how text is lost in item 5.
28. The position in the error of `TextString::from_text` is computed on the text before normalization, so that it may point at something
    acceptable (C92).
29. `text-cat | text-cat` may differ from `text-cat` (C93, from item 2).
30. A failing write may blame a later scalar than the first bad one: normalization reads ahead, and the error cell of `Categorize` is
    overwritten (C95).
31. `default_read_exact_text_substr` and its `using_status` variant panic when a read ends inside a scalar of the old content of the
    buffer: the rest of it is filled with U+0, and `split_at_mut` unwraps the check of the second half.  The former also takes an empty
    read of the source for a failure (`Interrupted`), which `read_exact` retries (C96).
32. `nfc-cat` and `ssnfc-cat` are not idempotent: `Lines` removes one U+D before U+A, so "\r\r\n", or a U+D at the end, becomes "\r\n",
    and "\n" in a second run (C97).
33. The fuzz target's assertion that the writer writes what was read fails for U+34F before an unassigned scalar, if the source delivers
    the U+34F in a read of its own (C98, from item 2): for a slice that is so when the U+34F ends at a multiple of 4096 bytes.
34. In color mode `write_text` drops the part of a color sequence that an earlier `write_str` has left unfinished, and the rest of the
    sequence is then sent as text; every call reports success (C100).  The dropped part has used up the starter check, so the
    stream can begin with a combining mark though no write was empty (C32).
35. `is_basic_text` accepts unassigned scalars that are not isolated, and such text can become invalid when Unicode assigns them:
    U+105D2 U+307 is valid with the data of Unicode 15 and not with those of Unicode 16.  Isolation protects from composition and
    reordering, but not from a new scalar that is equivalent to an existing one (C101).
36. `close_into_inner` neither flushes nor closes the inner stream, though its documentation says so (C103).
37. The document's strict stream conversion with BOM Compatibility never succeeds: it inserts U+FEFF and then rejects it by the Sequence
    Table.  `with_bom_compatibility` does what is meant (C105).
38. A reader on a reader can deliver more U+34F than the inner reader does (C115); a writer with CRLF or BOM Compatibility on a writer
    cannot write lines or cannot be made (C114).  A color writer on a plain
    one says that a color sequence is written until its last scalar comes.  A writer on a writer dropped in the middle of a line panics
    twice, so the program aborts.
39. `escape_debug` can yield text that is not Basic Text (C111).
40. `Cow<TextSubstr> == TextStr` and `Cow<TextStr> == TextSubstr` compile, but not the other way round; `TextStr == TextSubstr` and
    `TextString == TextSubstring` do not compile at all (C116).
41. The `m` that ends a color sequence is normalized together with the text after it: before U+301, U+307 or U+323 it becomes another letter and the
    write is refused (C117).  A color sequence also hides a combining mark at the start of the stream, and a joiner before a flush, from the checks.
42. `TextDuplexer::abandon_into_inner` and `close_into_inner` silently drop text that has been read from the stream and not delivered, where `abandon`
    panics (C121).
43. A writer that is given an empty text last and then closed leaves the last line of its output unterminated, so what it has sent is not a text file
    in the POSIX sense (C122, from C33).
44. `docs/Background.md:433-439` says that Basic Text excludes unassigned and private-use scalars; it has both.  `docs/Background.md:495-496` says that it
    includes the bidi control characters; the explicit ones are excluded (C124).
45. `ESC 7` and `ESC 8`, which `docs/Terminal.md` lists among the sequences for terminals, are no escape sequences for a reader, which removes the ESC and
    leaves the digit in the text (C125).
46. `minimum_buffer_size` of a reader passes on what its source needs, but the reader always reads 4096 bytes from the source. From a source that needs
    more, nothing can be read with any buffer (C129).  No stream of this crate needs more.
47. `copy_text` tries again after a read that fails with `Interrupted`.  The failed read may have written text into the buffer (item on C27), which
    `copy_text` drops: after a line longer than the buffer it returns `Ok` with text missing, and what a `TextWriter` has sent
    then need not be Basic Text (C130, C14).
48. `TextDuplexer::abandon` abandons the input half first, whose assertion panics when text that was read is undelivered.  With the output in
    mid-line its drop panics too while unwinding, and the process is aborted (C131).  The other order would avoid it.
49. A prompt without a newline that one program writes and flushes is not delivered by the reader of the other program, not even when the
    transport reports a push (C132): the one waits for an answer, the other for the rest of the line.  A U+34F at its end would help.
50. The message of a rejected write names the rejected scalar, quoted as `Debug` of `char` does.  For U+2126 and others that the standard library
    regards as printable it contains the scalar itself, so that the message cannot be written to a `TextWriter` either (C133).
51. A reader may be read on after it has reported the end (C134), but the end need not be reported: if the read that takes it fills its
    buffer but for less than four bytes, the status is dropped (item on `pending_status`, `src/text_input.rs:405-413`), and the next read
    asks the source again, which on a terminal means that the end has to be typed twice.  U+FEFF is dropped only at the start of the first
    document.
52. Keys read from a terminal through a reader (C135): nothing is delivered before Enter, even if the terminal marks each key with a push, and keys
    that send escape sequences, Alt with a letter, and Escape leave nothing; Escape takes the key typed behind it along unless a push comes between.
53. `nfc-cat` and `ssnfc-cat` before `text-cat` are not neutral (C142): CR CR LF, two line ends to `text-cat`, becomes CR LF, one line end; a CJK
    compatibility ideograph loses the variation sequence `text-cat` would have given it; U+2329 is kept as U+3008 and not replaced.
54. Appending to a file whose last session was cut short can change that session's last scalar (C144): a leading consonant U+1100 left at the end, and a
    session that begins with the vowel U+1161 (Basic Text may), are read as the one syllable U+AC00 (`c144_refuted_vowel`).
55. One wrong byte can cost the whole rest of a file (C145): ESC in the place of a scalar before `]` begins an operating system command, which only BEL,
    CAN or another ESC ends, none of which is in Basic Text (`c145_refuted_escape`).
56. Two writers on one stream that write parts of lines in turns leave text that is not Basic Text, although each accepts its calls and sends Basic Text: `x\n` by the second, `e` by the first, U+301 by the second (`c147_refuted_parts`). With whole lines this cannot happen (C147).
57. What a text writer behind a `BufWriter` sends can depend on the capacity of the buffer: `e` and U+301 in two writes are sent as U+E9 if both are in the buffer together, and else as they are, which is not Basic Text; a scalar cut between two writes is accepted or refused likewise (`c148_refuted_capacity`, `c148_refuted_cut`). Writes of whole lines do not depend on it (C148).
58. A `BufReader` with a capacity of at least 136 bytes around a text reader lifts the reader's lower limit on the caller's buffer: calls for single bytes work (`c149_no_refusal`, `c149_ends`). With a smaller capacity every call for fewer than 136 bytes is refused (`c149_refused`).
59. `text_lines` on a buffered text reader can fail although everything that the reader delivers is Basic Text: a line that begins with a mark or ends with a joiner is refused (`c150_refuted_text_lines`). The standard library's `lines` gives those lines (`c150_lines`).
60. A `LineWriter` with room for the lines cures what a `BufWriter` does not (57): writes may be cut anywhere, and what is sent is the normalized text (`c151_whole`, `c151_sent`). Without room for a line it is as before (`c151_refuted_long`).
61. Bytes from a reader cannot be given to a writer in lots of any size without a line buffer: the first byte of a longer scalar is refused (`c152_refuted_direct`). With one they can (`c152_pipe`).
62. `Read::take` on a text reader breaks off with an error when between 1 and 135 bytes are left up to the limit, since the reader refuses the shortened buffer (`c153_stuck`, `c153_refuted_direct`). With a `BufReader` between it works (`c153_buffered`, `c153_ends`).
63. Two chained text readers do not deliver what one text reader on the chained sources delivers: each text gets its own final newline, and each its own treatment of a byte order mark (`c154_refuted_sources`).

## 6. Seeded bugs

`seeded/LOG.jsonl` records experiments in which a definition of the model was changed as a realistic bug would change it, in a
scratch copy.  For each, proofs that fail were replaced by `sorry` until everything built, and the property theorems that then
depend on `sorry` were collected.
