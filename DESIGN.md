# Formal model of mmalecot/file-format in Lean 4

This file is written before the proofs and kept current. `properties.jsonl` lists the properties,
`MANIFEST.json` maps each to theorems, `seeded/LOG.jsonl` records the mutation experiments.

## Layout

| path (under `lean/Verif/`) | content |
|---|---|
| `Model/Bytes.lean`      | byte strings, the `b!"..."` literal macro, `slice`, integer decoding |
| `Model/Format.lean`     | `FileFormat`, `Kind`, metadata (generated from `src/formats.rs` by `tools/gen.py`) |
| `Model/Signatures.lean` | the signature table (generated from `src/signatures.rs`), `fromSignature` |
| `Model/Std.lean`        | the parts of Rust's std the crate relies on: wrapping/checked integers, UTF-8 validation, lossy decoding, `char` classes, `trim` |
| `Model/IO.lean`         | `Prog`, the syntax of I/O programs; `Src`/`Rd`: streams with schedules of short reads, EINTR and failures, and `BufReader`; `exec`, their semantics; `run`, the ideal semantics |
| `Model/Search.lean`     | `FindBytes::{find,holds,rfind}` (Boyer-Moore-Horspool, with index panics and divergence explicit) |
| `Model/Readers*.lean`   | the twelve `from_*_reader` functions |
| `Model/Device.lean`     | `from_reader` on any `Read + Seek` (a state machine), `BufReader` over it |
| `Model/Override.lean`   | the same on a type with a `read_exact` of its own |
| `Model/Detect.lean`     | `from_fmt_reader`, `from_generic_reader`, `from_reader`, `from_bytes`, `from_file` |
| `Model/Lefi.lean`       | `examples/lefi.rs` |
| `Model/Target32.lean`   | the functions that behave differently on 32-bit targets |
| `Model/Claim.lean`      | `from_reader` on readers that return too large numbers |
| `Model/Display.lean`    | `impl Display`, `Formatter::pad`, writers of `core::fmt` |
| `Model/Debug.lean`      | the derived `Debug` of `FileFormat` and `Kind`, names generated from the source |
| `Model/Cargo.lean`      | the features of `Cargo.toml` and how they select readers |
| `Spec/Causes.lean`      | the size and offset fields that can leave their range |
| `Spec/Fields32.lean`    | the fields that can exceed 32 bits |
| `Spec/Mimetype.lean`    | ZIP entries named `mimetype` |
| `Spec/Registered.lean`, `Spec/Registered2.lean` | registered media types and extensions; the sample files of the test suite |
| `Spec/Published.lean`, `Spec/Published2.lean` | published magic numbers: the first file was written down without looking at the table, the second from public descriptions after it had shown which alternatives were not covered |
| `Proofs/MetaTable.lean` | generated by `tools/genmeta.py`: sorted keys for the name/extension tables |
| `Spec/*.lean`           | small specifications, independent of the model's helpers: what it means for a magic to be present, the documented feature families, encoders for tags/boxes/elements/chunks/objects/archives, UTF-8 text, the README list |
| `Proofs/*.lean`         | helper lemmas |
| `Props/*.lean`          | the property theorems (named `Cnn_...`) and, next to each, examples that its hypotheses are met |

## How the code is modelled

* A byte string is `List UInt8`; `u16/u32/u64/usize` values are `Nat`, `i64` values are `Int`; every
  operation that can leave the range of its Rust type goes through a function that, depending on the
  build profile (`Cfg.overflowChecks`), panics or wraps. `usize` is 64 bits, but for
  `Model/Target32.lean`.
* Each reader is an I/O program `Prog FileFormat`: a tree whose nodes are the calls made on the
  stream (`read`, `read_exact`, `seek`, `stream_position`, `read_until` through `Take`) and whose
  leaves are a verdict, an `Err`, a panic or divergence (fuel ran out). Every I/O call in the
  source is followed by `?`, so an I/O error ends the program; this is built into the semantics.
* `exec` runs a program on a stream: content, position, the largest offset the stream can seek to,
  and a list of events that disturb the successive calls (short count, EINTR, failure); after the
  list is exhausted calls succeed in full. A terminating execution makes finitely many calls, so
  finite lists lose no generality. `BufReader` (capacity 8192) is modelled explicitly: fill, bypass of
  large reads, buffer discard on seek, `read_exact` retry loop.
* `run` is the ideal semantics: a position in the content, no buffering, no schedule.
  The refinement theorem `exec = run` (for any non-failing schedule, for programs that do not use
  bare `read`) carries all reader theorems from the ideal semantics to the API.
* Loops with a static limit are structural recursion on the remaining count; the unbounded
  loops (id3v2, PDF, search, `read_exact`) take fuel whose exhaustion is the outcome `diverge`, and
  the totality theorem proves that it is never reached.
* Index and slice operations that can panic are explicit (`Fail.panic`).

## Properties: what is modelled and how it is proved

| id | model | proof |
|---|---|---|
| C01 | `fromBytes` in release config | per reader: no `panic`/`diverge` leaf is reachable (`Safe` predicate on programs + semantic bound for id3v2/PDF); search totality |
| C02 | same, checked config | negation by concrete witnesses (ASF, MP4, ZIP); partial: `Same` (below) shows that the run does not depend on the profile when the fields named in `Spec/Causes.lean` are below 2^62 |
| C03-C05, C08, C09 | `fromSignature`, `fromBytes` | induction over the table; `find?` lemmas |
| C06 | table | sparse zero-filled witness per alternative; kernel evaluation over the whole (finite) table lifted by a lemma |
| C07 | table, `fromReader` | all table offsets end at or before 36870 (whole-table check) + induction; tightness witness |
| C10 | `fromReader` on `Src` with any event list | case analysis; errors after the first read are caught |
| C11 | `exec` vs `run` | simulation by induction on `Prog`, invariant of the BufReader state |
| C12 | `fromReader` | negation witness; partial: full first read |
| C13 | `fromBytes`, `fromReader`, `fromFile` over an abstract file system | refinement theorem |
| C14 | `fromReader` with `pos > 0` | theorem without features; negation witness with features |
| C15, C16, C18, C19 | dispatch + leaf sets of programs; C15 also on arbitrary devices (`Props/Family2`) | `Leaves` predicate on programs (all possible verdicts) |
| C17 | `fromBytes` | one explicit input per format, kernel-evaluated, lifted to all formats by exhaustiveness of the enum |
| C20-C22 | search + readers | BMH correctness (first/last occurrence) by loop invariant; PDF by overlap invariant over arbitrary read schedules |
| C23, C24 | txt reader, UTF-8 | decoder correct w.r.t. Lean's `String.utf8EncodeChar`; line splitting lemmas; negation witness for C24 |
| C25-C27 | zip reader, lossy decoding | encoder/decoder round trip by induction over entries; ASCII lemma for lossy decoding |
| C28, C30-C33 | mp4, ebml, asf, rm, id3v2 readers | encoder + induction over the element list |
| C29, C34 | same | negation witnesses; partial theorems from C28/C33 |
| C42 | `fromFile` | negation witness; `Same d m m' p p' q` (two runs on content `d` with offset limits `m`, `m'` and profiles end equally), proved reader by reader with combinators following the program text |
| C46 | `fromReader` and `fromDevice` (any `Read + Seek`) in both profiles | `Agrees`: the checked program panics or takes the same step as the wrapping one, by induction over programs |
| C47 | table against `Spec/Published.lean` | each published number implies an alternative of the table (`covered`); distinct ones contradict all earlier alternatives (`settled`); kernel evaluation over the finite list, lifted to all contents |
| C48 | metadata against `Spec/Registered.lean`, `Registered2.lean`, `Registered3.lean` | kernel evaluation over the whole enum; eight deviations |
| C49 | all readers run on `b` and on `b ++ t` | `Local` programs (reads and seeks that succeed on `b` succeed alike on a longer content, no seek from the end), by induction over programs; windows by occurrence; counterexamples for MP4, EBML, XML |
| C50 | verdicts on `b` and `b ++ t` | from C49 and C19; MP4 by the encoded boxes with a last box that is cut off; counterexample for MP4 |
| C51 | state of the stream after `from_reader`, call log | outcome on calm streams as a function of content, position and seek range; call log of the dispatch |
| C52 | the affected functions again, with 32-bit `usize` (`Model/Target32.lean`) | negation by witnesses (ZIP `mimetype` size, ZIP64 count, EBML DocType size, archives of 4 GiB); partial: `Alike` relates the executions of the two programs on every stream by induction when the fields are in range |
| C53 | same (`Spec/Rearrange.lean`) | the flags found are existential statements over the parts (C28, C30, C31, C32), invariant under exchange and padding by induction on the rearrangement |
| C54 | same | negation by witness; partial: the first decisive entry (C25) is invariant when decisive entries keep their order |
| C55 | signature table, text reader | every magic has two bytes that differ at fixed offsets, or is the sync pattern (checked on the table by the kernel), so it does not match uniform content of any length |
| C56 | signature table, text reader (`Spec/TextForm.lean`) | negation by witness; partial: the magics of the text formats come in pairs or have no line ends (checked on the table by the kernel), prefix lemmas for the conversion |
| C57 | same | negation by witness; partial: each magic of these formats is listed with and without the mark; `C22` for the window |
| C58 | XML reader (`Spec/XmlRoot.lean`) | negation by witnesses; partial: the root tag shows the marker of its row, `C22` |
| C59 | ZIP reader (`Spec/Comment.lean`) | negation by witness; partial: both files are archives of the same entries, `C45` |
| C60 | all readers, the ghost field `log` of `Src` | from the call counts (C37) and request sizes (C38) per reader, summed along `from_reader` (`detection_paid`) |
| C61 | all readers on any stream (`Spec/Evidence.lean`) | each reader's successful runs are inverted step by step (`Proofs/Invert.lean`, `Proofs/Evidence.lean`), loops with the invariant that every flag is backed by the bytes; then `execOn_exact` and, for the readers of one read call, the delivered bytes |
| C62 | MP4, EBML, ASF, RM, ID3v2, ZIP on any content (`Spec/Walk.lean`: relations over byte offsets, not over the reader's state) | each reader's successful runs are equivalent to a derivation of the relation, by induction over the limit (`Proofs/Ends.lean`, `Proofs/Walk*.lean`); for ID3v2 by induction over the fuel, which a content cannot exhaust; then C01 for the case without one. Release build; a debug build gives the same verdict or panics (C46). CFB, EXE, PDF, SQLite, XML and text have total theorems of their own (C35, C36, C20-C24) |
| C63 | `Model/Device.lean`: detection over an arbitrary state machine instead of a stream with fixed content (laws in `Spec/Device.lean`; the same definitions as `Model/IO.lean` with the calls abstracted, and `C63_fixed_content` proves that they coincide on streams) | induction over the program of a reader with the invariant that the buffer is not longer than the position (`Proofs/Device.lean`), on top of the syntactic facts about every path of the readers; ID3v2 by an offset that grows by 10 per tag (`Proofs/Device3.lean`) |
| C64 | as C63 without the law on the position | finding: `C64_fails`; the part that holds needs that the remaining readers never ask for the position (`NoTell`) |
| C65 | the stream model with its schedule; the schedule without the `Interrupted` answers (`Spec/Retry.lean`) | finding: `C65_fails`; the part that holds by a simulation between the two streams (`Src.Calmed`), through `BufReader`, `read_exact`, `read_until` and every program without bare reads, by induction over programs |
| C66 | the signature table and the sizes of its magic values (`Spec/Longest.lean`) | finding: `C66_fails`; the part that holds from the order of the table (C06) and the first match (C05); the exact list of exceptions by a check of all pairs of values that is evaluated by the kernel and proved sound (`Props/Longest2.lean`) |
| C67 | table against `Spec/Published.lean`, `Spec/Published2.lean`, the other way round | finding: `C67_fails`; each alternative of the other entries contains a published number (`backed`); kernel evaluation over the finite table, lifted to all contents |
| C68 | the signature table (`Spec/Needed.lean`) | finding: `C68_fails`; for each of the other 720 values the zero-filled input with this value (kernel evaluation over the finite table, lifted by `sparseMatches_eq`) |
| C35, C36, C43 | cfb, exe readers, GUID text | direct evaluation of `run`; hex digits injective |
| C37, C38 | the ghost field `log` of `Src` records every call and its size | `Spent bad N W s s'`: between two stream states at most N calls were made, asking for at most W bytes each; by induction over programs; C38: `AsksAt` follows the ideal run to relate requests to the fields of the content |
| C45 | encoders of C25-C33 plus `Spec/Payload.lean` (relations "differ only in skipped bytes") | both encodings have the same abstract content; from the exact theorems of each reader |
| C39 | window readers | from C20-C23 |
| C40, C41 | metadata tables, README list | kernel evaluation over the whole enum, lifted by exhaustiveness |
| C44 | `examples/lefi.rs` over an abstract file system (`Model/Lefi.lean`) | induction over the argument list. Not modelled: failures of standard output; the width limit of `format!` is a parameter; the file system is the same for all calls |
| C69 | `from_reader`, the readers without buffer and the schedule of the stream (`Spec/Second.lean`) | finding: `C69_fails`; the second read call computed from the schedule (`read_second`), then C20 and C22 on the content it delivers |
| C70 | the signature table against `Spec/Positions.lean` | matching depends on the bytes at its positions only (`magicAt_congr`), kernel evaluation over the finite table for the positions, C68 for the redundant values (position 81); for the converse a certificate with one pair of contents per position (`Proofs/MattersTable.lean`) |
| C71 | `impl Display`, `Formatter::pad` and writers of `core::fmt` (`Model/Display.lean`) | finding: `C71_fails`; computation on the model, induction over the number of fill characters |
| C72 | the whole model; the specification is `Spec/Verdict.lean` with `Spec/Walk.lean` | each reader's successful runs are equivalent to its relation (C62, and the same for compound files, executables and the window readers), C04 and C05 for the signature, C01 for totality. Release build; for debug builds see C46, for short reads of the PDF, SQLite and XML readers C21 and C69 |
| C73 | the whole model with the stream's schedule; the specification is `VerdictOn`, `firstWindow`, `laterReads` in `Spec/Verdict.lean` and `reach` in `Spec/Second.lean` | the readers that use `read_exact` or a `BufReader` do not depend on the schedule (C11); for the PDF loop an invariant links the bytes seen to the schedule consumed (`pdfLoop_exec`); C69 for the second read. Release build. Streams with failing calls: C10 |
| C74 | the model in the configuration `Cfg.debug`; the specification is `Spec/Overflow.lean` | the walks of C62 once more, for the outcome panic instead of a verdict (`Proofs/Panics.lean`), by induction on the boxes and objects left; the other readers do not overflow (C02); lifted to streams as C73 is |
| C75 | streams whose calls fail (`Model/IO`); `Spec/Mend.lean`: the same stream without its failures | every program fails on the stream or does the same on both, by induction on the program (`Proofs/Mend.lean`); the fallback by `generic_evidence` (C61); the verdict by C73, panics by C74 |
| C76 | `Model/Target32`; `Spec/Walk32.lean`: the walks and the verdict with sizes modulo 2^32, and the archives that make it panic | the two readers that differ are shown to walk as specified and to panic exactly as specified, by induction on the number of elements or entries (`Proofs/Walk32.lean`); the other readers by C52 and C73 |
| C77 | `Model/Target32` in the configuration `Cfg.debug`; `Spec/Overflow32.lean` | the directory of the archive panics exactly on the offset that is too large, and agrees with the release run otherwise (`Proofs/Panics32.lean`); the other readers by C52 and C74; verdicts by C76 |
| C78 | `Model/Claim.lean`: the run on a device whose answers are checked | simulation between the checked run and the run on a device that cuts its answers down and remembers that it did (`Proofs/Claim.lean`); an invariant of the calls for `at once` (`Proofs/Claim2.lean`); C63 for the device cut down |
| C79 | `Model/Cargo.lean`: the feature table of `Cargo.toml`, its closure, the `cfg` conditions | membership in the closure by induction; verdicts from C15 (two switches matter per content), the exception from `C19_text_only_from_two` |
| C80 | `Model/Device.lean`; `Spec/Pipe.lean`: devices whose seeks fail, a pipe | every reader begins with a seek from the start or the end (by cases on the reader), so it fails before it reads |
| C81 | `Model/Debug.lean`: the derived implementation and the names of the variants, generated from the source | evaluation over the whole enum by the kernel; distinctness by a sorted certificate |
| C82 | `Model/Device.lean` (any transition system as R); contract in `Spec/Serve.lean` | forward simulation: a schedule is collected from the calls of the execution on the device and replayed on the stream; then C01, C11, C13, C51, C73 |
| C83 | `Spec/Buffered.lean`: std's BufReader around any device | the BufReader satisfies the contract of C82 (invariant: the buffer is the content before the position of the reader inside); readers that call `read` once per buffer see full reads because seeking empties the buffer; counterexample |
| C84 | `Model/Device.lean`; the medium is a device in `Spec/Damaged.lean` | C82 gives a schedule, C75 what failures do to it, C72 the verdict without them; the PDF loop, whose chunks the damage cuts, by a simulation of the undamaged medium |
| C85 | `Model/Device.lean`; calls are counted by any function of the state that no call increases by more than one (`Spec/Metered.lean`) | calls plus interruptions still to come as a potential, along the programs of the readers |
| C86 | `Model/Device.lean`; invariants of a device in `Spec/Metered.lean` | induction over the programs of the readers, with the sizes of their requests |
| C87 | `Model/Device.lean`; a file with a table of handles, used by others between any two calls, in `Spec/Handles.lean` | a handle serves the content (C82); the other handles by C86 |
| C88 | `Model/Device.lean`; a file that notes the bytes it delivers in `Spec/Traced.lean` | simulation of two devices that agree as long as the final note allows it (`Proofs/Traced.lean`); the file serves the content (C82) |
| C89 | `Model/Device.lean`; a file that notices when its end is touched in `Spec/Watched.lean`, the file that changes is that of C63 | simulation of two devices that agree until the end is touched (`Proofs/Traced.lean`); the watched file serves the content (C82) |
| C90 | `from_bytes` (`Model/Detect.lean`) and the table; strings of a length and how many of them have a property in `Spec/Rare.lean` | counting by induction on the length; union bound over the 726 magic values, summed by the kernel; an automaton with four states that accepts the beginning of every text, and its recurrence |
| C91 | `Model/Override.lean`: the device of C63 with a `read_exact` of its own, used by the readers without BufReader; contract in `Spec/Override.lean` | the forward simulation of C82, in which a `read_exact` becomes a full read, a full and an empty one, or a failed one; what happens to the position of a failed reader is harmless because the text reader rewinds |

## Validation of the model

* The model was executed on all 480 fixtures of `/repo/fixtures` with all features on: 0 mismatches with the
  expectations in `/repo/tests`.
* `tools/port.py` is a second, independent transliteration of the crate: Python, written from the Rust text, its signature
  table parsed from `/repo/src/signatures.rs` at run time. `tools/fuzz.py` generates inputs for each format (headers from the
  table, structured ASF/CFB/EBML/MP4/ZIP/... bodies, mutations, truncations), `tools/FuzzMain.lean.txt` runs the Lean model on
  them, and `fuzz.py cmp` compares verdicts and panics, with and without overflow checks: 0 mismatches on 42000 inputs, 446 of the 447
  formats among the verdicts. To repeat: in a scratch directory, copy `lean/Verif/Model`, `lean/lean-toolchain` (if any) and
  `tools/FuzzMain.lean.txt` (as `FuzzMain.lean`), write a lakefile with `lean_exe fuzz` (root `FuzzMain`), then `fuzz.py gen SEED N x.bin`,
  `fuzz x.bin > x.out`, `fuzz.py cmp x.bin x.out`. This is a test of the transcription, not part of any proof.
* `tools/mutate.py` edits the model in a scratch copy, rebuilds, and records in `seeded/LOG.jsonl` which theorems
  fail for each wrong program.

## Trusted base

* Lean 4.33.0's kernel. Axioms: only `propext`, `Classical.choice`, `Quot.sound` (checked by
  `vcheck` and by `#print axioms`). No own axioms, no `native_decide`/`bv_decide`.
* The reading of the Rust source: each definition cites file and lines.
* The generator `tools/gen.py` for the two tables (its output is committed and is what is proved about).
* The modelled fragment of std (documented in `Model/Std.lean`, `Model/IO.lean`). The provided methods of `Read` and
  `Seek` (`read_exact`, `stream_position`, `rewind`) are modelled by their default bodies in `Model/IO.lean`; `stream_position` is
  a call of its own in `Model/Device.lean`, and C91 (`Model/Override.lean`) is about types that override `read_exact`, as
  `Cursor` does. `rewind` is only called on a `BufReader`, which has the default one and calls `seek`. `read_buf`, through which
  `BufReader` fills its buffer, can be overridden only inside std and is taken to be `read`.

Not modelled: the type-level API (generics, `AsRef`), memory safety (the crate forbids `unsafe`),
timing, allocation failure, targets whose `usize` is neither 64 nor 32 bits (32 bits: C52, C76, C77).
