#!/usr/bin/env python3
"""Writes properties.jsonl (kept as a script so entries can be appended and re-numbered safely)."""
import json, os
P = []
def p(id, title, statement, quantifier, why, *anchors):
    P.append(dict(id=id, title=title, statement=statement, quantifier=quantifier,
                  why_tests_cant=why, anchors=list(anchors)))

LIB, SIG, RD, MAC, FMT = "src/lib.rs", "src/signatures.rs", "src/readers.rs", "src/macros.rs", "src/formats.rs"

p("C01", "from_bytes is total",
  "In a build without arithmetic overflow checks (the release profile), FileFormat::from_bytes returns a format for every byte string and every set of enabled reader features: it never panics, never loops forever and has no error outcome.",
  "every byte string, every subset of the 12 reader features",
  "the readers follow attacker-controlled offsets, sizes and counts; a panic or endless loop needs one specific malformed input among infinitely many",
  f"{LIB}: FileFormat::from_bytes, FileFormat::from_reader", f"{RD}: all from_*_reader functions, ReadData, FindBytes")
p("C02", "no input panics in overflow-checked builds",
  "In a build with overflow checks (the debug profile), from_bytes does not panic on any byte string. (The code violates this: attacker-chosen 64-bit size fields overflow in the ASF, MP4 and ZIP readers.)",
  "every byte string, every feature set, overflow checks on",
  "the panicking inputs are isolated 64-bit values; no corpus contains them",
  f"{RD}: from_asf_reader, from_mp4_reader, from_zip_reader")
p("C03", "Empty is reported exactly for empty input",
  "from_bytes(b) == FileFormat::Empty if and only if b has length zero, for every feature set.",
  "every byte string, every feature set",
  "requires that no signature and no reader path on any non-empty input ever yields Empty",
  f"{LIB}: FileFormat::from_reader", f"{SIG}: signatures!")
p("C04", "a signature verdict is backed by the format's magic bytes",
  "Without reader features, if from_bytes(b) returns a format other than Empty and ArbitraryBinaryData, then b contains, at the documented offsets, all parts of one of that format's magic values.",
  "every byte string", "a false positive would be an input outside any corpus",
  f"{MAC}: signatures!", f"{SIG}")
p("C05", "magic bytes are never overlooked, and the earlier-listed format wins",
  "If b contains one of format f's magic values, from_bytes(b) without reader features reports f or a format listed before f in the signature table which also has its magic in b; in particular ArbitraryBinaryData is never reported for an input carrying a known magic value.",
  "every byte string, every one of the 726 magic values",
  "polyglot inputs carry several magics at once; the combinations cannot be enumerated",
  f"{MAC}: signatures!", f"{SIG}")
p("C06", "every listed magic value is live",
  "For every format with a signature and every one of its alternative magic values there is an input for which that alternative decides the verdict: no entry of the table is shadowed by an earlier one. The table is ordered by decreasing longest-magic size.",
  "every format and alternative in the signature table",
  "the test-suite has one or two samples per format; shadowing of the other alternatives stays invisible",
  f"{SIG}")
p("C07", "the first 36870 bytes determine the signature verdict",
  "Without reader features, from_bytes(b) equals from_bytes of the first 36870 bytes of b, for every b; and no smaller window has this property.",
  "every byte string of any length", "an off-by-one in the window only shows on inputs with a magic at the very end of it",
  f"{LIB}: FileFormat::from_reader (buffer size)", f"{SIG}: Iso9660")
p("C08", "appending data never loses a recognised signature",
  "Without reader features, if b is recognised as f then b followed by any bytes is recognised as f or as a format listed before f; it never falls back to ArbitraryBinaryData or Empty.",
  "every pair of byte strings", "quantifies over all extensions of all inputs",
  f"{MAC}: signatures!", f"{LIB}: FileFormat::from_reader")
p("C09", "unknown content falls back to the documented default",
  "A non-empty input without any known magic value is reported as ArbitraryBinaryData (FileFormat::default()) when reader-txt is off, whatever the other features; with reader-txt on it is PlainText or ArbitraryBinaryData.",
  "every byte string, every feature set", "quantifies over the complement of all magic values",
  f"{LIB}: FileFormat::from_reader, Default", f"{RD}: from_generic_reader")
p("C10", "from_reader fails exactly when the first read fails",
  "from_reader returns Err(e) if and only if the very first read call on the stream returns Err(e); I/O errors at any later point are absorbed and a format is returned.",
  "every content, every position, every schedule of short reads, interruptions and failures, every feature set",
  "needs an I/O error injected at every possible later call",
  f"{LIB}: FileFormat::from_reader", f"{RD}: from_generic_reader")
p("C11", "structured readers do not depend on how the stream chunks its reads",
  "Once the first read has delivered the full signature window, the verdict does not depend on how many bytes each later read call returns nor on interruptions, for every input not dispatched to the PDF, SQLite or XML readers; buffering by BufReader is unobservable.",
  "every content, every schedule of short reads and EINTR, every feature set",
  "the number of read schedules is unbounded",
  f"{RD}: from_asf_reader, from_cfb_reader, from_ebml_reader, from_exe_reader, from_id3v2_reader, from_mp4_reader, from_rm_reader, from_txt_reader, from_zip_reader, ReadData")
p("C12", "the verdict does not depend on the size of the first read",
  "from_reader gives the same answer for two streams with the same content whatever amount of data their first read call returns. (The code violates this: only one read call is made, and a short one hides the magic.)",
  "every content, every first-read size", "needs a reader that returns short counts, as sockets and decompressors do",
  f"{LIB}: FileFormat::from_reader")
p("C13", "in-memory, stream and file entry points agree",
  "from_bytes(b), From<&[u8]>, from_reader over any stream positioned at 0 whose reads return all requested bytes, and from_file on a file with content b all return the same format (as long as no seek leaves the range the stream supports); from_file fails exactly when opening or the first read fails.",
  "every byte string, every feature set, every file-system state",
  "three entry points, all inputs", f"{LIB}: from_bytes, from_file, from_reader, From<&[u8]>")
p("C14", "from_reader classifies the content from the current position",
  "from_reader on a stream positioned at offset p returns what from_bytes returns for the content from p on. (True without reader features; violated by every format-specific reader, because they seek to absolute offsets.)",
  "every content, every start position, every feature set", "quantifies over positions",
  f"{LIB}: FileFormat::from_reader", f"{RD}: seek(SeekFrom::Start(..)) calls")
p("C15", "a feature only affects its own base format",
  "Enabling a reader feature (other than reader-txt) can change the verdict on b only if b's signature verdict is that feature's base format; reader-txt can change a verdict only from ArbitraryBinaryData to PlainText.",
  "every byte string, stream and implementation of Read + Seek (whatever it does), every pair of feature sets differing in one feature",
  "2^12 feature sets times all inputs; CI runs two feature sets",
  f"{RD}: from_fmt_reader, from_generic_reader")
p("C16", "a reader stays inside its documented family",
  "For every input, the verdict is the signature verdict itself, a member of the family that the crate documentation lists for the corresponding reader feature, PlainText, ArbitraryBinaryData or Empty.",
  "every byte string, every feature set", "a stray verdict would need an unusual path through a reader",
  f"{LIB}: crate documentation lists", f"{RD}: from_*_reader")
p("C17", "every documented format is detectable with its feature",
  "For every format the documentation lists under a reader feature, there is an input that is reported as this format when that feature alone is enabled and is not when no feature is enabled or is recognised by signature.",
  "every format of every documented family", "the existence half is a finite table; together with C16 it makes the documented families exact",
  f"{LIB}: crate documentation lists", f"{RD}")
p("C18", "reader-only formats are never reported without their feature",
  "If a format has no signature of its own, it is never reported unless the feature that documents it is enabled.",
  "every byte string, every feature set", "needs all inputs for each feature set", f"{RD}: from_fmt_reader", f"{LIB}: crate documentation lists")
p("C19", "reader errors degrade to the generic verdict",
  "If the format-specific reader cannot parse the input, the verdict is PlainText (reader-txt on and the input is text) or ArbitraryBinaryData; enabling a reader never yields a verdict outside that. Of the contents with the magic of a format that a reader refines, only executables and MP4 content of more than 151587081 bytes can become PlainText. Corollary (finding): enabling a reader can lose a correct signature verdict on truncated files.",
  "every byte string, every feature set", "all truncations and corruptions of all files",
  f"{LIB}: FileFormat::from_reader")
p("C20", "SQLite databases are Sketch exactly when the marker is present",
  "With reader-sqlite3, an input whose signature verdict is Sqlite3 is reported as Sketch if and only if the marker com.bohemiancoding.sketch3 occurs in bytes 100..32868; otherwise Sqlite3. The byte search neither misses nor invents an occurrence, at any alignment.",
  "every byte string with the SQLite signature", "the search uses skip tables; bugs show only for specific overlaps of data and pattern",
  f"{RD}: from_sqlite3_reader, FindBytes::find")
p("C21", "PDF files are Illustrator artwork exactly when the marker is present, wherever chunk boundaries fall",
  "With reader-pdf, an input whose signature verdict is PortableDocumentFormat is reported as AdobeIllustratorArtwork if and only if AIPrivateData occurs within bytes 5..33554437, otherwise as PortableDocumentFormat. On streams this holds for any division of the content into non-empty reads, except that with short reads on content longer than 33554437 bytes the search may extend up to 32767 bytes further.",
  "every byte string with the PDF signature, every schedule of short reads",
  "the marker can straddle any of 1024 chunk boundaries at 12 alignments, and short reads move the boundaries",
  f"{RD}: from_pdf_reader, FindBytes::holds")
p("C22", "XML verdicts follow the documented marker precedence",
  "With reader-xml, an input whose signature verdict is ExtensibleMarkupLanguage is reported as the first format in the marker list whose markers all occur in bytes 5..8197, and as ExtensibleMarkupLanguage when none does.",
  "every byte string with the XML signature", "all combinations of markers at all positions",
  f"{RD}: from_xml_reader")
p("C23", "PlainText is reported exactly for text",
  "With reader-txt, an input without signature is PlainText if and only if the first 16 lines of its first 65536 bytes are well-formed UTF-8 without control characters other than white space.",
  "every byte string without known magic", "quantifies over all UTF-8 strings and all malformed ones",
  f"{RD}: from_txt_reader")
p("C24", "every UTF-8 text is PlainText",
  "With reader-txt, every non-empty well-formed UTF-8 text without non-whitespace control characters and without a known magic is reported as PlainText. (Violated: when byte 65536 splits a multi-byte character inside the first 16 lines the text is reported as ArbitraryBinaryData.)",
  "every UTF-8 text", "the failing texts have one particular alignment at 64 KiB", f"{RD}: from_txt_reader (READ_LIMIT)")
p("C25", "ZIP archives are classified by the first decisive entry of the central directory",
  "For every archive made of local data, a central directory and an end record with any comment (not containing the end-record magic), the verdict is that of the first of the first 1024 entries whose name is decisive, else JavaArchive if META-INF/MANIFEST.MF is among them, else Zip; independent of the local data, extra fields and comments.",
  "every list of entries (names, extra fields, comments), any archive comment, any payload", "unbounded archives; ordering of entries matters",
  f"{RD}: from_zip_reader")
p("C26", "ZIP entry names are matched byte-exactly",
  "Whether an entry name is decisive depends on its bytes exactly as documented (equality, prefix, suffix, no slash), also for names that are not valid UTF-8: lossy decoding never creates nor hides a match.",
  "every byte string as entry name", "quantifies over all invalid UTF-8 byte strings",
  f"{RD}: from_zip_reader, ReadData::read_string")
p("C27", "ZIP mimetype entries decide the OpenDocument/EPUB family",
  "If the first decisive entry is a stored 'mimetype' entry, the verdict is the format registered for its content with surrounding Unicode white space removed, else Zip.",
  "every archive whose first decisive entry is mimetype, every content", "all contents, all paddings, all local header extra fields",
  f"{RD}: from_zip_reader")
p("C28", "MP4 verdicts reflect the handler boxes",
  "For every sequence of boxes with 32-bit sizes, the verdict is Mpeg4Part14Video if any of the first 256 visited boxes is a handler of type vide, else Audio if soun, else Subtitles if sbtl/subt/text, else Mpeg4Part14; other boxes' contents are irrelevant.",
  "every sequence of boxes, any payloads, any nesting of moov/trak/mdia", "unbounded structure",
  f"{RD}: from_mp4_reader")
p("C29", "64-bit box sizes are equivalent to 32-bit ones",
  "Replacing a box's 32-bit size by the equivalent 64-bit largesize encoding does not change the MP4 verdict. (Violated: the 8 bytes of the largesize field are skipped twice.)",
  "every box sequence", "the fixture set contains no largesize box before the tracks", f"{RD}: from_mp4_reader")
p("C30", "EBML verdicts reflect DocType, codecs and stereo mode",
  "For every sequence of EBML elements (any valid ID and size encodings), processing the first 256 elements up to the first Cluster: a webm DocType gives Webm, a non-matroska DocType gives ExtensibleBinaryMetaLanguage, a non-zero StereoMode gives Matroska3dVideo, whichever comes first; otherwise V_ beats A_ beats S_ codec, else ExtensibleBinaryMetaLanguage.",
  "every element sequence, all 1..8 byte size encodings, any payloads", "unbounded structure, variable-length integers",
  f"{RD}: from_ebml_reader")
p("C31", "ASF verdicts reflect the header objects",
  "For every list of header objects: a content descriptor named 'DVR File Version' gives MicrosoftDigitalVideoRecording; otherwise a video stream gives WindowsMediaVideo, an audio stream WindowsMediaAudio, else AdvancedSystemsFormat (first 256 objects, first 32 descriptors).",
  "every header object list", "unbounded structure with nested lists", f"{RD}: from_asf_reader")
p("C32", "RealMedia verdicts reflect the media property chunks",
  "For every list of chunks: video/* MIME type gives Realvideo, else audio/* gives Realaudio, else Realmedia, looking at the first min(64, declared-1) chunks.",
  "every chunk list", "unbounded structure", f"{RD}: from_rm_reader")
p("C33", "stacked ID3v2 tags are skipped",
  "For every number of ID3v2 tags without extended header (any sizes, with or without footer) followed by audio data of at least 10 bytes, the verdict is FLAC if the data starts with fLaC, MP3 if it starts with an MPEG layer 3 sync word, else Id3v2.",
  "every list of tags, every payload", "any number of stacked tags; the loop has no iteration limit", f"{RD}: from_id3v2_reader")
p("C34", "ID3v2 tags with an extended header are skipped as well",
  "C33 also holds for tags carrying an extended header, whose size the ID3v2 standard includes in the tag size. (Violated: the extended header size is added a second time.)",
  "every list of tags", "no fixture has an extended header", f"{RD}: from_id3v2_reader")
p("C35", "compound files are classified by the root entry CLSID",
  "For an input with CFB signature of either sector size, the verdict is the one registered for the 16 CLSID bytes of the root directory entry; with an unregistered CLSID it is decided by the names of the second and third directory entries (MatOST, WksSSWorkBook).",
  "every byte string with CFB signature, every sector location", "all sector locations and CLSIDs",
  f"{RD}: from_cfb_reader, ReadData::read_guid")
p("C36", "MZ executables are classified by the extended header",
  "For an input with MZ/ZM signature: PE signature at the offset stored at byte 60 gives DynamicLinkLibrary or PortableExecutable by the DLL characteristic; LE/LX gives LinearExecutable; NE gives NewExecutable; otherwise, or if the offset is not followed by more than 4 bytes, MsDosExecutable.",
  "every byte string with the MZ signature", "all 32-bit header offsets", f"{RD}: from_exe_reader")
p("C37", "the number of I/O calls is bounded",
  "For every input the number of read and seek operations issued is bounded by a constant, except with reader-id3v2, where it is at most linear in the input length; no input makes the readers loop.",
  "every byte string, every feature set", "worst case over all inputs", f"{RD}: *_LIMIT constants")
p("C38", "buffers requested on behalf of untrusted sizes are bounded",
  "For every input, no single read requests more than 65557 bytes. (Violated by the ZIP mimetype entry, whose declared size up to 4 GiB is allocated before anything is read.)",
  "every byte string, every feature set", "worst case over all inputs", f"{RD}: ReadData::read_bytes, from_zip_reader")
p("C39", "window readers look only at their documented window",
  "The verdict on an input with XML, SQLite, PDF or no signature depends only on its first 36870 bytes and on the first 8197, 32868, 33554437 and 65536 bytes respectively.",
  "every pair of byte strings with a common prefix", "quantifies over all tails", f"{RD}: from_xml_reader, from_sqlite3_reader, from_pdf_reader, from_txt_reader")
p("C40", "the metadata methods agree with the published list of formats",
  "name(), short_name() and kind() of every FileFormat agree with the README list of supported formats, entry by entry, and Display prints name().",
  "every format", "finite table, but no test enumerates it", f"{FMT}", "README.md", f"{MAC}: formats!")
p("C41", "metadata is well-formed and names identify formats",
  "Every extension is non-empty, every media type has the form type/subtype with lower-case RFC 6838 characters, and no two formats share a name.",
  "every format / every pair of formats", "finite table, but no test enumerates it", f"{FMT}")
p("C42", "file and in-memory detection agree for every content",
  "from_file on a file with content b returns what from_bytes(b) returns, for every b. (Violated: when an ASF object, an MP4 box or a ZIP64 record declares a size or offset near 2^63 the seek succeeds on an in-memory cursor but fails on a file.)",
  "every content, every maximal seek offset of the file system", "needs 63-bit declared sizes", f"{RD}: reader.seek(SeekFrom::Current(..))", f"{LIB}: from_file")
p("C43", "GUIDs are compared by value",
  "The textual GUID used for CLSID and ASF object matching is the standard rendering of the 16 raw bytes, and two GUIDs render equally only if their bytes are equal.",
  "all 2^128 GUIDs", "cannot be enumerated", f"{RD}: ReadData::read_guid")
p("C44", "the lefi example prints one aligned line per argument",
  "For every argument list, the example program prints exactly one line per argument up to the first unreadable file, each starting with the argument and a colon padded to the width of the longest argument.",
  "every argument list and file-system state", "all argument lists", "examples/lefi.rs: main")
p("C45", "the verdict ignores bytes the classifiers skip",
  "Without a matching decisive element, bytes inside skipped payloads (box bodies, element bodies, chunk bodies, stored files) never change the verdict of the MP4, EBML, RM, ASF and ZIP readers.",
  "every pair of inputs that differ only in skipped payloads", "unbounded payloads", f"{RD}")
p("C46", "a debug build panics or agrees with the release build",
  "For every input, a build with overflow checks either panics or returns exactly what a release build returns, having made the same calls on the stream; it never returns a different format.",
  "every stream, byte string and file, every implementation of Read + Seek whatever it does, every feature set", "wrapped and checked arithmetic differ only on isolated 64-bit values", f"{RD}: all size arithmetic", f"{LIB}: from_reader")
p("C47", "published magic numbers are recognised",
  "A file that shows the published magic number of a supported format (written down independently of the crate's table, 810 of them) is reported as that format or as a format listed before it whose magic it has, too; where the published number is distinctive, as that format whatever else the file holds. (Violated for 33 of them: the cookie of virtual hard disks is 'conectix', the table says 'connectix'; the brand of AVC images is 'avci', the table says 'avic'; others are not in the table.)",
  "every listed magic number, every content that shows it", "ranges over everything else the file may hold", f"{SIG}")
p("C48", "media types and extensions are the registered ones and fit the kind",
  "media_type() and extension() of the well-known formats are the registered ones or those in common use (written down independently, 350 of them), extension() and kind() of every format are those of its sample file in the repository, the top-level media type never contradicts kind(), and every audio format has an audio media type. (Violated by eight formats: OpenXPS gets the extension xps instead of oxps, Sun XML Writer Global sgw instead of sxg; AutoCAD drawings, DXF, EPS, STL and 3MF get other media types than the registered ones.)",
  "every format", "finite table, but no test enumerates it", f"{FMT}")
p("C49", "trailing data does not take a verdict back",
  "Appending data to a file that a reader has refined to a specific format, without disturbing its signature, leaves the verdict as it is. (Violated by MP4 and EBML, which lose the verdict with a single trailing byte, and by XML and ZIP.)",
  "every content, every appended data, every feature set", "ranges over all files and all trailing data", f"{RD}", f"{LIB}: from_bytes")
p("C50", "a file that is cut off is not reported as another format",
  "If both a file and its beginning are recognised by the same signature, the beginning is reported as the whole file is, as the basic format of the signature, or by a fallback verdict, but never as another format. (Violated by MP4 and EBML, where the tracks seen so far decide.)",
  "every content, every cut, every feature set", "ranges over all files and all cuts", f"{RD}", f"{LIB}: from_bytes")
p("C51", "detection can be repeated, and reads once when no reader takes part",
  "On a stream that serves its calls in full, moving back to the position where detection started and detecting again returns the same verdict, whatever the first detection did to the position; nothing else of the stream's history matters. When no reader is enabled for the recognised format, and always without reader features, from_reader makes exactly one read call of 36870 bytes and no seek, and leaves the stream right behind the bytes delivered. The position is not restored.",
  "every stream, position, schedule, content and feature set", "ranges over all streams and all histories of earlier calls", f"{LIB}: from_reader")
p("C52", "the verdict does not depend on the pointer width of the target",
  "from_bytes, from_reader and from_file give the same outcome on targets with 32-bit pointers as on those with 64-bit ones. Sizes, counts and lengths found in the content that exceed the range of the smaller type change nothing.",
  "every content, stream, feature set and build profile, both pointer widths", "the fields concerned have 32 to 64 bits, and tests run on 64-bit hosts", f"{RD}: from_ebml_reader, from_zip_reader, read_bytes, read_string")
p("C53", "the order of tracks and padding do not matter",
  "Exchanging boxes of an MP4 file at any level, the track descriptions of an EBML file, the header objects of an ASF file or the chunks of a RealMedia file, and inserting or removing parts without meaning (free boxes, Void elements, padding objects), leaves the verdict as it is, as long as the number of parts stays within the documented limits (256, 256, 256 and 64).",
  "every file of these containers, every rearrangement", "ranges over all sequences of parts and all rearrangements", f"{RD}: from_mp4_reader, from_ebml_reader, from_asf_reader, from_rm_reader")
p("C54", "the order of the entries of a ZIP archive does not matter",
  "Listing the entries of a ZIP archive in another order in the central directory leaves the verdict as it is. (Violated: an Adobe AIR installer is a plain ZIP archive when its mimetype entry is listed before META-INF/AIR/application.xml.)",
  "every archive, every permutation of its entries", "ranges over all archives and orders", f"{RD}: from_zip_reader")
p("C55", "blank content is plain text or arbitrary binary data",
  "Content that repeats one byte, such as a zeroed or erased file, is reported as PlainText if the byte may occur in text and reader-txt is enabled, and as ArbitraryBinaryData otherwise, whatever its length. The only exception is the sync byte of transport streams, repeated 189 times or more.",
  "every byte, every length, every feature set", "ranges over all lengths", f"{LIB}: from_bytes", f"{SIG}", f"{RD}: from_txt_reader")
p("C56", "line endings do not matter",
  "Converting a text file with LF line endings to CRLF or back leaves it recognised as the text format it is. (Violated: an AbiWord document with a document type declaration is recognised only with LF line endings, or only with CRLF, depending on its declaration.)",
  "every text, every text format", "ranges over all texts", f"{SIG}", f"{RD}: from_txt_reader, from_xml_reader")
p("C57", "a byte order mark does not matter",
  "Adding a UTF-8 byte order mark to a text file that may have one, or removing it, leaves the file recognised as the format it is. (Violated by AbiWord documents with a document type declaration.)",
  "every text, every format that allows a byte order mark", "ranges over all texts", f"{SIG}", f"{RD}: from_txt_reader, from_xml_reader")
p("C58", "XML documents are reported by their root element",
  "With reader-xml, an XML document is reported as the format its root element belongs to, and as ExtensibleMarkupLanguage if the root element belongs to none, as long as the root element starts within the first 8197 bytes. (Violated: markers are searched as beginnings of tags anywhere, so a MyBatis file with root element mapper is a Tiled map, and an SVG image with a formula is MathML.)",
  "every XML document: every prolog, root element and content", "ranges over all documents", f"{RD}: from_xml_reader")
p("C59", "the comment and the kind of end records of a ZIP archive do not matter",
  "Changing the comment of a ZIP archive, or replacing its end record by ZIP64 ones, leaves the verdict as it is. (Violated: a comment that contains an end record takes over and can turn a text document into a spreadsheet.)",
  "every archive, every comment", "ranges over all archives and comments", f"{RD}: from_zip_reader")
p("C60", "the amount of data read is bounded",
  "Detection asks the stream for at most 36870 bytes plus a fixed amount per enabled reader for the recognised format, plus 170 requests of 8192 bytes for plain text; only the ID3v2 reader makes more requests for longer content, and only the ZIP reader larger ones, as large as a mimetype entry declares. Without these two features less than 700 MB are requested, however large the stream. Reads that were cut short or failed count extra.",
  "every stream, configuration and feature set", "ranges over all streams, of any length, and all schedules of short and failing reads", f"{LIB}: FileFormat::from_reader", f"{RD}: all readers, *_LIMIT constants")
p("C61", "a reported format is backed by the content",
  "Whenever detection reports a format, on whatever stream, the bytes show why: the bytes of the first read carry its magic; or it is plain text, and the first lines are text; or a reader added it to the format whose magic was found, and the marker it stands for (handler box, codec element, stream GUID, CLSID, header, MIME type, archive entry, marker string) is in the content at the place the format says. Otherwise it is the default. With the ZIP reader, an archive format also needs an end of central directory record. Short, interrupted or failing calls never make up a format.",
  "every stream, configuration, feature set and format", "ranges over all contents, also malformed ones, and all schedules of short and failing reads and seeks", f"{LIB}: FileFormat::from_reader, FileFormat::from_bytes, FileFormat::from_file", f"{RD}: all readers", f"{SIG}: from_signature")
p("C62", "the verdict on every container, also a malformed one, is the one its offsets lead to",
  "Whatever content is recognised as MP4, EBML, ASF, RealMedia, ID3v2 or ZIP, well-formed or not: the verdict is the one that a walk over the content finds, which starts at a fixed offset, looks up types, sizes and identifiers at the offsets where the format puts them, follows the sizes (also backwards, in 64-bit arithmetic), visits no more than the limit of boxes, elements, objects, chunks or entries, and ends at a decisive one, at the limit or at the end of the content. If an offset leads out of the content or out of what the stream can be positioned to, there is no such walk, and the verdict is plain text or arbitrary data.",
  "every content, feature set and format; slices, and streams and files with short reads", "ranges over all contents, also malformed ones", f"{RD}: from_mp4_reader, from_ebml_reader, from_asf_reader, from_rm_reader, from_id3v2_reader, from_zip_reader", f"{LIB}: FileFormat::from_bytes, FileFormat::from_reader")
p("C63", "a file that changes while it is examined does no harm",
  "Detection on any implementation of Read + Seek with a position of its own, also a file that other processes change, extend or truncate between two calls, whose reads are short or interrupted and whose calls fail: it fails exactly when the first read fails, with that error; a verdict is a format documented for the bytes the first read saw (their signature verdict, a member of the family of an enabled reader for it, plain text with the text reader, or arbitrary data; empty for no bytes); in release builds it never panics, and it returns, unless an ID3v2 reader runs on a device without an end.",
  "every implementation of Read + Seek that keeps the contract of read and its own position, as a state machine; every history of contents", "ranges over all histories of contents and outcomes of calls", f"{LIB}: FileFormat::from_reader, FileFormat::from_file", f"{RD}: all readers")
p("C64", "no Read + Seek makes a release build panic",
  "In release builds detection does not panic on any implementation of Read + Seek that keeps the contract of read, not even if somebody else moves its position (as with a reference to a file that another thread uses).",
  "every implementation of Read + Seek, as a state machine", "ranges over all interleavings with other users of the position", f"{LIB}: FileFormat::from_reader", f"{RD}: from_asf_reader, from_ebml_reader, from_mp4_reader, from_rm_reader (stream_position on a BufReader)")
p("C65", "interruptions are retried",
  "A read call that answers ErrorKind::Interrupted is made again, so that interruptions do not change the outcome: a stream and the same stream without its interruptions give the same result, whatever else the stream does (short reads, failures of other kinds). (Violated: an interruption of the first call is returned to the caller, and one in the PDF, SQLite or XML reader changes the verdict.)",
  "every stream content and every schedule of short, interrupted and failing calls", "ranges over all schedules", f"{LIB}: FileFormat::from_reader", f"{RD}: all readers")
p("C66", "the longest magic wins",
  "When the content holds the magic values of several formats, the verdict (without readers) is a format with the longest of them, as the order of the table ('listed in descending order of size') is meant to ensure. (Violated by exactly 39 formats: entries are sorted by their longest alternative, so a DICOM file whose preamble starts with FF 0A is a JPEG XL image.)",
  "every content, every pair of formats", "ranges over all contents", f"{SIG}", f"{MAC}: signatures!")
p("C67", "a reported format shows a published magic number",
  "Without readers, a format other than Empty and ArbitraryBinaryData is reported only for content that shows one of the published magic numbers of the format (written down independently of the crate's table). (Violated by exactly 47 formats of which the table compares less: text that starts with 0707 is a cpio archive, a zlib stream an Apple disk image.)",
  "every content, every format", "ranges over all contents", f"{SIG}", f"{LIB}: FileFormat::from_bytes")
p("C68", "every magic value of the table is needed",
  "For every format and every one of its magic values there is content which is reported as this format (without readers) and holds no other magic value of the format, so that deleting the value from the table would change a verdict. (Violated by six values of which a beginning is listed as well: #!/usr/bin/tclsh next to #!/usr/bin/tcl, [playlist] with CR LF next to CR, ...)",
  "every format, every one of the 726 magic values", "the absence of redundancy is a statement about all contents", f"{SIG}", f"{MAC}: signatures!")
p("C69", "how a stream cuts its later reads does not matter",
  "Once the first read has delivered the signature window, the verdict does not depend on how many bytes the later read calls return. (Violated by the XML and SQLite readers, which make a single read call and look only at what it delivers: with a short second read an SVG image is an XML document and a Sketch document a SQLite database.)",
  "every content, every schedule of short reads, every feature set", "ranges over all contents and all schedules of short reads", f"{RD}: from_xml_reader", f"{RD}: from_sqlite3_reader", f"{LIB}: FileFormat::from_reader")
p("C70", "163 byte positions decide the signature verdict",
  "Without readers, two contents that agree at 163 fixed positions (0..58, 60..67, 72..80, 82, 102..126, 128..131, 138..141, 188, 192..199, 256..270, 323, 1080..1083, 32752..32759, 32767, 32769..32773, 34817..34821, 36865..36869) get the same verdict, whatever all their other bytes and their lengths are; and each of these positions matters: changing this one byte can change the verdict.",
  "every pair of contents; every one of the positions", "ranges over all pairs of contents", f"{SIG}", f"{MAC}: signatures!", f"{LIB}: FileFormat::from_bytes")
p("C71", "width, alignment and precision apply to the displayed name",
  "Formatting a file format with a width, fill, alignment or precision (`format!(\"{:<20}\", f)`) gives its name padded and cut off as `std::fmt` documents for strings. (Violated: the implementation of `Display` writes the name with a placeholder of its own, which drops all options, so tables made with a width are not aligned.)",
  "every format, every fill character, alignment, width and precision, every writer", "ranges over all widths, precisions and fill characters, and over all writers, failing ones included", f"{LIB}: impl Display for FileFormat")
p("C72", "the verdict on every content is the specified one",
  "For every content and feature set there is exactly one verdict by the written specification, and from_bytes, from_file and from_reader report it: the format of the first magic number of the table that the content has; if an enabled feature refines that format, what its reader finds at the specified offsets or windows of the content (containers, compound files, executables, PDF, SQLite, XML, text); if the reader finds nothing, plain text or arbitrary data.",
  "every content, every feature set, every format; slices, files, and streams whose first read delivers the signature window", "a complete specification of the function on all contents, well-formed or not", f"{LIB}: FileFormat::from_bytes", f"{LIB}: FileFormat::from_reader", f"{LIB}: FileFormat::from_file", f"{RD}: from_*_reader", f"{SIG}: signatures!")
p("C73", "the verdict of from_reader on every stream that does not fail",
  "On every stream whose calls do not fail, from any position and however its reads are cut short, from_reader reports exactly one verdict, no error, and it is the specified one: the magic numbers are looked for in what the first read delivers from the current position; the refining reader looks at the content from its beginning; the XML and SQLite readers see exactly what the second read delivers and the PDF reader as many bytes as its calls add up to until they reach 32 MiB. Nothing else about the stream matters.",
  "every content, initial position, division of the reads, largest position of the stream, feature set and format", "a complete specification over all schedules of short reads, of any length", f"{LIB}: FileFormat::from_reader", f"{RD}: from_pdf_reader", f"{RD}: from_sqlite3_reader", f"{RD}: from_xml_reader", f"{RD}: from_*_reader")
p("C74", "exactly when a build with overflow checks panics",
  "A build with overflow checks panics exactly if the ASF, MP4 or ZIP reader is enabled, the magic number of its format is found, and its walk through the content meets a number it cannot compute with: a size of an ASF object or MP4 box between 2^63 and 2^63 plus the length of what was read of it, an end of an extended content description of 2^64 or more (26 bytes counted twice), or a ZIP64 locator with an offset of 2^64 - 32 or more. On every other content it reports the verdict of the release build, and no failure of the stream leads to a panic.",
  "every content, feature set and stream: position, division of the reads, largest position, failures", "an equivalence over all contents; a test shows one panic or one verdict", f"{RD}: from_asf_reader", f"{RD}: from_mp4_reader", f"{RD}: from_zip_reader", f"{LIB}: FileFormat::from_reader")
p("C75", "a failure of the stream costs the verdict, it does not change it",
  "Whatever calls of a stream fail, at whatever points and with whatever errors, from_reader returns the error of its first call, or what it returns on the same stream without the failures, or arbitrary binary data, or plain text (only if that reader is enabled and the content is text). It reports no other wrong format: every other format it reports is the verdict that the magic numbers and the content lead to. A failure of the stream is never the reason of a panic.",
  "every content, feature set and stream: position, division of the reads, largest position, any failures of any calls", "it compares all runs with failures with the run without them; a test injects one failure", f"{LIB}: FileFormat::from_reader", f"{RD}: from_fmt_reader", f"{RD}: from_generic_reader")
p("C76", "the verdict on targets with 32-bit pointers, specified completely",
  "On targets with 32-bit pointers, for every stream whose calls do not fail (and every slice and file), of whatever length, from_reader returns exactly the verdict of a specification that is that of C73 except that the length of an archive, the place of its end record, its ZIP64 number of entries and the number of bytes to read of an EBML DocType or CodecID count modulo 2^32; it panics exactly if it gets, in an archive, to a stored mimetype entry of 2^31 bytes or more whose local header is there, before an entry that decides; it returns no error and does not hang.",
  "every content, feature set and stream without failing calls: position, division of the reads, largest position", "no content of a test suite shows that nothing else depends on the width of a pointer, and files of 4 GiB are not in test suites", f"{LIB}: FileFormat::from_reader", f"{LIB}: FileFormat::from_bytes", f"{LIB}: FileFormat::from_file", f"{RD}: from_ebml_reader", f"{RD}: from_zip_reader", f"{RD}: read_bytes")
p("C77", "overflow checks on targets with 32-bit pointers",
  "On targets with 32-bit pointers, in a build with overflow checks, for every stream whose calls do not fail (and every slice and file): from_reader panics exactly if an enabled ASF, MP4 or ZIP reader that the magic number calls for comes to a result that does not fit into 64 bits, or if it gets to a stored mimetype entry of 2^31 bytes or more (C76); otherwise it returns exactly the verdict of C76. On every stream, with any failures, it panics or does what the build without the checks does.",
  "every content, feature set and stream: position, division of the reads, largest position; for the second part failures too", "the panics depend on offsets near 2^63 and 2^64 at places the content chooses, and test suites are run on 64-bit targets", f"{LIB}: FileFormat::from_reader", f"{LIB}: FileFormat::from_bytes", f"{LIB}: FileFormat::from_file", f"{RD}: from_zip_reader", f"{RD}: from_asf_reader", f"{RD}: from_mp4_reader")
p("C78", "readers that claim to have read more than there was room for",
  "from_reader is safe against a Read implementation that returns a number larger than the length of the buffer it was given. If this happens in any call of the run, the run ends in a panic, with no further call on the reader: no verdict and no error is returned. If it does not happen, the run is exactly the one on the reader cut down to the contract. Errors are returned exactly if the first read fails, with its error; a verdict is given only if the first read kept the contract, and is a format documented for its bytes.",
  "every implementation of Read and Seek as a state machine, every feature set, build profile and point of the run at which it claims too much", "a safe trait can be implemented wrongly in unboundedly many ways and at any call; tests use readers of the standard library, which keep the contract", f"{LIB}: FileFormat::from_reader", f"{RD}: from_pdf_reader", f"{RD}: from_sqlite3_reader", f"{RD}: from_xml_reader", f"{RD}: read_bytes")
p("C79", "feature unification",
  "Cargo builds the crate once for all dependents, with every feature that one of them names and all that these imply. The build has a reader exactly if some dependent asks for it, by its name or through reader; the order and repetition of names do not matter; default means no reader; a build is refused exactly if a dependent names an unknown feature. The unified build reports, for every content, what one of the dependents would see with its own features. (Violated in exactly one way: content that begins like an executable, cannot be parsed as one and is text is PlainText if one dependent asks for reader-exe and another for reader-txt; the first alone would see ArbitraryBinaryData, the second MsDosExecutable; likewise MP4 content of more than 151587081 bytes.)",
  "every list of dependents with any lists of features, every content, build profile", "the combinations of features in a dependency graph are unbounded, and tests run with all features or none", "Cargo.toml: [features]", f"{RD}: from_fmt_reader", f"{RD}: from_generic_reader", f"{LIB}: FileFormat::from_reader")
p("C80", "input that cannot seek",
  "from_reader and from_file on an input that cannot seek (a pipe, a FIFO, /dev/stdin) never fail after a successful first read, never panic, consume nothing after that read, and report the format whose magic the first read delivers. (Violated in exactly one way: if the reader of that format is enabled, its first seek fails and the verdict is ArbitraryBinaryData: a ZIP archive from a pipe is Zip for a build without reader-zip and ArbitraryBinaryData for a build with it. reader-txt has no effect on such input.)",
  "every Read + Seek whose seeks all fail, with any behaviour of its reads, every feature set and build profile", "the tests only use files and byte slices; the outcome depends on what the first read delivers and on which of all feature sets is used", f"{LIB}: FileFormat::from_reader", f"{LIB}: FileFormat::from_file", f"{RD}: from_fmt_reader", f"{RD}: from_generic_reader")
p("C81", "Debug output identifies a format",
  "{:?} of a format writes one identifier in UpperCamelCase, in one call and whatever width, alignment or precision is requested. It is the name of the format in UpperCamelCase (each word with one capital, no punctuation), with a number at the beginning (3D, 3rd, 7, 8) spelled out. Different formats have different output, also if case is ignored, so Debug output, Display output and the format determine each other. The same holds for kinds and the headings of the README.",
  "every format and kind, all formatting options, every writer", "a relation between all pairs of 447 formats and all options of formatting", "src/macros.rs: formats! (derive(Debug))", "src/formats.rs: format, name", f"{LIB}: Kind")
p("C82", "user implementations of Read + Seek",
  "from_reader takes any R: Read + Seek. An implementation that serves a fixed content as the documentation of the traits asks for (reads deliver bytes from its position, none only at the end; seeks go where they say; failed calls leave it where it is) gets, whatever its internal state, and however it cuts reads short or fails, the result that a plain stream with the same content, position and some schedule of short counts and failures gets, and ends at the same position. So it always gets a result; if no call fails, the verdict is the specified one on its content for what its first read delivers; if the first read delivers the beginning of the content, the verdict is the one of from_bytes, unless a reader takes part that calls read only once per buffer; if all reads are served in full it is the one of from_bytes for all readers, and any two such implementations agree. Failing calls lead to the error of the first read, to the specified verdict, to arbitrary data or to plain text (only for text); a build with overflow checks panics only where C74 says.",
  "every type implementing Read + Seek with any state, every behaviour within the contract, every content, state and feature set", "quantifies over all implementations of a trait, which no test can enumerate", f"{LIB}: FileFormat::from_reader", f"{RD}: FileFormat::from_fmt_reader", f"{RD}: FileFormat::from_generic_reader")
p("C83", "BufReader around the input",
  "Wrapping the input in a BufReader makes no difference to from_reader: whatever its capacity, and however much it holds in its buffer, a BufReader over an implementation that serves reads in full and does not fail gets the verdict which that implementation gets at the same position.",
  "every implementation inside, every content, position, capacity, buffer and feature set", "quantifies over contents, capacities, buffer states and implementations", f"{LIB}: FileFormat::from_reader", f"{RD}: FileFormat::from_fmt_reader")
p("C84", "media with unreadable bytes",
  "On a medium on which some bytes, anywhere, cannot be read (a read delivers the bytes before the next bad one and fails at a bad one), detection always returns. What the unreadable bytes are cannot matter. If the first 36870 bytes can be read there is always a verdict, and it is the one on the undamaged content, whatever the unreadable bytes are, or one of the two answers of last resort: arbitrary data, or plain text (only if the content is text). Damage is never the reason of a specific wrong format. If no reader takes part, damage behind the first 36870 bytes makes no difference at all; in general, damage at positions whose bytes a detection on the undamaged content is not given makes none.",
  "every content, every set of unreadable positions, every error, feature set and largest position", "quantifies over all contents, all sets of bad positions and all values of the bytes that nobody can see", f"{LIB}: FileFormat::from_reader", f"{RD}: FileFormat::from_fmt_reader", f"{RD}: FileFormat::from_generic_reader", f"{RD}: FileFormat::from_pdf_reader")
p("C85", "no Read + Seek keeps a detection busy",
  "However a Read + Seek answers (without an end, changing while it is examined, delivering single bytes, failing, telling positions that are not its own), a detection on it makes at most a constant number of calls, plus one for each interrupted read: 2^27 without the ZIP reader and 2^47 with it. The only exception is the ID3v2 reader, when it is enabled and the first read shows an ID3v2 tag: it adds at most 20 calls per byte on an object that ends, however its content changes, and only without an end it need not stop.",
  "every lawful Read + Seek, every way of counting its calls, every build configuration and feature set", "quantifies over all implementations of Read + Seek and all their histories", f"{LIB}: FileFormat::from_reader", f"{RD}: FileFormat::from_fmt_reader", f"{RD}: FileFormat::from_generic_reader")
p("C86", "all a detection does to a Read + Seek",
  "Whatever a Read + Seek answers, a detection does nothing to it but reads for at most 65536 bytes each, seeks and questions for the position; only when the first read is recognised as ZIP and the ZIP reader is enabled are there larger reads, always for less than 4 GiB. Hence every property of the object that these calls keep holds when the detection is over.",
  "every lawful Read + Seek, every predicate on its states, every build configuration and feature set", "quantifies over all implementations of Read + Seek and all invariants of them", f"{LIB}: FileFormat::from_reader", f"{RD}: FileFormat::from_fmt_reader", f"{RD}: FileFormat::from_generic_reader")
p("C87", "detections at the same time",
  "When a file is open more than once, a detection on a handle of its own gets the verdict that it would get alone (from the start of the file, that of from_bytes on the content), whatever other threads do with their handles at the same time, other detections included, and however their calls fall between its own calls. And it leaves the handles of the others where they are.",
  "every content, every interleaving with every use of the other handles, every number of handles, position, build configuration and feature set", "quantifies over all schedules of the threads", f"{LIB}: FileFormat::from_file", f"{LIB}: FileFormat::from_reader", f"{RD}: FileFormat::from_fmt_reader")
p("C88", "only delivered bytes count",
  "A detection depends only on the bytes that the source delivers to it: two contents of the same length that agree in every byte delivered during the detection on one of them get the same result, and the detection reads the same bytes of both and leaves both at the same position. So changing a byte that was not delivered never changes the result; without readers those are all bytes from 36870 on.",
  "every pair of contents, every position, build configuration and feature set", "quantifies over all pairs of contents", f"{LIB}: FileFormat::from_bytes", f"{LIB}: FileFormat::from_reader", f"{RD}: FileFormat::from_fmt_reader")
p("C89", "content that goes on",
  "If a detection on a content does not touch its end (no read asks for more than is left, no seek goes by the end), every content that begins with it gets the same result, also while others append to the file, or change what follows, during the detection. Without readers that is so exactly from 36870 bytes on; with readers, content of 36870 bytes or more qualifies if no enabled reader is for it, or if it is an XML document or a SQLite database, and content of 65536 bytes or more if it has no magic number. So a prefix can be examined in place of the file.",
  "every content and continuation, every history of the continuation during the detection, every position, build configuration and feature set", "quantifies over all continuations and all histories of them", f"{LIB}: FileFormat::from_bytes", f"{LIB}: FileFormat::from_reader", f"{RD}: FileFormat::from_fmt_reader", f"{RD}: FileFormat::from_xml_reader", f"{RD}: FileFormat::from_sqlite3_reader")
p("C90", "random content is arbitrary binary data",
  "False positives are rare. Of all byte strings of a given length but 0, fewer than one in 2035 are reported as anything but arbitrary binary data or plain text, and from 16 bytes on fewer than one in 128143 as plain text: so all but one in 2003 are ArbitraryBinaryData, whatever readers are enabled. A format whose m magic values have at least k bytes is recognised in at most m of 256^k strings of a length. The bound is nearly reached: without readers at least one string in 2341 is reported as something. The same bounds hold for streams, whatever their calls do, and for files.",
  "every length, every set of features, every build profile, every stream and file system", "a statement about the share of all 256^n strings of every length n, which sampling can only estimate", f"{LIB}: FileFormat::from_bytes", "src/signatures.rs: signatures!", "src/macros.rs: signatures!", f"{RD}: FileFormat::from_txt_reader")
p("C91", "implementations that bring their own read_exact",
  "A type may replace the default body of Read::read_exact, as Cursor does (through which from_bytes reads). If its read_exact does what the documentation asks for (on success exactly the requested bytes from the position on; on failure the position may be anywhere), from_reader gets from it the result that a plain stream with the same content, position and some schedule of short counts and failures gives: so it always returns, with the specified verdict when no call fails, the one of from_bytes when the first read delivers the beginning and no reader takes part that calls read once per buffer, or when all reads are served in full; then bringing a read_exact makes no difference. With the one of Cursor the verdict is that of from_bytes, and the one of a BufReader passed to from_reader changes nothing on any device. Failing calls lead to the error of the first read, to the specified verdict, to arbitrary data or to plain text (only for text). Even a read_exact that breaks its contract (wrong bytes, any failure, any position afterwards) leads in a release build to no panic and to no verdict but one documented for the bytes of the first read, the error is exactly that of the first read, and detection returns unless an ID3v2 tag is followed.",
  "every type implementing Read + Seek with a read_exact of its own, any state, every content, state, feature set and build profile", "quantifies over all implementations of a trait and of a method of it, which no test can enumerate", f"{LIB}: FileFormat::from_reader", f"{RD}: FileFormat::from_fmt_reader", f"{RD}: FileFormat::from_exe_reader", f"{RD}: FileFormat::from_cfb_reader", f"{RD}: FileFormat::from_id3v2_reader")
out = os.path.join(os.path.dirname(__file__), "..", "properties.jsonl")
with open(out, "w") as f:
    for x in P: f.write(json.dumps(x, ensure_ascii=False) + "\n")
print(len(P))
