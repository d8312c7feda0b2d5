{"id": "C01", "title": "from_bytes is total", "statement": "In a build without arithmetic overflow checks (the release profile), FileFormat::from_bytes returns a format for every byte string and every set of enabled reader features: it never panics, never loops forever and has no error outcome.", "quantifier": "every byte string, every subset of the 12 reader features", "why_tests_cant": "the readers follow attacker-controlled offsets, sizes and counts; a panic or endless loop needs one specific malformed input among infinitely many", "anchors": ["src/lib.rs: FileFormat::from_bytes, FileFormat::from_reader", "src/readers.rs: all from_*_reader functions, ReadData, FindBytes"]}
{"id": "C02", "title": "no input panics in overflow-checked builds", "statement": "In a build with overflow checks (the debug profile), from_bytes does not panic on any byte string. (The code violates this: attacker-chosen 64-bit size fields overflow in the ASF, MP4 and ZIP readers.)", "quantifier": "every byte string, every feature set, overflow checks on", "why_tests_cant": "the panicking inputs are isolated 64-bit values; no corpus contains them", "anchors": ["src/readers.rs: from_asf_reader, from_mp4_reader, from_zip_reader"]}
{"id": "C03", "title": "Empty is reported exactly for empty input", "statement": "from_bytes(b) == FileFormat::Empty if and only if b has length zero, for every feature set.", "quantifier": "every byte string, every feature set", "why_tests_cant": "requires that no signature and no reader path on any non-empty input ever yields Empty", "anchors": ["src/lib.rs: FileFormat::from_reader", "src/signatures.rs: signatures!"]}
{"id": "C04", "title": "a signature verdict is backed by the format's magic bytes", "statement": "Without reader features, if from_bytes(b) returns a format other than Empty and ArbitraryBinaryData, then b contains, at the documented offsets, all parts of one of that format's magic values.", "quantifier": "every byte string", "why_tests_cant": "a false positive would be an input outside any corpus", "anchors": ["src/macros.rs: signatures!", "src/signatures.rs"]}
{"id": "C05", "title": "magic bytes are never overlooked, and the earlier-listed format wins", "statement": "If b contains one of format f's magic values, from_bytes(b) without reader features reports f or a format listed before f in the signature table which also has its magic in b; in particular ArbitraryBinaryData is never reported for an input carrying a known magic value.", "quantifier": "every byte string, every one of the 726 magic values", "why_tests_cant": "polyglot inputs carry several magics at once; the combinations cannot be enumerated", "anchors": ["src/macros.rs: signatures!", "src/signatures.rs"]}
{"id": "C06", "title": "every listed magic value is live", "statement": "For every format with a signature and every one of its alternative magic values there is an input for which that alternative decides the verdict: no entry of the table is shadowed by an earlier one. The table is ordered by decreasing longest-magic size.", "quantifier": "every format and alternative in the signature table", "why_tests_cant": "the test-suite has one or two samples per format; shadowing of the other alternatives stays invisible", "anchors": ["src/signatures.rs"]}
{"id": "C07", "title": "the first 36870 bytes determine the signature verdict", "statement": "Without reader features, from_bytes(b) equals from_bytes of the first 36870 bytes of b, for every b; and no smaller window has this property.", "quantifier": "every byte string of any length", "why_tests_cant": "an off-by-one in the window only shows on inputs with a magic at the very end of it", "anchors": ["src/lib.rs: FileFormat::from_reader (buffer size)", "src/signatures.rs: Iso9660"]}
{"id": "C08", "title": "appending data never loses a recognised signature", "statement": "Without reader features, if b is recognised as f then b followed by any bytes is recognised as f or as a format listed before f; it never falls back to ArbitraryBinaryData or Empty.", "quantifier": "every pair of byte strings", "why_tests_cant": "quantifies over all extensions of all inputs", "anchors": ["src/macros.rs: signatures!", "src/lib.rs: FileFormat::from_reader"]}
{"id": "C09", "title": "unknown content falls back to the documented default", "statement": "A non-empty input without any known magic value is reported as ArbitraryBinaryData (FileFormat::default()) when reader-txt is off, whatever the other features; with reader-txt on it is PlainText or ArbitraryBinaryData.", "quantifier": "every byte string, every feature set", "why_tests_cant": "quantifies over the complement of all magic values", "anchors": ["src/lib.rs: FileFormat::from_reader, Default", "src/readers.rs: from_generic_reader"]}
{"id": "C10", "title": "from_reader fails exactly when the first read fails", "statement": "from_reader returns Err(e) if and only if the very first read call on the stream returns Err(e); I/O errors at any later point are absorbed and a format is returned.", "quantifier": "every content, every position, every schedule of short reads, interruptions and failures, every feature set", "why_tests_cant": "needs an I/O error injected at every possible later call", "anchors": ["src/lib.rs: FileFormat::from_reader", "src/readers.rs: from_generic_reader"]}
{"id": "C11", "title": "structured readers do not depend on how the stream chunks its reads", "statement": "Once the first read has delivered the full signature window, the verdict does not depend on how many bytes each later read call returns nor on interruptions, for every input not dispatched to the PDF, SQLite or XML readers; buffering by BufReader is unobservable.", "quantifier": "every content, every schedule of short reads and EINTR, every feature set", "why_tests_cant": "the number of read schedules is unbounded", "anchors": ["src/readers.rs: from_asf_reader, from_cfb_reader, from_ebml_reader, from_exe_reader, from_id3v2_reader, from_mp4_reader, from_rm_reader, from_txt_reader, from_zip_reader, ReadData"]}
{"id": "C12", "title": "the verdict does not depend on the size of the first read", "statement": "from_reader gives the same answer for two streams with the same content whatever amount of data their first read call returns. (The code violates this: only one read call is made, and a short one hides the magic.)", "quantifier": "every content, every first-read size", "why_tests_cant": "needs a reader that returns short counts, as sockets and decompressors do", "anchors": ["src/lib.rs: FileFormat::from_reader"]}
{"id": "C13", "title": "in-memory, stream and file entry points agree", "statement": "from_bytes(b), From<&[u8]>, from_reader over any stream positioned at 0 whose reads return all requested bytes, and from_file on a file with content b all return the same format (as long as no seek leaves the range the stream supports); from_file fails exactly when opening or the first read fails.", "quantifier": "every byte string, every feature set, every file-system state", "why_tests_cant": "three entry points, all inputs", "anchors": ["src/lib.rs: from_bytes, from_file, from_reader, From<&[u8]>"]}
{"id": "C14", "title": "from_reader classifies the content from the current position", "statement": "from_reader on a stream positioned at offset p returns what from_bytes returns for the content from p on. (True without reader features; violated by every format-specific reader, because they seek to absolute offsets.)", "quantifier": "every content, every start position, every feature set", "why_tests_cant": "quantifies over positions", "anchors": ["src/lib.rs: FileFormat::from_reader", "src/readers.rs: seek(SeekFrom::Start(..)) calls"]}
{"id": "C15", "title": "a feature only affects its own base format", "statement": "Enabling a reader feature (other than reader-txt) can change the verdict on b only if b's signature verdict is that feature's base format; reader-txt can change a verdict only from ArbitraryBinaryData to PlainText.", "quantifier": "every byte string, stream and implementation of Read + Seek (whatever it does), every pair of feature sets differing in one feature", "why_tests_cant": "2^12 feature sets times all inputs; CI runs two feature sets", "anchors": ["src/readers.rs: from_fmt_reader, from_generic_reader"]}
{"id": "C16", "title": "a reader stays inside its documented family", "statement": "For every input, the verdict is the signature verdict itself, a member of the family that the crate documentation lists for the corresponding reader feature, PlainText, ArbitraryBinaryData or Empty.", "quantifier": "every byte string, every feature set", "why_tests_cant": "a stray verdict would need an unusual path through a reader", "anchors": ["src/lib.rs: crate documentation lists", "src/readers.rs: from_*_reader"]}
{"id": "C17", "title": "every documented format is detectable with its feature", "statement": "For every format the documentation lists under a reader feature, there is an input that is reported as this format when that feature alone is enabled and is not when no feature is enabled or is recognised by signature.", "quantifier": "every format of every documented family", "why_tests_cant": "the existence half is a finite table; together with C16 it makes the documented families exact", "anchors": ["src/lib.rs: crate documentation lists", "src/readers.rs"]}
{"id": "C18", "title": "reader-only formats are never reported without their feature", "statement": "If a format has no signature of its own, it is never reported unless the feature that documents it is enabled.", "quantifier": "every byte string, every feature set", "why_tests_cant": "needs all inputs for each feature set", "anchors": ["src/readers.rs: from_fmt_reader", "src/lib.rs: crate documentation lists"]}
{"id": "C19", "title": "reader errors degrade to the generic verdict", "statement": "If the format-specific reader cannot parse the input, the verdict is PlainText (reader-txt on and the input is text) or ArbitraryBinaryData; enabling a reader never yields a verdict outside that. Of the contents with the magic of a format that a reader refines, only executables and MP4 content of more than 151587081 bytes can become PlainText. Corollary (finding): enabling a reader can lose a correct signature verdict on truncated files.", "quantifier": "every byte string, every feature set", "why_tests_cant": "all truncations and corruptions of all files", "anchors": ["src/lib.rs: FileFormat::from_reader"]}
{"id": "C20", "title": "SQLite databases are Sketch exactly when the marker is present", "statement": "With reader-sqlite3, an input whose signature verdict is Sqlite3 is reported as Sketch if and only if the marker com.bohemiancoding.sketch3 occurs in bytes 100..32868; otherwise Sqlite3. The byte search neither misses nor invents an occurrence, at any alignment.", "quantifier": "every byte string with the SQLite signature", "why_tests_cant": "the search uses skip tables; bugs show only for specific overlaps of data and pattern", "anchors": ["src/readers.rs: from_sqlite3_reader, FindBytes::find"]}
{"id": "C21", "title": "PDF files are Illustrator artwork exactly when the marker is present, wherever chunk boundaries fall", "statement": "With reader-pdf, an input whose signature verdict is PortableDocumentFormat is reported as AdobeIllustratorArtwork if and only if AIPrivateData occurs within bytes 5..33554437, otherwise as PortableDocumentFormat. On streams this holds for any division of the content into non-empty reads, except that with short reads on content longer than 33554437 bytes the search may extend up to 32767 bytes further.", "quantifier": "every byte string with the PDF signature, every schedule of short reads", "why_tests_cant": "the marker can straddle any of 1024 chunk boundaries at 12 alignments, and short reads move the boundaries", "anchors": ["src/readers.rs: from_pdf_reader, FindBytes::holds"]}
{"id": "C22", "title": "XML verdicts follow the documented marker precedence", "statement": "With reader-xml, an input whose signature verdict is ExtensibleMarkupLanguage is reported as the first format in the marker list whose markers all occur in bytes 5..8197, and as ExtensibleMarkupLanguage when none does.", "quantifier": "every byte string with the XML signature", "why_tests_cant": "all combinations of markers at all positions", "anchors": ["src/readers.rs: from_xml_reader"]}
{"id": "C23", "title": "PlainText is reported exactly for text", "statement": "With reader-txt, an input without signature is PlainText if and only if the first 16 lines of its first 65536 bytes are well-formed UTF-8 without control characters other than white space.", "quantifier": "every byte string without known magic", "why_tests_cant": "quantifies over all UTF-8 strings and all malformed ones", "anchors": ["src/readers.rs: from_txt_reader"]}
{"id": "C24", "title": "every UTF-8 text is PlainText", "statement": "With reader-txt, every non-empty well-formed UTF-8 text without non-whitespace control characters and without a known magic is reported as PlainText. (Violated: when byte 65536 splits a multi-byte character inside the first 16 lines the text is reported as ArbitraryBinaryData.)", "quantifier": "every UTF-8 text", "why_tests_cant": "the failing texts have one particular alignment at 64 KiB", "anchors": ["src/readers.rs: from_txt_reader (READ_LIMIT)"]}
{"id": "C25", "title": "ZIP archives are classified by the first decisive entry of the central directory", "statement": "For every archive made of local data, a central directory and an end record with any comment (not containing the end-record magic), the verdict is that of the first of the first 1024 entries whose name is decisive, else JavaArchive if META-INF/MANIFEST.MF is among them, else Zip; independent of the local data, extra fields and comments.", "quantifier": "every list of entries (names, extra fields, comments), any archive comment, any payload", "why_tests_cant": "unbounded archives; ordering of entries matters", "anchors": ["src/readers.rs: from_zip_reader"]}
{"id": "C26", "title": "ZIP entry names are matched byte-exactly", "statement": "Whether an entry name is decisive depends on its bytes exactly as documented (equality, prefix, suffix, no slash), also for names that are not valid UTF-8: lossy decoding never creates nor hides a match.", "quantifier": "every byte string as entry name", "why_tests_cant": "quantifies over all invalid UTF-8 byte strings", "anchors": ["src/readers.rs: from_zip_reader, ReadData::read_string"]}
{"id": "C27", "title": "ZIP mimetype entries decide the OpenDocument/EPUB family", "statement": "If the first decisive entry is a stored 'mimetype' entry, the verdict is the format registered for its content with surrounding Unicode white space removed, else Zip.", "quantifier": "every archive whose first decisive entry is mimetype, every content", "why_tests_cant": "all contents, all paddings, all local header extra fields", "anchors": ["src/readers.rs: from_zip_reader"]}
{"id": "C28", "title": "MP4 verdicts reflect the handler boxes", "statement": "For every sequence of boxes with 32-bit sizes, the verdict is Mpeg4Part14Video if any of the first 256 visited boxes is a handler of type vide, else Audio if soun, else Subtitles if sbtl/subt/text, else Mpeg4Part14; other boxes' contents are irrelevant.", "quantifier": "every sequence of boxes, any payloads, any nesting of moov/trak/mdia", "why_tests_cant": "unbounded structure", "anchors": ["src/readers.rs: from_mp4_reader"]}
{"id": "C29", "title": "64-bit box sizes are equivalent to 32-bit ones", "statement": "Replacing a box's 32-bit size by the equivalent 64-bit largesize encoding does not change the MP4 verdict. (Violated: the 8 bytes of the largesize field are skipped twice.)", "quantifier": "every box sequence", "why_tests_cant": "the fixture set contains no largesize box before the tracks", "anchors": ["src/readers.rs: from_mp4_reader"]}
{"id": "C30", "title": "EBML verdicts reflect DocType, codecs and stereo mode", "statement": "For every sequence of EBML elements (any valid ID and size encodings), processing the first 256 elements up to the first Cluster: a webm DocType gives Webm, a non-matroska DocType gives ExtensibleBinaryMetaLanguage, a non-zero StereoMode gives Matroska3dVideo, whichever comes first; otherwise V_ beats A_ beats S_ codec, else ExtensibleBinaryMetaLanguage.", "quantifier": "every element sequence, all 1..8 byte size encodings, any payloads", "why_tests_cant": "unbounded structure, variable-length integers", "anchors": ["src/readers.rs: from_ebml_reader"]}
{"id": "C31", "title": "ASF verdicts reflect the header objects", "statement": "For every list of header objects: a content descriptor named 'DVR File Version' gives MicrosoftDigitalVideoRecording; otherwise a video stream gives WindowsMediaVideo, an audio stream WindowsMediaAudio, else AdvancedSystemsFormat (first 256 objects, first 32 descriptors).", "quantifier": "every header object list", "why_tests_cant": "unbounded structure with nested lists", "anchors": ["src/readers.rs: from_asf_reader"]}
{"id": "C32", "title": "RealMedia verdicts reflect the media property chunks", "statement": "For every list of chunks: video/* MIME type gives Realvideo, else audio/* gives Realaudio, else Realmedia, looking at the first min(64, declared-1) chunks.", "quantifier": "every chunk list", "why_tests_cant": "unbounded structure", "anchors": ["src/readers.rs: from_rm_reader"]}
{"id": "C33", "title": "stacked ID3v2 tags are skipped", "statement": "For every number of ID3v2 tags without extended header (any sizes, with or without footer) followed by audio data of at least 10 bytes, the verdict is FLAC if the data starts with fLaC, MP3 if it starts with an MPEG layer 3 sync word, else Id3v2.", "quantifier": "every list of tags, every payload", "why_tests_cant": "any number of stacked tags; the loop has no iteration limit", "anchors": ["src/readers.rs: from_id3v2_reader"]}
{"id": "C34", "title": "ID3v2 tags with an extended header are skipped as well", "statement": "C33 also holds for tags carrying an extended header, whose size the ID3v2 standard includes in the tag size. (Violated: the extended header size is added a second time.)", "quantifier": "every list of tags", "why_tests_cant": "no fixture has an extended header", "anchors": ["src/readers.rs: from_id3v2_reader"]}
{"id": "C35", "title": "compound files are classified by the root entry CLSID", "statement": "For an input with CFB signature of either sector size, the verdict is the one registered for the 16 CLSID bytes of the root directory entry; with an unregistered CLSID it is decided by the names of the second and third directory entries (MatOST, WksSSWorkBook).", "quantifier": "every byte string with CFB signature, every sector location", "why_tests_cant": "all sector locations and CLSIDs", "anchors": ["src/readers.rs: from_cfb_reader, ReadData::read_guid"]}
{"id": "C36", "title": "MZ executables are classified by the extended header", "statement": "For an input with MZ/ZM signature: PE signature at the offset stored at byte 60 gives DynamicLinkLibrary or PortableExecutable by the DLL characteristic; LE/LX gives LinearExecutable; NE gives NewExecutable; otherwise, or if the offset is not followed by more than 4 bytes, MsDosExecutable.", "quantifier": "every byte string with the MZ signature", "why_tests_cant": "all 32-bit header offsets", "anchors": ["src/readers.rs: from_exe_reader"]}
{"id": "C37", "title": "the number of I/O calls is bounded", "statement": "For every input the number of read and seek operations issued is bounded by a constant, except with reader-id3v2, where it is at most linear in the input length; no input makes the readers loop.", "quantifier": "every byte string, every feature set", "why_tests_cant": "worst case over all inputs", "anchors": ["src/readers.rs: *_LIMIT constants"]}
{"id": "C38", "title": "buffers requested on behalf of untrusted sizes are bounded", "statement": "For every input, no single read requests more than 65557 bytes. (Violated by the ZIP mimetype entry, whose declared size up to 4 GiB is allocated before anything is read.)", "quantifier": "every byte string, every feature set", "why_tests_cant": "worst case over all inputs", "anchors": ["src/readers.rs: ReadData::read_bytes, from_zip_reader"]}
{"id": "C39", "title": "window readers look only at their documented window", "statement": "The verdict on an input with XML, SQLite, PDF or no signature depends only on its first 36870 bytes and on the first 8197, 32868, 33554437 and 65536 bytes respectively.", "quantifier": "every pair of byte strings with a common prefix", "why_tests_cant": "quantifies over all tails", "anchors": ["src/readers.rs: from_xml_reader, from_sqlite3_reader, from_pdf_reader, from_txt_reader"]}
{"id": "C40", "title": "the metadata methods agree with the published list of formats", "statement": "name(), short_name() and kind() of every FileFormat agree with the README list of supported formats, entry by entry, and Display prints name().", "quantifier": "every format", "why_tests_cant": "finite table, but no test enumerates it", "anchors": ["src/formats.rs", "README.md", "src/macros.rs: formats!"]}
{"id": "C41", "title": "metadata is well-formed and names identify formats", "statement": "Every extension is non-empty, every media type has the form type/subtype with lower-case RFC 6838 characters, and no two formats share a name.", "quantifier": "every format / every pair of formats", "why_tests_cant": "finite table, but no test enumerates it", "anchors": ["src/formats.rs"]}
{"id": "C42", "title": "file and in-memory detection agree for every content", "statement": "from_file on a file with content b returns what from_bytes(b) returns, for every b. (Violated: when an ASF object, an MP4 box or a ZIP64 record declares a size or offset near 2^63 the seek succeeds on an in-memory cursor but fails on a file.)", "quantifier": "every content, every maximal seek offset of the file system", "why_tests_cant": "needs 63-bit declared sizes", "anchors": ["src/readers.rs: reader.seek(SeekFrom::Current(..))", "src/lib.rs: from_file"]}
{"id": "C43", "title": "GUIDs are compared by value", "statement": "The textual GUID used for CLSID and ASF object matching is the standard rendering of the 16 raw bytes, and two GUIDs render equally only if their bytes are equal.", "quantifier": "all 2^128 GUIDs", "why_tests_cant": "cannot be enumerated", "anchors": ["src/readers.rs: ReadData::read_guid"]}
{"id": "C44", "title": "the lefi example prints one aligned line per argument", "statement": "For every argument list, the example program prints exactly one line per argument up to the first unreadable file, each starting with the argument and a colon padded to the width of the longest argument.", "quantifier": "every argument list and file-system state", "why_tests_cant": "all argument lists", "anchors": ["examples/lefi.rs: main"]}
{"id": "C45", "title": "the verdict ignores bytes the classifiers skip", "statement": "Without a matching decisive element, bytes inside skipped payloads (box bodies, element bodies, chunk bodies, stored files) never change the verdict of the MP4, EBML, RM, ASF and ZIP readers.", "quantifier": "every pair of inputs that differ only in skipped payloads", "why_tests_cant": "unbounded payloads", "anchors": ["src/readers.rs"]}
{"id": "C46", "title": "a debug build panics or agrees with the release build", "statement": "For every input, a build with overflow checks either panics or returns exactly what a release build returns, having made the same calls on the stream; it never returns a different format.", "quantifier": "every stream, byte string and file, every implementation of Read + Seek whatever it does, every feature set", "why_tests_cant": "wrapped and checked arithmetic differ only on isolated 64-bit values", "anchors": ["src/readers.rs: all size arithmetic", "src/lib.rs: from_reader"]}
{"id": "C47", "title": "published magic numbers are recognised", "statement": "A file that shows the published magic number of a supported format (written down independently of the crate's table, 810 of them) is reported as that format or as a format listed before it whose magic it has, too; where the published number is distinctive, as that format whatever else the file holds. (Violated for 33 of them: the cookie of virtual hard disks is 'conectix', the table says 'connectix'; the brand of AVC images is 'avci', the table says 'avic'; others are not in the table.)", "quantifier": "every listed magic number, every content that shows it", "why_tests_cant": "ranges over everything else the file may hold", "anchors": ["src/signatures.rs"]}
{"id": "C48", "title": "media types and extensions are the registered ones and fit the kind", "statement": "media_type() and extension() of the well-known formats are the registered ones or those in common use (written down independently, 350 of them), extension() and kind() of every format are those of its sample file in the repository, the top-level media type never contradicts kind(), and every audio format has an audio media type. (Violated by eight formats: OpenXPS gets the extension xps instead of oxps, Sun XML Writer Global sgw instead of sxg; AutoCAD drawings, DXF, EPS, STL and 3MF get other media types than the registered ones.)", "quantifier": "every format", "why_tests_cant": "finite table, but no test enumerates it", "anchors": ["src/formats.rs"]}
{"id": "C49", "title": "trailing data does not take a verdict back", "statement": "Appending data to a file that a reader has refined to a specific format, without disturbing its signature, leaves the verdict as it is. (Violated by MP4 and EBML, which lose the verdict with a single trailing byte, and by XML and ZIP.)", "quantifier": "every content, every appended data, every feature set", "why_tests_cant": "ranges over all files and all trailing data", "anchors": ["src/readers.rs", "src/lib.rs: from_bytes"]}
{"id": "C50", "title": "a file that is cut off is not reported as another format", "statement": "If both a file and its beginning are recognised by the same signature, the beginning is reported as the whole file is, as the basic format of the signature, or by a fallback verdict, but never as another format. (Violated by MP4 and EBML, where the tracks seen so far decide.)", "quantifier": "every content, every cut, every feature set", "why_tests_cant": "ranges over all files and all cuts", "anchors": ["src/readers.rs", "src/lib.rs: from_bytes"]}
{"id": "C51", "title": "detection can be repeated, and reads once when no reader takes part", "statement": "On a stream that serves its calls in full, moving back to the position where detection started and detecting again returns the same verdict, whatever the first detection did to the position; nothing else of the stream's history matters. When no reader is enabled for the recognised format, and always without reader features, from_reader makes exactly one read call of 36870 bytes and no seek, and leaves the stream right behind the bytes delivered. The position is not restored.", "quantifier": "every stream, position, schedule, content and feature set", "why_tests_cant": "ranges over all streams and all histories of earlier calls", "anchors": ["src/lib.rs: from_reader"]}
{"id": "C52", "title": "the verdict does not depend on the pointer width of the target", "statement": "from_bytes, from_reader and from_file give the same outcome on targets with 32-bit pointers as on those with 64-bit ones. Sizes, counts and lengths found in the content that exceed the range of the smaller type change nothing.", "quantifier": "every content, stream, feature set and build profile, both pointer widths", "why_tests_cant": "the fields concerned have 32 to 64 bits, and tests run on 64-bit hosts", "anchors": ["src/readers.rs: from_ebml_reader, from_zip_reader, read_bytes, read_string"]}
{"id": "C53", "title": "the order of tracks and padding do not matter", "statement": "Exchanging boxes of an MP4 file at any level, the track descriptions of an EBML file, the header objects of an ASF file or the chunks of a RealMedia file, and inserting or removing parts without meaning (free boxes, Void elements, padding objects), leaves the verdict as it is, as long as the number of parts stays within the documented limits (256, 256, 256 and 64).", "quantifier": "every file of these containers, every rearrangement", "why_tests_cant": "ranges over all sequences of parts and all rearrangements", "anchors": ["src/readers.rs: from_mp4_reader, from_ebml_reader, from_asf_reader, from_rm_reader"]}
{"id": "C54", "title": "the order of the entries of a ZIP archive does not matter", "statement": "Listing the entries of a ZIP archive in another order in the central directory leaves the verdict as it is. (Violated: an Adobe AIR installer is a plain ZIP archive when its mimetype entry is listed before META-INF/AIR/application.xml.)", "quantifier": "every archive, every permutation of its entries", "why_tests_cant": "ranges over all archives and orders", "anchors": ["src/readers.rs: from_zip_reader"]}
{"id": "C55", "title": "blank content is plain text or arbitrary binary data", "statement": "Content that repeats one byte, such as a zeroed or erased file, is reported as PlainText if the byte may occur in text and reader-txt is enabled, and as ArbitraryBinaryData otherwise, whatever its length. The only exception is the sync byte of transport streams, repeated 189 times or more.", "quantifier": "every byte, every length, every feature set", "why_tests_cant": "ranges over all lengths", "anchors": ["src/lib.rs: from_bytes", "src/signatures.rs", "src/readers.rs: from_txt_reader"]}
{"id": "C56", "title": "line endings do not matter", "statement": "Converting a text file with LF line endings to CRLF or back leaves it recognised as the text format it is. (Violated: an AbiWord document with a document type declaration is recognised only with LF line endings, or only with CRLF, depending on its declaration.)", "quantifier": "every text, every text format", "why_tests_cant": "ranges over all texts", "anchors": ["src/signatures.rs", "src/readers.rs: from_txt_reader, from_xml_reader"]}
{"id": "C57", "title": "a byte order mark does not matter", "statement": "Adding a UTF-8 byte order mark to a text file that may have one, or removing it, leaves the file recognised as the format it is. (Violated by AbiWord documents with a document type declaration.)", "quantifier": "every text, every format that allows a byte order mark", "why_tests_cant": "ranges over all texts", "anchors": ["src/signatures.rs", "src/readers.rs: from_txt_reader, from_xml_reader"]}
{"id": "C58", "title": "XML documents are reported by their root element", "statement": "With reader-xml, an XML document is reported as the format its root element belongs to, and as ExtensibleMarkupLanguage if the root element belongs to none, as long as the root element starts within the first 8197 bytes. (Violated: markers are searched as beginnings of tags anywhere, so a MyBatis file with root element mapper is a Tiled map, and an SVG image with a formula is MathML.)", "quantifier": "every XML document: every prolog, root element and content", "why_tests_cant": "ranges over all documents", "anchors": ["src/readers.rs: from_xml_reader"]}
{"id": "C59", "title": "the comment and the kind of end records of a ZIP archive do not matter", "statement": "Changing the comment of a ZIP archive, or replacing its end record by ZIP64 ones, leaves the verdict as it is. (Violated: a comment that contains an end record takes over and can turn a text document into a spreadsheet.)", "quantifier": "every archive, every comment", "why_tests_cant": "ranges over all archives and comments", "anchors": ["src/readers.rs: from_zip_reader"]}
{"id": "C60", "title": "the amount of data read is bounded", "statement": "Detection asks the stream for at most 36870 bytes plus a fixed amount per enabled reader for the recognised format, plus 170 requests of 8192 bytes for plain text; only the ID3v2 reader makes more requests for longer content, and only the ZIP reader larger ones, as large as a mimetype entry declares. Without these two features less than 700 MB are requested, however large the stream. Reads that were cut short or failed count extra.", "quantifier": "every stream, configuration and feature set", "why_tests_cant": "ranges over all streams, of any length, and all schedules of short and failing reads", "anchors": ["src/lib.rs: FileFormat::from_reader", "src/readers.rs: all readers, *_LIMIT constants"]}
{"id": "C61", "title": "a reported format is backed by the content", "statement": "Whenever detection reports a format, on whatever stream, the bytes show why: the bytes of the first read carry its magic; or it is plain text, and the first lines are text; or a reader added it to the format whose magic was found, and the marker it stands for (handler box, codec element, stream GUID, CLSID, header, MIME type, archive entry, marker string) is in the content at the place the format says. Otherwise it is the default. With the ZIP reader, an archive format also needs an end of central directory record. Short, interrupted or failing calls never make up a format.", "quantifier": "every stream, configuration, feature set and format", "why_tests_cant": "ranges over all contents, also malformed ones, and all schedules of short and failing reads and seeks", "anchors": ["src/lib.rs: FileFormat::from_reader, FileFormat::from_bytes, FileFormat::from_file", "src/readers.rs: all readers", "src/signatures.rs: from_signature"]}
{"id": "C62", "title": "the verdict on every container, also a malformed one, is the one its offsets lead to", "statement": "Whatever content is recognised as MP4, EBML, ASF, RealMedia, ID3v2 or ZIP, well-formed or not: the verdict is the one that a walk over the content finds, which starts at a fixed offset, looks up types, sizes and identifiers at the offsets where the format puts them, follows the sizes (also backwards, in 64-bit arithmetic), visits no more than the limit of boxes, elements, objects, chunks or entries, and ends at a decisive one, at the limit or at the end of the content. If an offset leads out of the content or out of what the stream can be positioned to, there is no such walk, and the verdict is plain text or arbitrary data.", "quantifier": "every content, feature set and format; slices, and streams and files with short reads", "why_tests_cant": "ranges over all contents, also malformed ones", "anchors": ["src/readers.rs: from_mp4_reader, from_ebml_reader, from_asf_reader, from_rm_reader, from_id3v2_reader, from_zip_reader", "src/lib.rs: FileFormat::from_bytes, FileFormat::from_reader"]}
{"id": "C63", "title": "a file that changes while it is examined does no harm", "statement": "Detection on any implementation of Read + Seek with a position of its own, also a file that other processes change, extend or truncate between two calls, whose reads are short or interrupted and whose calls fail: it fails exactly when the first read fails, with that error; a verdict is a format documented for the bytes the first read saw (their signature verdict, a member of the family of an enabled reader for it, plain text with the text reader, or arbitrary data; empty for no bytes); in release builds it never panics, and it returns, unless an ID3v2 reader runs on a device without an end.", "quantifier": "every implementation of Read + Seek that keeps the contract of read and its own position, as a state machine; every history of contents", "why_tests_cant": "ranges over all histories of contents and outcomes of calls", "anchors": ["src/lib.rs: FileFormat::from_reader, FileFormat::from_file", "src/readers.rs: all readers"]}
{"id": "C64", "title": "no Read + Seek makes a release build panic", "statement": "In release builds detection does not panic on any implementation of Read + Seek that keeps the contract of read, not even if somebody else moves its position (as with a reference to a file that another thread uses).", "quantifier": "every implementation of Read + Seek, as a state machine", "why_tests_cant": "ranges over all interleavings with other users of the position", "anchors": ["src/lib.rs: FileFormat::from_reader", "src/readers.rs: from_asf_reader, from_ebml_reader, from_mp4_reader, from_rm_reader (stream_position on a BufReader)"]}
{"id": "C65", "title": "interruptions are retried", "statement": "A read call that answers ErrorKind::Interrupted is made again, so that interruptions do not change the outcome: a stream and the same stream without its interruptions give the same result, whatever else the stream does (short reads, failures of other kinds). (Violated: an interruption of the first call is returned to the caller, and one in the PDF, SQLite or XML reader changes the verdict.)", "quantifier": "every stream content and every schedule of short, interrupted and failing calls", "why_tests_cant": "ranges over all schedules", "anchors": ["src/lib.rs: FileFormat::from_reader", "src/readers.rs: all readers"]}
{"id": "C66", "title": "the longest magic wins", "statement": "When the content holds the magic values of several formats, the verdict (without readers) is a format with the longest of them, as the order of the table ('listed in descending order of size') is meant to ensure. (Violated by exactly 39 formats: entries are sorted by their longest alternative, so a DICOM file whose preamble starts with FF 0A is a JPEG XL image.)", "quantifier": "every content, every pair of formats", "why_tests_cant": "ranges over all contents", "anchors": ["src/signatures.rs", "src/macros.rs: signatures!"]}
{"id": "C67", "title": "a reported format shows a published magic number", "statement": "Without readers, a format other than Empty and ArbitraryBinaryData is reported only for content that shows one of the published magic numbers of the format (written down independently of the crate's table). (Violated by exactly 47 formats of which the table compares less: text that starts with 0707 is a cpio archive, a zlib stream an Apple disk image.)", "quantifier": "every content, every format", "why_tests_cant": "ranges over all contents", "anchors": ["src/signatures.rs", "src/lib.rs: FileFormat::from_bytes"]}
{"id": "C68", "title": "every magic value of the table is needed", "statement": "For every format and every one of its magic values there is content which is reported as this format (without readers) and holds no other magic value of the format, so that deleting the value from the table would change a verdict. (Violated by six values of which a beginning is listed as well: #!/usr/bin/tclsh next to #!/usr/bin/tcl, [playlist] with CR LF next to CR, ...)", "quantifier": "every format, every one of the 726 magic values", "why_tests_cant": "the absence of redundancy is a statement about all contents", "anchors": ["src/signatures.rs", "src/macros.rs: signatures!"]}
{"id": "C69", "title": "how a stream cuts its later reads does not matter", "statement": "Once the first read has delivered the signature window, the verdict does not depend on how many bytes the later read calls return. (Violated by the XML and SQLite readers, which make a single read call and look only at what it delivers: with a short second read an SVG image is an XML document and a Sketch document a SQLite database.)", "quantifier": "every content, every schedule of short reads, every feature set", "why_tests_cant": "ranges over all contents and all schedules of short reads", "anchors": ["src/readers.rs: from_xml_reader", "src/readers.rs: from_sqlite3_reader", "src/lib.rs: FileFormat::from_reader"]}
{"id": "C70", "title": "163 byte positions decide the signature verdict", "statement": "Without readers, two contents that agree at 163 fixed positions (0..58, 60..67, 72..80, 82, 102..126, 128..131, 138..141, 188, 192..199, 256..270, 323, 1080..1083, 32752..32759, 32767, 32769..32773, 34817..34821, 36865..36869) get the same verdict, whatever all their other bytes and their lengths are; and each of these positions matters: changing this one byte can change the verdict.", "quantifier": "every pair of contents; every one of the positions", "why_tests_cant": "ranges over all pairs of contents", "anchors": ["src/signatures.rs", "src/macros.rs: signatures!", "src/lib.rs: FileFormat::from_bytes"]}
{"id": "C71", "title": "width, alignment and precision apply to the displayed name", "statement": "Formatting a file format with a width, fill, alignment or precision (`format!(\"{:<20}\", f)`) gives its name padded and cut off as `std::fmt` documents for strings. (Violated: the implementation of `Display` writes the name with a placeholder of its own, which drops all options, so tables made with a width are not aligned.)", "quantifier": "every format, every fill character, alignment, width and precision, every writer", "why_tests_cant": "ranges over all widths, precisions and fill characters, and over all writers, failing ones included", "anchors": ["src/lib.rs: impl Display for FileFormat"]}
{"id": "C72", "title": "the verdict on every content is the specified one", "statement": "For every content and feature set there is exactly one verdict by the written specification, and from_bytes, from_file and from_reader report it: the format of the first magic number of the table that the content has; if an enabled feature refines that format, what its reader finds at the specified offsets or windows of the content (containers, compound files, executables, PDF, SQLite, XML, text); if the reader finds nothing, plain text or arbitrary data.", "quantifier": "every content, every feature set, every format; slices, files, and streams whose first read delivers the signature window", "why_tests_cant": "a complete specification of the function on all contents, well-formed or not", "anchors": ["src/lib.rs: FileFormat::from_bytes", "src/lib.rs: FileFormat::from_reader", "src/lib.rs: FileFormat::from_file", "src/readers.rs: from_*_reader", "src/signatures.rs: signatures!"]}
{"id": "C73", "title": "the verdict of from_reader on every stream that does not fail", "statement": "On every stream whose calls do not fail, from any position and however its reads are cut short, from_reader reports exactly one verdict, no error, and it is the specified one: the magic numbers are looked for in what the first read delivers from the current position; the refining reader looks at the content from its beginning; the XML and SQLite readers see exactly what the second read delivers and the PDF reader as many bytes as its calls add up to until they reach 32 MiB. Nothing else about the stream matters.", "quantifier": "every content, initial position, division of the reads, largest position of the stream, feature set and format", "why_tests_cant": "a complete specification over all schedules of short reads, of any length", "anchors": ["src/lib.rs: FileFormat::from_reader", "src/readers.rs: from_pdf_reader", "src/readers.rs: from_sqlite3_reader", "src/readers.rs: from_xml_reader", "src/readers.rs: from_*_reader"]}
{"id": "C74", "title": "exactly when a build with overflow checks panics", "statement": "A build with overflow checks panics exactly if the ASF, MP4 or ZIP reader is enabled, the magic number of its format is found, and its walk through the content meets a number it cannot compute with: a size of an ASF object or MP4 box between 2^63 and 2^63 plus the length of what was read of it, an end of an extended content description of 2^64 or more (26 bytes counted twice), or a ZIP64 locator with an offset of 2^64 - 32 or more. On every other content it reports the verdict of the release build, and no failure of the stream leads to a panic.", "quantifier": "every content, feature set and stream: position, division of the reads, largest position, failures", "why_tests_cant": "an equivalence over all contents; a test shows one panic or one verdict", "anchors": ["src/readers.rs: from_asf_reader", "src/readers.rs: from_mp4_reader", "src/readers.rs: from_zip_reader", "src/lib.rs: FileFormat::from_reader"]}
{"id": "C75", "title": "a failure of the stream costs the verdict, it does not change it", "statement": "Whatever calls of a stream fail, at whatever points and with whatever errors, from_reader returns the error of its first call, or what it returns on the same stream without the failures, or arbitrary binary data, or plain text (only if that reader is enabled and the content is text). It reports no other wrong format: every other format it reports is the verdict that the magic numbers and the content lead to. A failure of the stream is never the reason of a panic.", "quantifier": "every content, feature set and stream: position, division of the reads, largest position, any failures of any calls", "why_tests_cant": "it compares all runs with failures with the run without them; a test injects one failure", "anchors": ["src/lib.rs: FileFormat::from_reader", "src/readers.rs: from_fmt_reader", "src/readers.rs: from_generic_reader"]}
{"id": "C76", "title": "the verdict on targets with 32-bit pointers, specified completely", "statement": "On targets with 32-bit pointers, for every stream whose calls do not fail (and every slice and file), of whatever length, from_reader returns exactly the verdict of a specification that is that of C73 except that the length of an archive, the place of its end record, its ZIP64 number of entries and the number of bytes to read of an EBML DocType or CodecID count modulo 2^32; it panics exactly if it gets, in an archive, to a stored mimetype entry of 2^31 bytes or more whose local header is there, before an entry that decides; it returns no error and does not hang.", "quantifier": "every content, feature set and stream without failing calls: position, division of the reads, largest position", "why_tests_cant": "no content of a test suite shows that nothing else depends on the width of a pointer, and files of 4 GiB are not in test suites", "anchors": ["src/lib.rs: FileFormat::from_reader", "src/lib.rs: FileFormat::from_bytes", "src/lib.rs: FileFormat::from_file", "src/readers.rs: from_ebml_reader", "src/readers.rs: from_zip_reader", "src/readers.rs: read_bytes"]}
{"id": "C77", "title": "overflow checks on targets with 32-bit pointers", "statement": "On targets with 32-bit pointers, in a build with overflow checks, for every stream whose calls do not fail (and every slice and file): from_reader panics exactly if an enabled ASF, MP4 or ZIP reader that the magic number calls for comes to a result that does not fit into 64 bits, or if it gets to a stored mimetype entry of 2^31 bytes or more (C76); otherwise it returns exactly the verdict of C76. On every stream, with any failures, it panics or does what the build without the checks does.", "quantifier": "every content, feature set and stream: position, division of the reads, largest position; for the second part failures too", "why_tests_cant": "the panics depend on offsets near 2^63 and 2^64 at places the content chooses, and test suites are run on 64-bit targets", "anchors": ["src/lib.rs: FileFormat::from_reader", "src/lib.rs: FileFormat::from_bytes", "src/lib.rs: FileFormat::from_file", "src/readers.rs: from_zip_reader", "src/readers.rs: from_asf_reader", "src/readers.rs: from_mp4_reader"]}
{"id": "C78", "title": "readers that claim to have read more than there was room for", "statement": "from_reader is safe against a Read implementation that returns a number larger than the length of the buffer it was given. If this happens in any call of the run, the run ends in a panic, with no further call on the reader: no verdict and no error is returned. If it does not happen, the run is exactly the one on the reader cut down to the contract. Errors are returned exactly if the first read fails, with its error; a verdict is given only if the first read kept the contract, and is a format documented for its bytes.", "quantifier": "every implementation of Read and Seek as a state machine, every feature set, build profile and point of the run at which it claims too much", "why_tests_cant": "a safe trait can be implemented wrongly in unboundedly many ways and at any call; tests use readers of the standard library, which keep the contract", "anchors": ["src/lib.rs: FileFormat::from_reader", "src/readers.rs: from_pdf_reader", "src/readers.rs: from_sqlite3_reader", "src/readers.rs: from_xml_reader", "src/readers.rs: read_bytes"]}
{"id": "C79", "title": "feature unification", "statement": "Cargo builds the crate once for all dependents, with every feature that one of them names and all that these imply. The build has a reader exactly if some dependent asks for it, by its name or through reader; the order and repetition of names do not matter; default means no reader; a build is refused exactly if a dependent names an unknown feature. The unified build reports, for every content, what one of the dependents would see with its own features. (Violated in exactly one way: content that begins like an executable, cannot be parsed as one and is text is PlainText if one dependent asks for reader-exe and another for reader-txt; the first alone would see ArbitraryBinaryData, the second MsDosExecutable; likewise MP4 content of more than 151587081 bytes.)", "quantifier": "every list of dependents with any lists of features, every content, build profile", "why_tests_cant": "the combinations of features in a dependency graph are unbounded, and tests run with all features or none", "anchors": ["Cargo.toml: [features]", "src/readers.rs: from_fmt_reader", "src/readers.rs: from_generic_reader", "src/lib.rs: FileFormat::from_reader"]}
{"id": "C80", "title": "input that cannot seek", "statement": "from_reader and from_file on an input that cannot seek (a pipe, a FIFO, /dev/stdin) never fail after a successful first read, never panic, consume nothing after that read, and report the format whose magic the first read delivers. (Violated in exactly one way: if the reader of that format is enabled, its first seek fails and the verdict is ArbitraryBinaryData: a ZIP archive from a pipe is Zip for a build without reader-zip and ArbitraryBinaryData for a build with it. reader-txt has no effect on such input.)", "quantifier": "every Read + Seek whose seeks all fail, with any behaviour of its reads, every feature set and build profile", "why_tests_cant": "the tests only use files and byte slices; the outcome depends on what the first read delivers and on which of all feature sets is used", "anchors": ["src/lib.rs: FileFormat::from_reader", "src/lib.rs: FileFormat::from_file", "src/readers.rs: from_fmt_reader", "src/readers.rs: from_generic_reader"]}
{"id": "C81", "title": "Debug output identifies a format", "statement": "{:?} of a format writes one identifier in UpperCamelCase, in one call and whatever width, alignment or precision is requested. It is the name of the format in UpperCamelCase (each word with one capital, no punctuation), with a number at the beginning (3D, 3rd, 7, 8) spelled out. Different formats have different output, also if case is ignored, so Debug output, Display output and the format determine each other. The same holds for kinds and the headings of the README.", "quantifier": "every format and kind, all formatting options, every writer", "why_tests_cant": "a relation between all pairs of 447 formats and all options of formatting", "anchors": ["src/macros.rs: formats! (derive(Debug))", "src/formats.rs: format, name", "src/lib.rs: Kind"]}
{"id": "C82", "title": "user implementations of Read + Seek", "statement": "from_reader takes any R: Read + Seek. An implementation that serves a fixed content as the documentation of the traits asks for (reads deliver bytes from its position, none only at the end; seeks go where they say; failed calls leave it where it is) gets, whatever its internal state, and however it cuts reads short or fails, the result that a plain stream with the same content, position and some schedule of short counts and failures gets, and ends at the same position. So it always gets a result; if no call fails, the verdict is the specified one on its content for what its first read delivers; if the first read delivers the beginning of the content, the verdict is the one of from_bytes, unless a reader takes part that calls read only once per buffer; if all reads are served in full it is the one of from_bytes for all readers, and any two such implementations agree. Failing calls lead to the error of the first read, to the specified verdict, to arbitrary data or to plain text (only for text); a build with overflow checks panics only where C74 says.", "quantifier": "every type implementing Read + Seek with any state, every behaviour within the contract, every content, state and feature set", "why_tests_cant": "quantifies over all implementations of a trait, which no test can enumerate", "anchors": ["src/lib.rs: FileFormat::from_reader", "src/readers.rs: FileFormat::from_fmt_reader", "src/readers.rs: FileFormat::from_generic_reader"]}
{"id": "C83", "title": "BufReader around the input", "statement": "Wrapping the input in a BufReader makes no difference to from_reader: whatever its capacity, and however much it holds in its buffer, a BufReader over an implementation that serves reads in full and does not fail gets the verdict which that implementation gets at the same position.", "quantifier": "every implementation inside, every content, position, capacity, buffer and feature set", "why_tests_cant": "quantifies over contents, capacities, buffer states and implementations", "anchors": ["src/lib.rs: FileFormat::from_reader", "src/readers.rs: FileFormat::from_fmt_reader"]}
{"id": "C84", "title": "media with unreadable bytes", "statement": "On a medium on which some bytes, anywhere, cannot be read (a read delivers the bytes before the next bad one and fails at a bad one), detection always returns. What the unreadable bytes are cannot matter. If the first 36870 bytes can be read there is always a verdict, and it is the one on the undamaged content, whatever the unreadable bytes are, or one of the two answers of last resort: arbitrary data, or plain text (only if the content is text). Damage is never the reason of a specific wrong format. If no reader takes part, damage behind the first 36870 bytes makes no difference at all; in general, damage at positions whose bytes a detection on the undamaged content is not given makes none.", "quantifier": "every content, every set of unreadable positions, every error, feature set and largest position", "why_tests_cant": "quantifies over all contents, all sets of bad positions and all values of the bytes that nobody can see", "anchors": ["src/lib.rs: FileFormat::from_reader", "src/readers.rs: FileFormat::from_fmt_reader", "src/readers.rs: FileFormat::from_generic_reader", "src/readers.rs: FileFormat::from_pdf_reader"]}
{"id": "C85", "title": "no Read + Seek keeps a detection busy", "statement": "However a Read + Seek answers (without an end, changing while it is examined, delivering single bytes, failing, telling positions that are not its own), a detection on it makes at most a constant number of calls, plus one for each interrupted read: 2^27 without the ZIP reader and 2^47 with it. The only exception is the ID3v2 reader, when it is enabled and the first read shows an ID3v2 tag: it adds at most 20 calls per byte on an object that ends, however its content changes, and only without an end it need not stop.", "quantifier": "every lawful Read + Seek, every way of counting its calls, every build configuration and feature set", "why_tests_cant": "quantifies over all implementations of Read + Seek and all their histories", "anchors": ["src/lib.rs: FileFormat::from_reader", "src/readers.rs: FileFormat::from_fmt_reader", "src/readers.rs: FileFormat::from_generic_reader"]}
{"id": "C86", "title": "all a detection does to a Read + Seek", "statement": "Whatever a Read + Seek answers, a detection does nothing to it but reads for at most 65536 bytes each, seeks and questions for the position; only when the first read is recognised as ZIP and the ZIP reader is enabled are there larger reads, always for less than 4 GiB. Hence every property of the object that these calls keep holds when the detection is over.", "quantifier": "every lawful Read + Seek, every predicate on its states, every build configuration and feature set", "why_tests_cant": "quantifies over all implementations of Read + Seek and all invariants of them", "anchors": ["src/lib.rs: FileFormat::from_reader", "src/readers.rs: FileFormat::from_fmt_reader", "src/readers.rs: FileFormat::from_generic_reader"]}
{"id": "C87", "title": "detections at the same time", "statement": "When a file is open more than once, a detection on a handle of its own gets the verdict that it would get alone (from the start of the file, that of from_bytes on the content), whatever other threads do with their handles at the same time, other detections included, and however their calls fall between its own calls. And it leaves the handles of the others where they are.", "quantifier": "every content, every interleaving with every use of the other handles, every number of handles, position, build configuration and feature set", "why_tests_cant": "quantifies over all schedules of the threads", "anchors": ["src/lib.rs: FileFormat::from_file", "src/lib.rs: FileFormat::from_reader", "src/readers.rs: FileFormat::from_fmt_reader"]}
{"id": "C88", "title": "only delivered bytes count", "statement": "A detection depends only on the bytes that the source delivers to it: two contents of the same length that agree in every byte delivered during the detection on one of them get the same result, and the detection reads the same bytes of both and leaves both at the same position. So changing a byte that was not delivered never changes the result; without readers those are all bytes from 36870 on.", "quantifier": "every pair of contents, every position, build configuration and feature set", "why_tests_cant": "quantifies over all pairs of contents", "anchors": ["src/lib.rs: FileFormat::from_bytes", "src/lib.rs: FileFormat::from_reader", "src/readers.rs: FileFormat::from_fmt_reader"]}
{"id": "C89", "title": "content that goes on", "statement": "If a detection on a content does not touch its end (no read asks for more than is left, no seek goes by the end), every content that begins with it gets the same result, also while others append to the file, or change what follows, during the detection. Without readers that is so exactly from 36870 bytes on; with readers, content of 36870 bytes or more qualifies if no enabled reader is for it, or if it is an XML document or a SQLite database, and content of 65536 bytes or more if it has no magic number. So a prefix can be examined in place of the file.", "quantifier": "every content and continuation, every history of the continuation during the detection, every position, build configuration and feature set", "why_tests_cant": "quantifies over all continuations and all histories of them", "anchors": ["src/lib.rs: FileFormat::from_bytes", "src/lib.rs: FileFormat::from_reader", "src/readers.rs: FileFormat::from_fmt_reader", "src/readers.rs: FileFormat::from_xml_reader", "src/readers.rs: FileFormat::from_sqlite3_reader"]}
{"id": "C90", "title": "random content is arbitrary binary data", "statement": "False positives are rare. Of all byte strings of a given length but 0, fewer than one in 2035 are reported as anything but arbitrary binary data or plain text, and from 16 bytes on fewer than one in 128143 as plain text: so all but one in 2003 are ArbitraryBinaryData, whatever readers are enabled. A format whose m magic values have at least k bytes is recognised in at most m of 256^k strings of a length. The bound is nearly reached: without readers at least one string in 2341 is reported as something. The same bounds hold for streams, whatever their calls do, and for files.", "quantifier": "every length, every set of features, every build profile, every stream and file system", "why_tests_cant": "a statement about the share of all 256^n strings of every length n, which sampling can only estimate", "anchors": ["src/lib.rs: FileFormat::from_bytes", "src/signatures.rs: signatures!", "src/macros.rs: signatures!", "src/readers.rs: FileFormat::from_txt_reader"]}
{"id": "C91", "title": "implementations that bring their own read_exact", "statement": "A type may replace the default body of Read::read_exact, as Cursor does (through which from_bytes reads). If its read_exact does what the documentation asks for (on success exactly the requested bytes from the position on; on failure the position may be anywhere), from_reader gets from it the result that a plain stream with the same content, position and some schedule of short counts and failures gives: so it always returns, with the specified verdict when no call fails, the one of from_bytes when the first read delivers the beginning and no reader takes part that calls read once per buffer, or when all reads are served in full; then bringing a read_exact makes no difference. With the one of Cursor the verdict is that of from_bytes, and the one of a BufReader passed to from_reader changes nothing on any device. Failing calls lead to the error of the first read, to the specified verdict, to arbitrary data or to plain text (only for text). Even a read_exact that breaks its contract (wrong bytes, any failure, any position afterwards) leads in a release build to no panic and to no verdict but one documented for the bytes of the first read, the error is exactly that of the first read, and detection returns unless an ID3v2 tag is followed.", "quantifier": "every type implementing Read + Seek with a read_exact of its own, any state, every content, state, feature set and build profile", "why_tests_cant": "quantifies over all implementations of a trait and of a method of it, which no test can enumerate", "anchors": ["src/lib.rs: FileFormat::from_reader", "src/readers.rs: FileFormat::from_fmt_reader", "src/readers.rs: FileFormat::from_exe_reader", "src/readers.rs: FileFormat::from_cfb_reader", "src/readers.rs: FileFormat::from_id3v2_reader"]}
