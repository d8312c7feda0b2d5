notes.update({
 "C12":("partial","The code violates the full statement (C12_fails). Proved: the verdict does not depend on the first read once it delivers the signature window, more precisely once the delivered bytes are recognised as the same format (C12_same_signature_partial), and without readers once they decide the signature (C12_no_reader_partial)."),
 "C14":("partial","The code violates the full statement (C14_fails). Proved for builds without reader features, and for all builds when the first read is recognised as the whole content is (C14_same_signature_partial)."),
 "C42":("partial","The code violates the full statement (C42_fails). Proved: they agree for every content below 2^62 bytes whose ASF object sizes, MP4 box sizes and ZIP64 offsets, where detection meets them, are below 2^62 (C42_modest_partial); for the rest the file verdict is the one in memory or the fallback (C42_or_fallback_partial)."),
})

notes.update({
 "C24":("partial","The code violates the full statement (C24_fails: a text of 65537 bytes whose byte 65536 splits a character). Proved: the exact condition under which a text is reported (C24_exact), in particular all texts of at most 65536 bytes (C24_text_partial)."),
})

notes.update({
 "C29":("partial","The code violates the full statement (C29_fails: the reader skips a box with a 64-bit size eight bytes too far). Proved: the encoding of the sizes of the containers (C29_containers_partial) and of the last box (C29_last_partial) does not matter, and for all boxes the deviation is exactly these eight bytes (C29_stray_partial)."),
 "C34":("partial","The code violates the full statement (C34_fails: the size of the extended header, which the tag size includes, is skipped a second time). Proved: tags with an extended header are read as if that much more had to be skipped."),
})

notes.update({
 "C38":("partial","The code violates the full statement (C38_fails: a ZIP file of 114 bytes makes it allocate and request 4294967295 bytes). Proved without reader-zip; with it, a request exceeds 65557 bytes only where an entry named mimetype declares at least that size (C38_cause_partial, C38_bounded_partial), so requests stay below 4 GiB."),
})

notes.update({
 "C47":("partial","The code violates the full statement (C47_fails, C47_missed: virtual hard disks, the HEIF brand avci and others, 33 in all; raw images of Nikon in big-endian order are told to be TIFF, C47_big_endian_raw). Proved for all other published magic numbers (C47_recognised_partial)."),
})

notes.update({
 "C49":("partial","The code violates the full statement (C49_fails, C49_mp4_loses, C49_ebml_loses, C49_xml_changes, C49_zip_changes). Proved for EBML behind a cluster or a settling element, MP4 with a last box of size 0, ZIP files that keep their end records, XML beyond the window, ASF, compound files, ID3v2, RealMedia (any verdict), executables, PDF and SQLite (refined verdicts)."),
})

notes.update({
 "C50":("partial","The code violates the full statement (C50_fails: a film cut off between its audio and its video track is an audio file). Proved for ASF, compound files, executables, ID3v2, PDF, RealMedia and SQLite, for MP4 and EBML files cut off within their last box or element or behind the decisive one (C50_mp4_partial, C50_ebml_partial, C50_ebml_last_partial), for ZIP archives that lose their end record (C50_zip_partial) and for XML up to the order of precedence (C50_xml_partial)."),
})

notes.update({
 "C52":("partial","The code violates the full statement (C52_fails, C52_zip_panics: a ZIP file of 114 bytes makes 32-bit builds panic; C52_ebml_differs, C52_zip64_differs, C52_large_archive: other verdicts). Proved when the size and count fields of EBML and ZIP content are in range (C52_same_partial; C52_stream_partial and C52_file_partial: the same calls and final state even on failing streams), and unconditionally for all other formats (C52_other_formats). The exact 32-bit verdicts and panics: C76, C77."),
})

notes.update({
 "C54":("partial","The code violates the full statement (C54_fails: an Adobe AIR installer with its mimetype entry first). Proved: only the order of the decisive entries matters (C54_order_partial)."),
 "C56":("partial","The code violates the full statement (C56_fails: AbiWord documents with a document type declaration). Proved for all other texts of the text formats (C56_to_crlf_partial, C56_to_lf_partial, C56_same_partial), for what reader-xml says about documents that fit its window (C56_xml), and for plain text within its window (C56_plain)."),
 "C57":("partial","The code violates the full statement (C57_fails: AbiWord documents with a document type declaration). Proved for all other texts of the formats that allow a mark (C57_add_partial, C57_remove_partial, C57_same_partial), for what reader-xml says about documents that fit its window (C57_xml), and for plain text within its window (C57_plain)."),
})

notes.update({
 "C58":("partial","The code violates the full statement (C58_fails, C58_embedded). Proved: a document with a known root element is reported as its format or as a format of higher precedence whose markers it shows (C58_known_partial, C58_alone_partial); one is reported as XML exactly if it shows no marker (C58_unknown_partial)."),
 "C64":("partial","The code violates the full statement (C64_fails): BufReader::stream_position panics when the position of the wrapped stream is smaller than the number of buffered bytes. Proved unless the first read shows ASF, EBML, MP4 or RealMedia with the reader enabled (C64_no_panic_partial); each of these four does panic (C64_all_four)."),
 "C65":("partial","The code violates the full statement (C65_fails, C65_interrupted_readers): from_reader passes an interruption of its single first read on, and the PDF, SQLite and XML readers use a bare read. Proved for every other case, on every schedule, also with failures (C65_interruptions_retried_partial)."),
 "C66":("partial","The code violates the full statement (C66_fails: 2-byte JPEG XL magic hides the 4-byte DICOM magic). Proved: no magic in the content is longer than the longest magic of the verdict's format (C66_longest_partial), and the full statement whenever the magics of the verdict's format all have one size (C66_one_size_partial), as is the case for 283 of the 343 entries (C66_most_formats). Exactly: it holds for every verdict but those of the 39 formats of shortMagicFirst (C66_all_but_39_partial), and each of these 39 violates it (C66_short)."),
 "C67":("partial","The code violates the full statement (C67_fails, C67_zlib, C67_loose: for each of the 47 formats). Proved for all formats but the 47 of looselyRecognised, i.e. for 296 of the 343 formats with a magic (C67_shows_partial, C67_most_formats)."),
 "C68":("partial","The code violates the full statement (C68_fails): six of the 726 values are covered by a shorter value of the same format (C68_covered). Proved for the other 720 (C68_needed_partial)."),
 "C59":("partial","The code violates the full statement (C59_fails). Proved for comments in which the magic of an end record does not occur (C59_comment_partial, C59_zip64_partial)."),
 "C69":("partial","The code violates the full statement (C69_fails, C69_sqlite3_loses). Proved: for XML and SQLite the exact verdict, the one on the content up to the end of what the second read delivers (C69_xml_partial, C69_sqlite3_partial), so the one in memory if the second read is served in full (C69_second_full_partial). All other formats: C11, and C21_artwork_stream for PDF."),
 "C71":("partial","The code violates the full statement (C71_fails; C71_width_ignored_partial: for every width beyond the length of the name). Proved: exactly what is written with any options to any writer, the plain name in one call (C71_plain_partial), which is as documented if the name fits (C71_fits_partial). C71_pad: the model of Formatter::pad, which an implementation with f.pad would use, meets the specification."),
 "C76":("proved","release profile; allocations below 2^31 bytes are assumed to succeed"),
 "C77":("proved","allocations below 2^31 bytes are assumed to succeed"),
 "C78":("proved","the checks are those of indexing, split_at_mut and the assertion in BorrowedCursor::advance; documented verdicts are for readers with a position of their own, or without the readers that ask for it (C64)"),
 "C48":("partial","The code violates the statement for the eight formats of Spec/Registered3.lean (C48_fails, C48_deviations). Proved: media type and extension of the other 342 (C48_registered_partial); sample files, kinds and audio types for all 447."),
 "C79":("partial","The code violates the full statement (C79_fails). Proved: everything about which readers a build has, and that the exception named in the statement is the only one (C79_verdict_partial, with C19_text_only_from_two)."),
 "C80":("partial","The code violates the full statement (C80_fails). Proved: the exact verdict on every such input (C80_verdict), the statement when no reader is enabled for the format (C80_signature_partial), the loss otherwise (C80_spoilt)."),
 "C83":("partial","Does not hold (C83_fails): from_reader makes one read call, which a BufReader that holds anything serves from its buffer, so after fill_buf (or seek_relative) at the start of an ISO image only 8 KiB are searched for magic numbers and the result is arbitrary data. Proved: the exact verdict for every buffer state (C83_verdict_partial); no difference if the buffer is empty (C83_fresh_partial), after any successful seek (C83_seek_partial), if the buffer holds all that follows (C83_all_buffered_partial) or is recognised as what follows is (C83_leftover_partial); builds with overflow checks: when they panic (C83_panics_iff), and a new BufReader (C83_fresh_checked_partial). These exclude documents of more than 32 MiB in a BufReader of more than 32 KiB with the PDF reader, which can see a few KiB beyond its limit."),
})
