{
 "claims": [
  {
   "property": "C01",
   "status": "proved",
   "theorems": [
    "C01_from_bytes_total",
    "C01_from_reader_total",
    "C01_from_file_total"
   ],
   "note": ""
  },
  {
   "property": "C02",
   "status": "partial",
   "theorems": [
    "C02_modest_partial",
    "C02_stream_modest_partial",
    "C02_file_modest_partial",
    "C02_asf_panics",
    "C02_mp4_panics",
    "C02_zip_panics",
    "C02_fails",
    "C02_no_panic_partial"
   ],
   "note": "The code violates the full statement (C02_fails, with one panic witness per reader: ASF, MP4, ZIP). Proved: no panic, and the release verdict, for every content below 2^62 bytes whose ASF object sizes, MP4 box sizes and ZIP64 offsets, where detection meets them, are below 2^62 (C02_modest_partial; on every stream and file, with the same calls: C02_stream_modest_partial, C02_file_modest_partial); no panic whenever those three readers are not run (C02_no_panic_partial). The exact condition for a panic: C74."
  },
  {
   "property": "C03",
   "status": "proved",
   "theorems": [
    "C03_empty_iff"
   ],
   "note": ""
  },
  {
   "property": "C04",
   "status": "proved",
   "theorems": [
    "C04_sound"
   ],
   "note": ""
  },
  {
   "property": "C05",
   "status": "proved",
   "theorems": [
    "C05_complete",
    "C05_order_strict"
   ],
   "note": ""
  },
  {
   "property": "C06",
   "status": "proved",
   "theorems": [
    "C06_live",
    "C06_sorted"
   ],
   "note": ""
  },
  {
   "property": "C07",
   "status": "proved",
   "theorems": [
    "C07_window",
    "C07_tight"
   ],
   "note": ""
  },
  {
   "property": "C08",
   "status": "proved",
   "theorems": [
    "C08_append"
   ],
   "note": ""
  },
  {
   "property": "C09",
   "status": "proved",
   "theorems": [
    "C09_default",
    "C09_default_txt"
   ],
   "note": ""
  },
  {
   "property": "C10",
   "status": "proved",
   "theorems": [
    "C10_error_iff",
    "C10_error_iff_event"
   ],
   "note": ""
  },
  {
   "property": "C11",
   "status": "proved",
   "theorems": [
    "C11_schedule_independent",
    "C11_as_from_bytes"
   ],
   "note": ""
  },
  {
   "property": "C12",
   "status": "partial",
   "theorems": [
    "C12_same_signature_partial",
    "C12_no_reader_partial",
    "C12_fails",
    "C12_xml_short_read",
    "C12_first_read_partial"
   ],
   "note": "The code violates the full statement (C12_fails). Proved: the verdict does not depend on the first read once it delivers the signature window, more precisely once the delivered bytes are recognised as the same format (C12_same_signature_partial), and without readers once they decide the signature (C12_no_reader_partial)."
  },
  {
   "property": "C13",
   "status": "proved",
   "theorems": [
    "C13_entry_points_agree",
    "C13_or_fallback",
    "C13_from_file_error"
   ],
   "note": ""
  },
  {
   "property": "C14",
   "status": "partial",
   "theorems": [
    "C14_same_signature_partial",
    "C14_fails",
    "C14_current_position_partial"
   ],
   "note": "The code violates the full statement (C14_fails). Proved for builds without reader features, and for all builds when the first read is recognised as the whole content is (C14_same_signature_partial)."
  },
  {
   "property": "C15",
   "status": "proved",
   "theorems": [
    "C15_own_base_only",
    "C15_own_base_only_stream",
    "C15_txt_only_from_default",
    "C15_two_switches",
    "C15_two_switches_stream",
    "C15_no_switch",
    "C15_two_switches_device",
    "C15_own_base_only_device",
    "C15_txt_only_from_default_device"
   ],
   "note": ""
  },
  {
   "property": "C16",
   "status": "proved",
   "theorems": [
    "C16_documented",
    "C16_documented_stream"
   ],
   "note": ""
  },
  {
   "property": "C17",
   "status": "proved",
   "theorems": [
    "C17_detectable"
   ],
   "note": ""
  },
  {
   "property": "C18",
   "status": "proved",
   "theorems": [
    "C18_needs_feature",
    "C18_needs_feature_stream"
   ],
   "note": ""
  },
  {
   "property": "C19",
   "status": "proved",
   "theorems": [
    "C19_text_only_from_two",
    "C19_exe_becomes_text",
    "C19_mp4_becomes_text",
    "C19_degrades",
    "C19_loses_signature_verdict"
   ],
   "note": ""
  },
  {
   "property": "C20",
   "status": "proved",
   "theorems": [
    "C20_sketch"
   ],
   "note": ""
  },
  {
   "property": "C21",
   "status": "proved",
   "theorems": [
    "C21_artwork",
    "C21_artwork_stream"
   ],
   "note": ""
  },
  {
   "property": "C22",
   "status": "proved",
   "theorems": [
    "C22_xml"
   ],
   "note": ""
  },
  {
   "property": "C23",
   "status": "proved",
   "theorems": [
    "C23_text_iff"
   ],
   "note": ""
  },
  {
   "property": "C24",
   "status": "partial",
   "theorems": [
    "C24_exact",
    "C24_text_partial",
    "C24_fails"
   ],
   "note": "The code violates the full statement (C24_fails: a text of 65537 bytes whose byte 65536 splits a character). Proved: the exact condition under which a text is reported (C24_exact), in particular all texts of at most 65536 bytes (C24_text_partial)."
  },
  {
   "property": "C25",
   "status": "proved",
   "theorems": [
    "C25_first_decisive_entry"
   ],
   "note": ""
  },
  {
   "property": "C26",
   "status": "proved",
   "theorems": [
    "C26_name_bytes",
    "C26_rules_exclusive"
   ],
   "note": ""
  },
  {
   "property": "C27",
   "status": "proved",
   "theorems": [
    "C27_mimetype",
    "C27_contents_exclusive"
   ],
   "note": ""
  },
  {
   "property": "C28",
   "status": "proved",
   "theorems": [
    "C28_handlers"
   ],
   "note": ""
  },
  {
   "property": "C29",
   "status": "partial",
   "theorems": [
    "C29_fails",
    "C29_containers_partial",
    "C29_last_partial",
    "C29_stray_partial"
   ],
   "note": "The code violates the full statement (C29_fails: the reader skips a box with a 64-bit size eight bytes too far). Proved: the encoding of the sizes of the containers (C29_containers_partial) and of the last box (C29_last_partial) does not matter, and for all boxes the deviation is exactly these eight bytes (C29_stray_partial)."
  },
  {
   "property": "C30",
   "status": "proved",
   "theorems": [
    "C30_elements",
    "C30_wide_stereoMode"
   ],
   "note": ""
  },
  {
   "property": "C31",
   "status": "proved",
   "theorems": [
    "C31_header_objects"
   ],
   "note": ""
  },
  {
   "property": "C32",
   "status": "proved",
   "theorems": [
    "C32_realmedia"
   ],
   "note": ""
  },
  {
   "property": "C33",
   "status": "proved",
   "theorems": [
    "C33_stacked_tags",
    "C33_short_audio",
    "C33_tags_only"
   ],
   "note": ""
  },
  {
   "property": "C34",
   "status": "partial",
   "theorems": [
    "C34_fails",
    "C34_extended_header_partial"
   ],
   "note": "The code violates the full statement (C34_fails: the size of the extended header, which the tag size includes, is skipped a second time). Proved: tags with an extended header are read as if that much more had to be skipped."
  },
  {
   "property": "C35",
   "status": "proved",
   "theorems": [
    "C35_compound_files"
   ],
   "note": ""
  },
  {
   "property": "C36",
   "status": "proved",
   "theorems": [
    "C36_executables"
   ],
   "note": ""
  },
  {
   "property": "C37",
   "status": "proved",
   "theorems": [
    "C37_calls",
    "C37_chopped"
   ],
   "note": ""
  },
  {
   "property": "C38",
   "status": "partial",
   "theorems": [
    "C38_requests_partial",
    "C38_all_requests_partial",
    "C38_fails",
    "C38_bounded_partial",
    "C38_cause_partial"
   ],
   "note": "The code violates the full statement (C38_fails: a ZIP file of 114 bytes makes it allocate and request 4294967295 bytes). Proved without reader-zip; with it, a request exceeds 65557 bytes only where an entry named mimetype declares at least that size (C38_cause_partial, C38_bounded_partial), so requests stay below 4 GiB."
  },
  {
   "property": "C39",
   "status": "proved",
   "theorems": [
    "C39_xml",
    "C39_sqlite3",
    "C39_pdf",
    "C39_unknown",
    "C39_windows"
   ],
   "note": ""
  },
  {
   "property": "C40",
   "status": "proved",
   "theorems": [
    "C40_listed",
    "C40_no_others",
    "C40_display"
   ],
   "note": ""
  },
  {
   "property": "C41",
   "status": "proved",
   "theorems": [
    "C41_media_type",
    "C41_extension",
    "C41_names_unique"
   ],
   "note": ""
  },
  {
   "property": "C42",
   "status": "partial",
   "theorems": [
    "C42_modest_partial",
    "C42_fails",
    "C42_or_fallback_partial"
   ],
   "note": "The code violates the full statement (C42_fails). Proved: they agree for every content below 2^62 bytes whose ASF object sizes, MP4 box sizes and ZIP64 offsets, where detection meets them, are below 2^62 (C42_modest_partial); for the rest the file verdict is the one in memory or the fallback (C42_or_fallback_partial)."
  },
  {
   "property": "C43",
   "status": "proved",
   "theorems": [
    "C43_guid_text",
    "C43_guid_faithful"
   ],
   "note": ""
  },
  {
   "property": "C44",
   "status": "proved",
   "theorems": [
    "C44_output",
    "C44_not_unicode",
    "C44_too_long",
    "C44_one_line"
   ],
   "note": ""
  },
  {
   "property": "C45",
   "status": "proved",
   "theorems": [
    "C45_mp4",
    "C45_ebml",
    "C45_asf",
    "C45_realmedia",
    "C45_zip"
   ],
   "note": ""
  },
  {
   "property": "C46",
   "status": "proved",
   "theorems": [
    "C46_stream",
    "C46_bytes",
    "C46_file",
    "C46_verdict",
    "C46_device",
    "C46_claims"
   ],
   "note": ""
  },
  {
   "property": "C47",
   "status": "partial",
   "theorems": [
    "C47_fails",
    "C47_missed",
    "C47_big_endian_raw",
    "C47_recognised_partial",
    "C47_distinct"
   ],
   "note": "The code violates the full statement (C47_fails, C47_missed: virtual hard disks, the HEIF brand avci and others, 33 in all; raw images of Nikon in big-endian order are told to be TIFF, C47_big_endian_raw). Proved for all other published magic numbers (C47_recognised_partial)."
  },
  {
   "property": "C48",
   "status": "partial",
   "theorems": [
    "C48_fails",
    "C48_registered_partial",
    "C48_deviations",
    "C48_sample_files",
    "C48_top_level",
    "C48_audio"
   ],
   "note": "The code violates the statement for the eight formats of Spec/Registered3.lean (C48_fails, C48_deviations). Proved: media type and extension of the other 342 (C48_registered_partial); sample files, kinds and audio types for all 447."
  },
  {
   "property": "C49",
   "status": "partial",
   "theorems": [
    "C49_mp4_loses",
    "C49_ebml_loses",
    "C49_xml_changes",
    "C49_zip_changes",
    "C49_fails",
    "C49_any_verdict_partial",
    "C49_refined_partial",
    "C49_ebml_partial",
    "C49_mp4_partial",
    "C49_xml_partial",
    "C49_zip_partial"
   ],
   "note": "The code violates the full statement (C49_fails, C49_mp4_loses, C49_ebml_loses, C49_xml_changes, C49_zip_changes). Proved for EBML behind a cluster or a settling element, MP4 with a last box of size 0, ZIP files that keep their end records, XML beyond the window, ASF, compound files, ID3v2, RealMedia (any verdict), executables, PDF and SQLite (refined verdicts)."
  },
  {
   "property": "C50",
   "status": "partial",
   "theorems": [
    "C50_fails",
    "C50_cut_off_partial",
    "C50_same_or_fallback_partial",
    "C50_mp4_partial",
    "C50_ebml_partial",
    "C50_ebml_last_partial",
    "C50_xml_partial",
    "C50_zip_partial"
   ],
   "note": "The code violates the full statement (C50_fails: a film cut off between its audio and its video track is an audio file). Proved for ASF, compound files, executables, ID3v2, PDF, RealMedia and SQLite, for MP4 and EBML files cut off within their last box or element or behind the decisive one (C50_mp4_partial, C50_ebml_partial, C50_ebml_last_partial), for ZIP archives that lose their end record (C50_zip_partial) and for XML up to the order of precedence (C50_xml_partial)."
  },
  {
   "property": "C51",
   "status": "proved",
   "theorems": [
    "C51_repeat",
    "C51_no_history",
    "C51_single_read",
    "C51_default_one_read",
    "C51_not_restored"
   ],
   "note": ""
  },
  {
   "property": "C52",
   "status": "partial",
   "theorems": [
    "C52_zip_panics",
    "C52_ebml_differs",
    "C52_zip64_differs",
    "C52_fails",
    "C52_same_partial",
    "C52_stream_partial",
    "C52_file_partial",
    "C52_other_formats",
    "C52_large_archive",
    "C52_large_example"
   ],
   "note": "The code violates the full statement (C52_fails, C52_zip_panics: a ZIP file of 114 bytes makes 32-bit builds panic; C52_ebml_differs, C52_zip64_differs, C52_large_archive: other verdicts). Proved when the size and count fields of EBML and ZIP content are in range (C52_same_partial; C52_stream_partial and C52_file_partial: the same calls and final state even on failing streams), and unconditionally for all other formats (C52_other_formats). The exact 32-bit verdicts and panics: C76, C77."
  },
  {
   "property": "C53",
   "status": "proved",
   "theorems": [
    "C53_mp4",
    "C53_ebml",
    "C53_asf",
    "C53_realmedia"
   ],
   "note": ""
  },
  {
   "property": "C54",
   "status": "partial",
   "theorems": [
    "C54_order_partial",
    "C54_fails"
   ],
   "note": "The code violates the full statement (C54_fails: an Adobe AIR installer with its mimetype entry first). Proved: only the order of the decisive entries matters (C54_order_partial)."
  },
  {
   "property": "C55",
   "status": "proved",
   "theorems": [
    "C55_blank",
    "C55_sync"
   ],
   "note": ""
  },
  {
   "property": "C56",
   "status": "partial",
   "theorems": [
    "C56_to_crlf_partial",
    "C56_to_lf_partial",
    "C56_same_partial",
    "C56_fails",
    "C56_plain",
    "C56_xml"
   ],
   "note": "The code violates the full statement (C56_fails: AbiWord documents with a document type declaration). Proved for all other texts of the text formats (C56_to_crlf_partial, C56_to_lf_partial, C56_same_partial), for what reader-xml says about documents that fit its window (C56_xml), and for plain text within its window (C56_plain)."
  },
  {
   "property": "C57",
   "status": "partial",
   "theorems": [
    "C57_add_partial",
    "C57_remove_partial",
    "C57_same_partial",
    "C57_fails",
    "C57_xml",
    "C57_plain"
   ],
   "note": "The code violates the full statement (C57_fails: AbiWord documents with a document type declaration). Proved for all other texts of the formats that allow a mark (C57_add_partial, C57_remove_partial, C57_same_partial), for what reader-xml says about documents that fit its window (C57_xml), and for plain text within its window (C57_plain)."
  },
  {
   "property": "C58",
   "status": "partial",
   "theorems": [
    "C58_fails",
    "C58_embedded",
    "C58_known_partial",
    "C58_alone_partial",
    "C58_unknown_partial"
   ],
   "note": "The code violates the full statement (C58_fails, C58_embedded). Proved: a document with a known root element is reported as its format or as a format of higher precedence whose markers it shows (C58_known_partial, C58_alone_partial); one is reported as XML exactly if it shows no marker (C58_unknown_partial)."
  },
  {
   "property": "C59",
   "status": "partial",
   "theorems": [
    "C59_fails",
    "C59_comment_partial",
    "C59_zip64_partial"
   ],
   "note": "The code violates the full statement (C59_fails). Proved for comments in which the magic of an end record does not occur (C59_comment_partial, C59_zip64_partial)."
  },
  {
   "property": "C60",
   "status": "proved",
   "theorems": [
    "C60_volume",
    "C60_constant",
    "C60_minimal"
   ],
   "note": ""
  },
  {
   "property": "C61",
   "status": "proved",
   "theorems": [
    "C61_evidence",
    "C61_from_bytes",
    "C61_from_file",
    "C61_zip_end"
   ],
   "note": ""
  },
  {
   "property": "C62",
   "status": "proved",
   "theorems": [
    "C62_mp4",
    "C62_ebml",
    "C62_asf",
    "C62_rm",
    "C62_id3v2",
    "C62_zip",
    "C62_mp4_stream",
    "C62_ebml_stream",
    "C62_asf_stream",
    "C62_rm_stream",
    "C62_id3v2_stream",
    "C62_zip_stream"
   ],
   "note": ""
  },
  {
   "property": "C63",
   "status": "proved",
   "theorems": [
    "C63_fixed_content",
    "C63_error_iff",
    "C63_documented",
    "C63_no_panic",
    "C63_returns_unless_id3v2",
    "C63_returns",
    "C63_changing_file",
    "C63_endless_tags"
   ],
   "note": ""
  },
  {
   "property": "C64",
   "status": "partial",
   "theorems": [
    "C64_ebml_panics",
    "C64_fails",
    "C64_all_four",
    "C64_no_panic_partial"
   ],
   "note": "The code violates the full statement (C64_fails): BufReader::stream_position panics when the position of the wrapped stream is smaller than the number of buffered bytes. Proved unless the first read shows ASF, EBML, MP4 or RealMedia with the reader enabled (C64_no_panic_partial); each of these four does panic (C64_all_four)."
  },
  {
   "property": "C65",
   "status": "partial",
   "theorems": [
    "C65_fails",
    "C65_interrupted_readers",
    "C65_interruptions_retried_partial"
   ],
   "note": "The code violates the full statement (C65_fails, C65_interrupted_readers): from_reader passes an interruption of its single first read on, and the PDF, SQLite and XML readers use a bare read. Proved for every other case, on every schedule, also with failures (C65_interruptions_retried_partial)."
  },
  {
   "property": "C66",
   "status": "partial",
   "theorems": [
    "C66_fails",
    "C66_longest_partial",
    "C66_one_size_partial",
    "C66_most_formats",
    "C66_one_size",
    "C66_all_but_39_partial",
    "C66_short"
   ],
   "note": "The code violates the full statement (C66_fails: 2-byte JPEG XL magic hides the 4-byte DICOM magic). Proved: no magic in the content is longer than the longest magic of the verdict's format (C66_longest_partial), and the full statement whenever the magics of the verdict's format all have one size (C66_one_size_partial), as is the case for 283 of the 343 entries (C66_most_formats). Exactly: it holds for every verdict but those of the 39 formats of shortMagicFirst (C66_all_but_39_partial), and each of these 39 violates it (C66_short)."
  },
  {
   "property": "C67",
   "status": "partial",
   "theorems": [
    "C67_fails",
    "C67_zlib",
    "C67_shows_partial",
    "C67_most_formats",
    "C67_loose"
   ],
   "note": "The code violates the full statement (C67_fails, C67_zlib, C67_loose: for each of the 47 formats). Proved for all formats but the 47 of looselyRecognised, i.e. for 296 of the 343 formats with a magic (C67_shows_partial, C67_most_formats)."
  },
  {
   "property": "C68",
   "status": "partial",
   "theorems": [
    "C68_needed_partial",
    "C68_covered",
    "C68_fails"
   ],
   "note": "The code violates the full statement (C68_fails): six of the 726 values are covered by a shorter value of the same format (C68_covered). Proved for the other 720 (C68_needed_partial)."
  },
  {
   "property": "C69",
   "status": "partial",
   "theorems": [
    "C69_fails",
    "C69_sqlite3_loses",
    "C69_xml_partial",
    "C69_sqlite3_partial",
    "C69_second_full_partial"
   ],
   "note": "The code violates the full statement (C69_fails, C69_sqlite3_loses). Proved: for XML and SQLite the exact verdict, the one on the content up to the end of what the second read delivers (C69_xml_partial, C69_sqlite3_partial), so the one in memory if the second read is served in full (C69_second_full_partial). All other formats: C11, and C21_artwork_stream for PDF."
  },
  {
   "property": "C70",
   "status": "proved",
   "theorems": [
    "C70_positions",
    "C70_each_matters"
   ],
   "note": ""
  },
  {
   "property": "C71",
   "status": "partial",
   "theorems": [
    "C71_pad",
    "C71_plain_partial",
    "C71_fails",
    "C71_fits_partial",
    "C71_width_ignored_partial"
   ],
   "note": "The code violates the full statement (C71_fails; C71_width_ignored_partial: for every width beyond the length of the name). Proved: exactly what is written with any options to any writer, the plain name in one call (C71_plain_partial), which is as documented if the name fits (C71_fits_partial). C71_pad: the model of Formatter::pad, which an implementation with f.pad would use, meets the specification."
  },
  {
   "property": "C72",
   "status": "proved",
   "theorems": [
    "C72_from_bytes",
    "C72_exactly_one",
    "C72_from_reader",
    "C72_from_file"
   ],
   "note": ""
  },
  {
   "property": "C73",
   "status": "proved",
   "theorems": [
    "C73_from_reader",
    "C73_exactly_one",
    "C73_determined"
   ],
   "note": ""
  },
  {
   "property": "C74",
   "status": "proved",
   "theorems": [
    "C74_from_reader",
    "C74_only_overflows",
    "C74_from_bytes",
    "C74_from_file",
    "C74_debug_verdict",
    "C74_safe"
   ],
   "note": ""
  },
  {
   "property": "C75",
   "status": "proved",
   "theorems": [
    "C75_failures",
    "C75_verdict",
    "C75_window",
    "C75_panic",
    "C75_from_file"
   ],
   "note": ""
  },
  {
   "property": "C76",
   "status": "proved",
   "theorems": [
    "C76_from_reader",
    "C76_from_bytes",
    "C76_from_file"
   ],
   "note": "release profile; allocations below 2^31 bytes are assumed to succeed"
  },
  {
   "property": "C77",
   "status": "proved",
   "theorems": [
    "C77_profile",
    "C77_from_reader",
    "C77_verdict",
    "C77_from_bytes",
    "C77_bytes_verdict",
    "C77_from_file"
   ],
   "note": "allocations below 2^31 bytes are assumed to succeed"
  },
  {
   "property": "C78",
   "status": "proved",
   "theorems": [
    "C78_stops",
    "C78_otherwise",
    "C78_first_read",
    "C78_error_iff",
    "C78_documented",
    "C78_at_once",
    "C78_lawful"
   ],
   "note": "the checks are those of indexing, split_at_mut and the assertion in BorrowedCursor::advance; documented verdicts are for readers with a position of their own, or without the readers that ask for it (C64)"
  },
  {
   "property": "C79",
   "status": "partial",
   "theorems": [
    "C79_refused",
    "C79_unified",
    "C79_own",
    "C79_ends",
    "C79_same",
    "C79_fails",
    "C79_verdict_partial"
   ],
   "note": "The code violates the full statement (C79_fails). Proved: everything about which readers a build has, and that the exception named in the statement is the only one (C79_verdict_partial, with C19_text_only_from_two)."
  },
  {
   "property": "C80",
   "status": "partial",
   "theorems": [
    "C80_verdict",
    "C80_fails",
    "C80_signature_partial",
    "C80_spoilt",
    "C80_no_text"
   ],
   "note": "The code violates the full statement (C80_fails). Proved: the exact verdict on every such input (C80_verdict), the statement when no reader is enabled for the format (C80_signature_partial), the loss otherwise (C80_spoilt)."
  },
  {
   "property": "C81",
   "status": "proved",
   "theorems": [
    "C81_output",
    "C81_distinct",
    "C81_names",
    "C81_kind",
    "C81_kind_distinct"
   ],
   "note": ""
  },
  {
   "property": "C82",
   "status": "proved",
   "theorems": [
    "C82_failures",
    "C82_overflows",
    "C82_panics_iff",
    "C82_schedule",
    "C82_total",
    "C82_verdict",
    "C82_as_from_bytes",
    "C82_full",
    "C82_same"
   ],
   "note": ""
  },
  {
   "property": "C83",
   "status": "partial",
   "theorems": [
    "C83_verdict_partial",
    "C83_leftover_partial",
    "C83_fresh_partial",
    "C83_seek_partial",
    "C83_all_buffered_partial",
    "C83_total",
    "C83_fails",
    "C83_panics_iff",
    "C83_fresh_checked_partial"
   ],
   "note": "Does not hold (C83_fails): from_reader makes one read call, which a BufReader that holds anything serves from its buffer, so after fill_buf (or seek_relative) at the start of an ISO image only 8 KiB are searched for magic numbers and the result is arbitrary data. Proved: the exact verdict for every buffer state (C83_verdict_partial); no difference if the buffer is empty (C83_fresh_partial), after any successful seek (C83_seek_partial), if the buffer holds all that follows (C83_all_buffered_partial) or is recognised as what follows is (C83_leftover_partial); builds with overflow checks: when they panic (C83_panics_iff), and a new BufReader (C83_fresh_checked_partial). These exclude documents of more than 32 MiB in a BufReader of more than 32 KiB with the PDF reader, which can see a few KiB beyond its limit."
  },
  {
   "property": "C84",
   "status": "proved",
   "theorems": [
    "C84_unreadable",
    "C84_total",
    "C84_healthy",
    "C84_right",
    "C84_as_from_bytes",
    "C84_no_reader",
    "C84_untouched",
    "C84_untouched_from_bytes"
   ],
   "note": ""
  },
  {
   "property": "C85",
   "status": "proved",
   "theorems": [
    "C85_calls",
    "C85_ending",
    "C85_counted",
    "C85_changing"
   ],
   "note": ""
  },
  {
   "property": "C86",
   "status": "proved",
   "theorems": [
    "C86_keeps",
    "C86_reads",
    "C86_all_reads"
   ],
   "note": ""
  },
  {
   "property": "C87",
   "status": "proved",
   "theorems": [
    "C87_alone",
    "C87_from_bytes",
    "C87_verdict",
    "C87_others"
   ],
   "note": ""
  },
  {
   "property": "C88",
   "status": "proved",
   "theorems": [
    "C88_seen",
    "C88_traced",
    "C88_from_bytes",
    "C88_change",
    "C88_first"
   ],
   "note": ""
  },
  {
   "property": "C89",
   "status": "proved",
   "theorems": [
    "C89_watched",
    "C89_growing",
    "C89_append",
    "C89_first",
    "C89_no_reader",
    "C89_xml",
    "C89_sqlite3",
    "C89_text"
   ],
   "note": ""
  },
  {
   "property": "C90",
   "status": "proved",
   "theorems": [
    "C90_strings",
    "C90_false_positives",
    "C90_text",
    "C90_arbitrary",
    "C90_format",
    "C90_positives",
    "C90_stream_false_positives",
    "C90_stream_text",
    "C90_files"
   ],
   "note": ""
  },
  {
   "property": "C91",
   "status": "proved",
   "theorems": [
    "C91_schedule",
    "C91_total",
    "C91_verdict",
    "C91_as_from_bytes",
    "C91_full",
    "C91_no_difference",
    "C91_failures",
    "C91_overflows",
    "C91_error_iff",
    "C91_documented",
    "C91_no_panic",
    "C91_returns_unless_id3v2",
    "C91_default",
    "C91_buf_reader",
    "C91_cursor"
   ],
   "note": ""
  }
 ]
}