{
 "claims": [
  {
   "property": "C01",
   "status": "proved",
   "theorems": [
    "Mp4.C01_writer",
    "Mp4.C01_writer_any",
    "Mp4.C01_reader",
    "Mp4.C01_bit_fifo",
    "Mp4.C01_reader_eof"
   ],
   "note": "writer and reader objects against bit lists, any call sequence and partition"
  },
  {
   "property": "C02",
   "status": "proved",
   "theorems": [
    "Mp4.C02_uint_round_trip",
    "Mp4.C02_uint_round_trip_fits",
    "Mp4.C02_uint_full",
    "Mp4.C02_uint_ub",
    "Mp4.C02_uint_errors"
   ],
   "note": "exact for every type width, value and size; UB sizes characterised"
  },
  {
   "property": "C03",
   "status": "proved",
   "theorems": [
    "Mp4.C03_int_round_trip",
    "Mp4.C03_int_full",
    "Mp4.C03_int_out_of_range",
    "Mp4.C03_int_truncation_witness"
   ],
   "note": "in-range round trip; exact behaviour and witness out of range"
  },
  {
   "property": "C04",
   "status": "proved",
   "theorems": [
    "Mp4.C04_uvarint_round_trip",
    "Mp4.C04_uvarint_truncation",
    "Mp4.C04_uvarint_truncation_witness"
   ],
   "note": "round trip below 2^(7w/8); exact truncation above"
  },
  {
   "property": "C05",
   "status": "proved",
   "theorems": [
    "Mp4.C05_string_round_trip",
    "Mp4.C05_string_budget",
    "Mp4.C05_string_nul"
   ],
   "note": "NUL-free strings, short budgets, embedded NUL"
  },
  {
   "property": "C06",
   "status": "proved",
   "theorems": [
    "Mp4.C06_pascal_round_trip",
    "Mp4.C06_pascal_too_long",
    "Mp4.C06_pascal_fallback",
    "Mp4.C06_pascal_ambiguity"
   ],
   "note": "recognition, fallback equality, ambiguity witness"
  },
  {
   "property": "C07",
   "status": "proved",
   "theorems": [
    "Mp4.C07_endian32",
    "Mp4.C07_endian64"
   ],
   "note": "all integers, all 16 shapes of 8 bytes"
  },
  {
   "property": "C08",
   "status": "proved",
   "theorems": [
    "Mp4.C08_language_round_trip",
    "Mp4.C08_language_onto",
    "Mp4.C08_language_capital_witness"
   ],
   "note": "all three-byte codes"
  },
  {
   "property": "C09",
   "status": "proved",
   "theorems": [
    "Mp4.C09_flags_set_get",
    "Mp4.C09_flags_add",
    "Mp4.C09_flags_check",
    "Mp4.C09_flags_remove_witness",
    "Mp4.C09_flags_remove_toggles",
    "Mp4.C09_flags_remove_set"
   ],
   "note": "removeFlag is an exclusive or; exact law, the case where it clears, and the witness where it sets"
  },
  {
   "property": "C10",
   "status": "proved",
   "theorems": [
    "Mp4.C10_header_round_trip",
    "Mp4.C10_header_stale_size_witness"
   ],
   "note": ""
  },
  {
   "property": "C11",
   "status": "proved",
   "theorems": [
    "Mp4.C11_header_size_choice"
   ],
   "note": ""
  },
  {
   "property": "C12",
   "status": "proved",
   "theorems": [
    "Mp4.C12_layout",
    "Mp4.C12_terminates",
    "Mp4.C12_always_ends",
    "Mp4.C12_sizes",
    "Mp4.C12_header_independent"
   ],
   "note": "every tree below 2^64 bytes: positions, sizes, termination, independence of old headers"
  },
  {
   "property": "C13",
   "status": "proved",
   "theorems": [
    "Mp4.C13_serialization"
   ],
   "note": "every tree of writable boxes, any stream state"
  },
  {
   "property": "C14",
   "status": "proved",
   "theorems": [
    "Mp4.C14_written_size",
    "Mp4.C14_whole_bytes",
    "Mp4.C14_throws_iff"
   ],
   "note": "all box classes, all field values; exact throwing condition"
  },
  {
   "property": "C15",
   "status": "proved",
   "theorems": [
    "Mp4.C15_layout",
    "Mp4.C15_mdhd_language"
   ],
   "note": "every class against an independent field-list layout"
  },
  {
   "property": "C16",
   "status": "proved",
   "theorems": [
    "Mp4.C16_btrt",
    "Mp4.C16_pasp",
    "Mp4.C16_fiel",
    "Mp4.C16_smhd",
    "Mp4.C16_vmhd",
    "Mp4.C16_mfhd",
    "Mp4.C16_mfro",
    "Mp4.C16_dref",
    "Mp4.C16_stsd",
    "Mp4.C16_trex",
    "Mp4.C16_containers",
    "Mp4.C16_iods",
    "Mp4.C16_iods_seven"
   ],
   "note": ""
  },
  {
   "property": "C17",
   "status": "proved",
   "theorems": [
    "Mp4.C17_mvhd",
    "Mp4.C17_tkhd",
    "Mp4.C17_mdhd",
    "Mp4.C17_mehd",
    "Mp4.C17_tfdt",
    "Mp4.C17_elst",
    "Mp4.C17_sidx"
   ],
   "note": ""
  },
  {
   "property": "C18",
   "status": "proved",
   "theorems": [
    "Mp4.C18_time_survives_iff",
    "Mp4.C18_signed_time_survives_iff",
    "Mp4.C18_mvhd",
    "Mp4.C18_tkhd",
    "Mp4.C18_mdhd",
    "Mp4.C18_mehd",
    "Mp4.C18_tfdt",
    "Mp4.C18_elst",
    "Mp4.C18_sidx"
   ],
   "note": "if and only if, per field"
  },
  {
   "property": "C19",
   "status": "proved",
   "theorems": [
    "Mp4.C19_stts",
    "Mp4.C19_ctts",
    "Mp4.C19_stsc",
    "Mp4.C19_stco",
    "Mp4.C19_co64",
    "Mp4.C19_stss",
    "Mp4.C19_stsz",
    "Mp4.C19_sdtp",
    "Mp4.C19_sbgp"
   ],
   "note": ""
  },
  {
   "property": "C20",
   "status": "proved",
   "theorems": [
    "Mp4.C20_tfhd",
    "Mp4.C20_tfhd_fields",
    "Mp4.C20_trun",
    "Mp4.C20_tfra"
   ],
   "note": "unselected optional fields keep the object's earlier value"
  },
  {
   "property": "C21",
   "status": "proved",
   "theorems": [
    "Mp4.C21_visual",
    "Mp4.C21_audio_plain",
    "Mp4.C21_audio_quicktime",
    "Mp4.C21_audio_under_wave"
   ],
   "note": "including sound descriptions under wave"
  },
  {
   "property": "C22",
   "status": "proved",
   "theorems": [
    "Mp4.C22_avcC_base",
    "Mp4.C22_avcC_high",
    "Mp4.C22_avcC_sps_limit",
    "Mp4.C22_avcC_corrupted",
    "Mp4.C22_av1C",
    "Mp4.C22_vpcC",
    "Mp4.C22_dOps"
   ],
   "note": "exact SPS count limit and what happens above it"
  },
  {
   "property": "C23",
   "status": "proved",
   "theorems": [
    "Mp4.C23_hdlr",
    "Mp4.C23_hdlr_predefined",
    "Mp4.C23_hdlr_padding_unreadable",
    "Mp4.C23_url",
    "Mp4.C23_urn",
    "Mp4.C23_emsg",
    "Mp4.C23_data",
    "Mp4.C23_colr_nclx",
    "Mp4.C23_colr_profile",
    "Mp4.C23_colr_unknown",
    "Mp4.C23_pssh",
    "Mp4.C23_ftyp",
    "Mp4.C23_meta"
   ],
   "note": "exact conditions on names; padding shown unreadable"
  },
  {
   "property": "C24",
   "status": "proved",
   "theorems": [
    "Mp4.C24_esds",
    "Mp4.C24_esds_nested"
   ],
   "note": "flattened and nested descriptor lists"
  },
  {
   "property": "C25",
   "status": "proved",
   "theorems": [
    "Mp4.C25_exact",
    "Mp4.C25_avcC",
    "Mp4.C25_esds",
    "Mp4.C25_esds_over_report",
    "Mp4.C25_iods"
   ],
   "note": "all classes, arbitrary payloads; over-report witness"
  },
  {
   "property": "C26",
   "status": "proved",
   "theorems": [
    "Mp4.C26_roll",
    "Mp4.C26_sgpd",
    "Mp4.C26_other",
    "Mp4.C26_fresh"
   ],
   "note": ""
  },
  {
   "property": "C27",
   "status": "proved",
   "theorems": [
    "Mp4.C27_opaque"
   ],
   "note": ""
  },
  {
   "property": "C28",
   "status": "proved",
   "theorems": [
    "Mp4.C28_terminates"
   ],
   "note": "every file, string or file stream, every box map"
  },
  {
   "property": "C29",
   "status": "proved",
   "theorems": [
    "Mp4.C29_impossible_sizes",
    "Mp4.C29_headers_of_the_file",
    "Mp4.C29_first_box"
   ],
   "note": "every header met"
  },
  {
   "property": "C30",
   "status": "proved",
   "theorems": [
    "Mp4.C30_tiling",
    "Mp4.C30_nested"
   ],
   "note": "every normal run"
  },
  {
   "property": "C31",
   "status": "proved",
   "theorems": [
    "Mp4.C31_read_back",
    "Mp4.C31_write_then_read"
   ],
   "note": "every forest of writable registered boxes; which fields come back is C16-C27"
  },
  {
   "property": "C32",
   "status": "proved",
   "theorems": [
    "Mp4.C32_entries",
    "Mp4.C32_counts",
    "Mp4.C32_box",
    "Mp4.C32_wraps"
   ],
   "note": "fewer than 2^32 samples (sharp: C32_wraps)"
  },
  {
   "property": "C33",
   "status": "proved",
   "theorems": [
    "Mp4.C33_entries",
    "Mp4.C33_box"
   ],
   "note": "fewer than 2^32-1 chunks"
  },
  {
   "property": "C34",
   "status": "proved",
   "theorems": [
    "Mp4.C34_offsets",
    "Mp4.C34_needs_order"
   ],
   "note": "offsets non-decreasing (needed: C34_needs_order); C38/C39 show that the writers' offsets are"
  },
  {
   "property": "C35",
   "status": "proved",
   "theorems": [
    "Mp4.C35_bookkeeping",
    "Mp4.C35_counts",
    "Mp4.C35_terminate_after_finalize"
   ],
   "note": "every history before finalize, any writer, fewer than 2^32 samples"
  },
  {
   "property": "C36",
   "status": "proved",
   "theorems": [
    "Mp4.C36_durations",
    "Mp4.C36_telescope",
    "Mp4.C36_exact"
   ],
   "note": "every history"
  },
  {
   "property": "C37",
   "status": "proved",
   "theorems": [
    "Mp4.C37_idempotent",
    "Mp4.C37_append_twice"
   ],
   "note": "every track"
  },
  {
   "property": "C38",
   "status": "proved",
   "theorems": [
    "Mp4.C38_samples_found",
    "Mp4.C38_needs_discipline"
   ],
   "note": "programs within the rule for callers (needed: C38_needs_discipline), < 2^32-1 samples per track, < 2^32 bytes per sample, file < 2^64 bytes"
  },
  {
   "property": "C39",
   "status": "proved",
   "theorems": [
    "Mp4.C39_samples_found"
   ],
   "note": "programs within the rule for callers, < 2^32-1 samples per track, < 2^32 bytes per sample, file < 2^63 bytes"
  },
  {
   "property": "C40",
   "status": "proved",
   "theorems": [
    "Mp4.C40_layout",
    "Mp4.C40_mdat"
   ],
   "note": "every program, file < 2^64 bytes"
  },
  {
   "property": "C41",
   "status": "proved",
   "theorems": [
    "Mp4.C41_layout"
   ],
   "note": "every program, file < 2^63 bytes"
  },
  {
   "property": "C42",
   "status": "proved",
   "theorems": [
    "Mp4.C42_offsets",
    "Mp4.C42_loop_ends"
   ],
   "note": "every program, file < 2^63 bytes; the loop ends after at most tracks + 2 rounds"
  },
  {
   "property": "C43",
   "status": "proved",
   "theorems": [
    "Mp4.C43_copy",
    "Mp4.C43_loop_ends"
   ],
   "note": "every length and position"
  },
  {
   "property": "C44",
   "status": "proved",
   "theorems": [
    "Mp4.C44_never_overwritten",
    "Mp4.C44_crash"
   ],
   "note": "every program and continuation; every prefix of every write"
  },
  {
   "property": "C45",
   "status": "proved",
   "theorems": [
    "Mp4.C45_faststart_file",
    "Mp4.C45_simple",
    "Mp4.C45_faststart",
    "Mp4.C45_zero_refused",
    "Mp4.C45_wraps"
   ],
   "note": "fewer than 2^32-1 ids (sharp: C45_wraps)"
  },
  {
   "property": "C46",
   "status": "proved",
   "theorems": [
    "Mp4.C46_segmentation",
    "Mp4.C46_short_last_unit_is_absorbed"
   ],
   "note": "all unit lists; the scanner misses a last unit shorter than 6 bytes (theorem says so)"
  },
  {
   "property": "C47",
   "status": "proved",
   "theorems": [
    "Mp4.C47_scanner_is_safe",
    "Mp4.C47_scanner_terminates",
    "Mp4.C47_addData_is_safe"
   ],
   "note": "every buffer"
  },
  {
   "property": "C48",
   "status": "proved",
   "theorems": [
    "Mp4.C48_framing"
   ],
   "note": "all NAL lists, any writer"
  },
  {
   "property": "C49",
   "status": "proved",
   "theorems": [
    "Mp4.C49_box_map",
    "Mp4.C49_registered"
   ],
   "note": ""
  },
  {
   "property": "C50",
   "status": "proved",
   "theorems": [
    "Mp4.C50_matchWith",
    "Mp4.C50_ofString",
    "Mp4.C50_toText_injective"
   ],
   "note": ""
  },
  {
   "property": "C51",
   "status": "proved",
   "theorems": [
    "Mp4.C51_convert_bijective",
    "Mp4.C51_format_converted",
    "Mp4.C51_format_before_1970",
    "Mp4.C51_days_before_year",
    "Mp4.C51_date_unique",
    "Mp4.C51_calendar",
    "Mp4.C51_calendar_of_date",
    "Mp4.C51_text_injective",
    "Mp4.C51_all_times"
   ],
   "note": "gmtime_r and strftime-style formatting are the model of Model/Calendar.lean; the calendar itself is specified independently in Spec/Calendar.lean"
  },
  {
   "property": "C52",
   "status": "proved",
   "theorems": [
    "Mp4.C52_path_and_context",
    "Mp4.C52_parents_exist"
   ],
   "note": "every history of constructor calls"
  },
  {
   "property": "C53",
   "status": "proved",
   "theorems": [
    "Mp4.C53_avcC_partial_output",
    "Mp4.C53_esds_partial_output",
    "Mp4.C53_partial_output"
   ],
   "note": ""
  },
  {
   "property": "C54",
   "status": "proved",
   "theorems": [
    "Mp4.C54_stsz_constant",
    "Mp4.C54_count_survives_iff"
   ],
   "note": ""
  },
  {
   "property": "C55",
   "status": "proved",
   "theorems": [
    "Mp4.C55_readData",
    "Mp4.C55_string_stream",
    "Mp4.C55_file_stream",
    "Mp4.C55_file_stream_witness"
   ],
   "note": "undefined behaviour of the header reader and of readData; two safe cases and a witness for the unsafe one"
  },
  {
   "property": "C56",
   "status": "proved",
   "theorems": [
    "Mp4.C56_writer_mixed",
    "Mp4.C56_reader_mixed"
   ],
   "note": "writer: writeBits and write; reader: readBits, read and seek in all three directions"
  },
  {
   "property": "C57",
   "status": "proved",
   "theorems": [
    "Mp4.C57_simple",
    "Mp4.C57_faststart"
   ],
   "note": "For both writers and every program; example good_movie_simple / good_movie_faststart."
  },
  {
   "property": "C58",
   "status": "proved",
   "theorems": [
    "Mp4.C58_simple",
    "Mp4.C58_faststart"
   ],
   "note": "For both writers and every program; 64-bit times are compared on the box objects whose encoding the file is (C60 says what a reader of the file sees: version-0 boxes keep 32 bits)."
  },
  {
   "property": "C59",
   "status": "proved",
   "theorems": [
    "Mp4.C59_rounded",
    "Mp4.C59_negative",
    "Mp4.C59_not_finite",
    "Mp4.C59_exact",
    "Mp4.C59_error",
    "Mp4.C59_defined",
    "Mp4.C59_monotone",
    "Mp4.C59_simple",
    "Mp4.C59_faststart"
   ],
   "note": "IEEE binary32 with round to nearest even and FLT_EVAL_METHOD 0 is assumed (stated in Model/Float.lean); the model's rounding is proved to be the IEEE rounding of Spec/Float.lean. tkhd, elst and mvhd in the file keep the low 32 bits (version 0, see C60)."
  },
  {
   "property": "C60",
   "status": "proved",
   "theorems": [
    "Mp4.C60_simple",
    "Mp4.C60_faststart"
   ],
   "note": "For both writers and every program. Codec values that do not fit their bit fields (Spec.CodecFits) are excluded: the code truncates them silently."
  },
  {
   "property": "C61",
   "status": "proved",
   "theorems": [
    "Mp4.C61_any_forest",
    "Mp4.C61_write_then_read"
   ],
   "note": "all 49 classes; BoxData.Survives lists the ranges, BoxData.stored the losses; every env and box at every offset"
  },
  {
   "property": "C62",
   "status": "proved",
   "theorems": [
    "Mp4.C62_writable",
    "Mp4.C62_rewrite",
    "Mp4.C62_rewrite_same_size",
    "Mp4.C62_url",
    "Mp4.C62_meta",
    "Mp4.C62_stsz_const"
   ],
   "note": "the classes named at the end of the statement are outside the bit-for-bit part; for them C62_writable holds"
  },
  {
   "property": "C63",
   "status": "proved",
   "theorems": [
    "Mp4.C63_needed",
    "Mp4.C63_ftyp",
    "Mp4.C63_hdlr",
    "Mp4.C63_alst",
    "Mp4.C63_which"
   ],
   "note": "all classes; an alst entry length counts modulo 2^29; a version 0 or 2 box with alst entries is held against an uninitialised member, so whether it is accepted is not determined by the file"
  },
  {
   "property": "C64",
   "status": "proved",
   "theorems": [
    "Mp4.C64_dump",
    "Mp4.C64_every_box"
   ],
   "note": ""
  },
  {
   "property": "C65",
   "status": "proved",
   "theorems": [
    "Mp4.C65_dump_determines",
    "Mp4.C65_forgery"
   ],
   "note": ""
  },
  {
   "property": "C66",
   "status": "proved",
   "theorems": [
    "Mp4.C66_text",
    "Mp4.C66_numerals",
    "Mp4.C66_fraction_nearest",
    "Mp4.C66_unambiguous",
    "Mp4.C66_quotes_not_escaped",
    "Mp4.C66_tables_in_full"
   ],
   "note": "the formatting library ({fmt} 9.1.0) is the model of Model/Text.lean"
  },
  {
   "property": "C67",
   "status": "proved",
   "theorems": [
    "Mp4.C67_exactly",
    "Mp4.C67_version_0",
    "Mp4.C67_witness",
    "Mp4.C67_nothing_else"
   ],
   "note": ""
  },
  {
   "property": "C68",
   "status": "proved",
   "theorems": [
    "Mp4.C68_simple",
    "Mp4.C68_faststart"
   ],
   "note": ""
  },
  {
   "property": "C69",
   "status": "proved",
   "theorems": [
    "Mp4.C69_content_reports",
    "Mp4.C69_header_silent",
    "Mp4.C69_samples_silent",
    "Mp4.C69_simple_reports",
    "Mp4.C69_simple_full_disk",
    "Mp4.C69_simple_silent",
    "Mp4.C69_faststart_prefix",
    "Mp4.C69_faststart_full_disk",
    "Mp4.C69_copy_never_ends",
    "Mp4.C69_simple_loses_samples"
   ],
   "note": ""
  },
  {
   "property": "C70",
   "status": "proved",
   "theorems": [
    "Mp4.C70_content",
    "Mp4.C70_unwritable",
    "Mp4.C70_refused",
    "Mp4.C70_defaults",
    "Mp4.C70_defaults_full_boxes"
   ],
   "note": "Letters: for mdhd the three language characters must be 0x60..0x7f (otherwise C++ shifts bits of one letter into another; see C11/C12 for the codes). default parameter values in C70_defaults."
  },
  {
   "property": "C71",
   "status": "proved",
   "theorems": [
    "Mp4.C71_simple",
    "Mp4.C71_simple_samples",
    "Mp4.C71_simple_read",
    "Mp4.C71_faststart",
    "Mp4.C71_faststart_read"
   ],
   "note": "Bytes are stored in the order in which the stream buffer hands them to the file (a buffered stream delays them, so that the file corresponds to an earlier point of the program; a machine crash, where the page cache may be written out of order, is outside). Stopped inside the 16 header bytes of SimpleWriter the file is given exactly (C71_simple), but nothing is claimed about reading it: with a partial size of mdat the reader would look for boxes inside the samples. File size below 2^63 for the reading statements."
  },
  {
   "property": "C72",
   "status": "proved",
   "theorems": [
    "Mp4.C72_cut_off",
    "Mp4.C72_cut_off_tree"
   ],
   "note": "The list returned is never shortened silently; for a cut between two top-level boxes reading returns the boxes in front of it (C61)."
  },
  {
   "property": "C73",
   "status": "proved",
   "theorems": [
    "Mp4.C73_to_the_end"
   ],
   "note": ""
  },
  {
   "property": "C74",
   "status": "proved",
   "theorems": [
    "Mp4.C74_reader"
   ],
   "note": "The heap is that of Model/Memory.lean: strings, vectors and shared_ptrs inside the objects manage their own memory and are values. The depth of the recursion of the destructor is assumed to fit the stack. Copying a reader (whose implicit copy constructor would delete the boxes twice) is not modelled."
  },
  {
   "property": "C75",
   "status": "proved",
   "theorems": [
    "Mp4.C75_simple",
    "Mp4.C75_faststart",
    "Mp4.C75_tree"
   ],
   "note": "Model/MemoryWriter.lean; the heap is that of C74. The functions of src/track are modelled as building their boxes with one new per box and box info, parents first. Copies of writers, and appendUdtaBoxInfo/appendTrakBoxInfo called on a FaststartWriter by hand before moov exists, are not modelled."
  },
  {
   "property": "C76",
   "status": "proved",
   "theorems": [
    "Mp4.C76_second_read",
    "Mp4.C76_returns_only_once",
    "Mp4.C76_history"
   ],
   "note": "The error state of the stream after an exception is not modelled: it could only make a further call throw earlier; the theorems quantify over all positions instead. A file on which the second call is undefined behaviour (esds with a descriptor of unknown tag at its end, file stream) is in Props/AgainExamples.lean."
  },
  {
   "property": "C77",
   "status": "proved",
   "theorems": [
    "Mp4.C77_simple",
    "Mp4.C77_faststart",
    "Mp4.C77_needs_discipline"
   ],
   "note": "The rule (terminate the current chunk of a track before data of another track goes between two of its samples) is needed: C77_needs_discipline gives a program without it where a byte belongs to two samples and another to none."
  },
  {
   "property": "C78",
   "status": "proved",
   "theorems": [
    "Mp4.C78_box",
    "Mp4.C78_file",
    "Mp4.C78_unbacked"
   ],
   "note": "About what is held when read returns. What is requested while reading, also for files that are rejected, is C83."
  },
  {
   "property": "C79",
   "status": "proved",
   "theorems": [
    "Mp4.C79_constructor",
    "Mp4.C79_present",
    "Mp4.C79_content",
    "Mp4.C79_add",
    "Mp4.C79_place",
    "Mp4.C79_undefined",
    "Mp4.C79_copy",
    "Mp4.C79_copy_ends",
    "Mp4.C79_determined",
    "Mp4.C79_perfect",
    "Mp4.C79_others"
   ],
   "note": "A byte counts as stored when fwrite counts it (what stdio loses when it flushes its buffer later is outside); a failing fseek, ftell or fread leaves the position. Member functions that do not touch the file may do anything else between the calls; C79_others shows that the modelled ones are of that kind when they return."
  },
  {
   "property": "C80",
   "status": "proved",
   "theorems": [
    "Mp4.C80_ends",
    "Mp4.C80_same_or_undefined",
    "Mp4.C80_accepts",
    "Mp4.C80_unreadable",
    "Mp4.C80_shrunk",
    "Mp4.C80_grown"
   ],
   "note": "Unreadable: the stream buffer has no byte to give at that position, so copy_n dereferences an end-of-stream istreambuf_iterator. In practice libstdc++ yields 0xff there, so that a read error goes unnoticed. Failing seekg/tellg are not modelled (the code checks and throws)."
  },
  {
   "property": "C81",
   "status": "proved",
   "theorems": [
    "Mp4.C81_simple",
    "Mp4.C81_simple_program",
    "Mp4.C81_faststart",
    "Mp4.C81_faststart_throws",
    "Mp4.C81_removed_once",
    "Mp4.C81_faststart_program"
   ],
   "note": "The output stream, the C library and memory allocation do not fail (C74, C79 treat failures). Null arguments are not modelled."
  },
  {
   "property": "C82",
   "status": "proved",
   "theorems": [
    "Mp4.C82_faststart",
    "Mp4.C82_faststart_replaces",
    "Mp4.C82_simple"
   ],
   "note": "Documents that the call is not idempotent: the file written after two calls is wrong."
  },
  {
   "property": "C83",
   "status": "proved",
   "theorems": [
    "Mp4.C83_refused",
    "Mp4.C83_each",
    "Mp4.C83_accepted",
    "Mp4.C83_enough",
    "Mp4.C83_unpaid"
   ],
   "note": "Models std::vector::resize in every readData. Not modelled as requests: growing strings (push_back), the copy of the payload, the box objects, the tree. Sizes are in elements, not bytes."
  },
  {
   "property": "C84",
   "status": "proved",
   "theorems": [
    "Mp4.C84_positions",
    "Mp4.C84_walk",
    "Mp4.C84_stuck",
    "Mp4.C84_ends"
   ],
   "note": "The listing program is a user's program (Spec/Seek.lean); the stream is open and in good state, as in C28."
  },
  {
   "property": "C85",
   "status": "proved",
   "theorems": [
    "Mp4.C85_header",
    "Mp4.C85_image",
    "Mp4.C85_determined",
    "Mp4.C85_save",
    "Mp4.C85_savable"
   ],
   "note": "The excluded classes really lose something: two files with different meta flags, or stsz counts, are read as the same boxes (Props/LosslessExamples.lean). File shorter than 2^63 bytes, stream open and in good state."
  },
  {
   "property": "C86",
   "status": "proved",
   "theorems": [
    "Mp4.C86_concat",
    "Mp4.C86_split",
    "Mp4.C86_many"
   ],
   "note": "The files together shorter than 2^63 bytes, stream open and in good state. A box of size 0 really takes in what follows (Props/ConcatExamples.lean). That the first file is accepted as a string matters only for an iods box with a descriptor length other than 7 at its end, whose readData reports more than it read."
  },
  {
   "property": "C87",
   "status": "proved",
   "theorems": [
    "Mp4.C87_same",
    "Mp4.C87_no_sgpd",
    "Mp4.C87_dump",
    "Mp4.C87_saved",
    "Mp4.C87_sgpd_witness",
    "Mp4.C87_wave_witness"
   ],
   "note": "Two findings: Sgpd::readData reads m_default_length, which has no initialiser (sgpd.hpp) and is not read for a version other than 1, so acceptance of such a file depends on stale memory (C87_sgpd_witness); AudioSampleEntry below wave writes members without a value (C87_wave_witness). Reading an indeterminate value is undefined behaviour in C++; the model takes an arbitrary fixed value. Vectors are empty in a new object (Env.Fresh)."
  },
  {
   "property": "C88",
   "status": "proved",
   "theorems": [
    "Mp4.C88_enough",
    "Mp4.C88_exact",
    "Mp4.C88_nesting",
    "Mp4.C88_no_stack_suffices"
   ],
   "note": "Files shorter than 2^63 bytes. What the calls hold in payload copies is C89. What happens on a stack overflow, and the recursion of destructors and of BoxInfo::write, are not in the model."
  },
  {
   "property": "C89",
   "status": "proved",
   "theorems": [
    "Mp4.C89_accepted",
    "Mp4.C89_any",
    "Mp4.C89_quadratic"
   ],
   "note": "Files shorter than 2^63 bytes. Payload bytes only, as put into the stringstream by copy_n; how the stringstream allocates is not modelled. The copies alive are defined on the tree: those of a box and of the boxes it is in (Spec/Copies.lean)."
  },
  {
   "property": "C90",
   "status": "proved",
   "theorems": [
    "Mp4.C90_same_movie"
   ],
   "note": "Size bound of C39 (below 2^63 with 64-bit offsets); it covers the other file too."
  },
  {
   "property": "C91",
   "status": "proved",
   "theorems": [
    "Mp4.C91_simple",
    "Mp4.C91_faststart"
   ],
   "note": "Size bounds of C40 and C42 for both files."
  },
  {
   "property": "C92",
   "status": "proved",
   "theorems": [
    "Mp4.C92_simple",
    "Mp4.C92_faststart"
   ],
   "note": "Size bounds of C40 and C42 for both files."
  },
  {
   "property": "C93",
   "status": "proved",
   "theorems": [
    "Mp4.C93_simple",
    "Mp4.C93_faststart"
   ],
   "note": "Size bounds of C60; the values of the codecs fit their fields."
  },
  {
   "property": "C94",
   "status": "proved",
   "theorems": [
    "Mp4.C94_same_or_stops",
    "Mp4.C94_returns",
    "Mp4.C94_ends",
    "Mp4.C94_all_work",
    "Mp4.C94_not_seekable",
    "Mp4.C94_no_size"
   ],
   "note": ""
  },
  {
   "property": "C95",
   "status": "proved",
   "theorems": [
    "Mp4.C95_stts",
    "Mp4.C95_stts_only",
    "Mp4.C95_stsc",
    "Mp4.C95_stsc_only"
   ],
   "note": ""
  },
  {
   "property": "C96",
   "status": "proved",
   "theorems": [
    "Mp4.C96_file",
    "Mp4.C96_only",
    "Mp4.C96_simple",
    "Mp4.C96_faststart"
   ],
   "note": ""
  },
  {
   "property": "C97",
   "status": "proved",
   "theorems": [
    "Mp4.C97_track",
    "Mp4.C97_movie",
    "Mp4.C97_simple",
    "Mp4.C97_faststart"
   ],
   "note": ""
  },
  {
   "property": "C98",
   "status": "proved",
   "theorems": [
    "Mp4.C98_durations",
    "Mp4.C98_steps_back",
    "Mp4.C98_simple",
    "Mp4.C98_faststart"
   ],
   "note": ""
  }
 ]
}