{
 "claims": [
  {
   "property": "C01",
   "status": "proved",
   "theorems": [
    "OpenType.Props.C01_collection",
    "OpenType.Props.C01_one_font"
   ],
   "note": ""
  },
  {
   "property": "C02",
   "status": "proved",
   "theorems": [
    "OpenType.Props.C02_directory_exact"
   ],
   "note": ""
  },
  {
   "property": "C03",
   "status": "proved",
   "theorems": [
    "OpenType.Props.C03_exists_take"
   ],
   "note": "The checksum function and the reader of the table are parameters."
  },
  {
   "property": "C04",
   "status": "proved",
   "theorems": [
    "OpenType.Props.C04_first_record",
    "OpenType.Props.C04_only_first",
    "OpenType.Props.C04_given"
   ],
   "note": "The checksum function and the reader of the table are parameters."
  },
  {
   "property": "C05",
   "status": "proved",
   "theorems": [
    "OpenType.Props.C05_checksum_gate",
    "OpenType.Props.C05_checksum_errors"
   ],
   "note": "The checksum function is a parameter."
  },
  {
   "property": "C06",
   "status": "proved",
   "theorems": [
    "OpenType.Props.C06_checksums_irrelevant",
    "OpenType.Props.C06_same_success",
    "OpenType.Props.C06_same_success_given"
   ],
   "note": "The checksum function and the reader of the table are parameters."
  },
  {
   "property": "C07",
   "status": "proved",
   "theorems": [
    "OpenType.Props.C07_history_independence",
    "OpenType.Props.C07_checksum_anywhere"
   ],
   "note": "The checksum function and the reader of the table are parameters; the one condition on the former, that it does not depend on where the tape is, is proved of the OpenType checksum (C07_checksum_anywhere)."
  },
  {
   "property": "C08",
   "status": "proved",
   "theorems": [
    "OpenType.Props.C08_distinct_tags",
    "OpenType.Props.C08_same_name",
    "OpenType.Props.C08_no_aliasing",
    "OpenType.Props.C08_named"
   ],
   "note": ""
  },
  {
   "property": "C09",
   "status": "proved",
   "theorems": [
    "OpenType.Props.C09_coverage",
    "OpenType.Props.C09_other_format",
    "OpenType.Props.C09_missing"
   ],
   "note": ""
  },
  {
   "property": "C10",
   "status": "proved",
   "theorems": [
    "OpenType.Props.C10_class",
    "OpenType.Props.C10_other_format"
   ],
   "note": ""
  },
  {
   "property": "C11",
   "status": "proved",
   "theorems": [
    "OpenType.Props.C11_correction",
    "OpenType.Props.C11_device",
    "OpenType.Props.C11_sizes",
    "OpenType.Props.C11_variation",
    "OpenType.Props.C11_other_format"
   ],
   "note": ""
  },
  {
   "property": "C12",
   "status": "partial",
   "theorems": [
    "OpenType.Props.C12_exact_words_partial",
    "OpenType.Props.C12_one_word_more_partial",
    "OpenType.Props.C12_violated"
   ],
   "note": "The full claim is false of the code: C12_violated. Proved: the exact number of words the code reads (C12_exact_words_partial) and that it is one too many exactly when the deltas fill the last word (C12_one_word_more_partial)."
  },
  {
   "property": "C13",
   "status": "proved",
   "theorems": [
    "OpenType.Props.C13_context",
    "OpenType.Props.C13_other_format"
   ],
   "note": ""
  },
  {
   "property": "C14",
   "status": "proved",
   "theorems": [
    "OpenType.Props.C14_chained_context",
    "OpenType.Props.C14_other_format"
   ],
   "note": ""
  },
  {
   "property": "C15",
   "status": "proved",
   "theorems": [
    "OpenType.Props.C15_zero_refused",
    "OpenType.Props.C15_one_fewer"
   ],
   "note": ""
  },
  {
   "property": "C16",
   "status": "proved",
   "theorems": [
    "OpenType.Props.C16_features",
    "OpenType.Props.C16_feature"
   ],
   "note": ""
  },
  {
   "property": "C17",
   "status": "proved",
   "theorems": [
    "OpenType.Props.C17_scripts",
    "OpenType.Props.C17_language"
   ],
   "note": ""
  },
  {
   "property": "C18",
   "status": "proved",
   "theorems": [
    "OpenType.Props.C18_get",
    "OpenType.Props.C18_get_directory"
   ],
   "note": ""
  },
  {
   "property": "C19",
   "status": "proved",
   "theorems": [
    "OpenType.Props.C19_lookups",
    "OpenType.Props.C19_lookup"
   ],
   "note": ""
  },
  {
   "property": "C20",
   "status": "proved",
   "theorems": [
    "OpenType.Props.C20_directory",
    "OpenType.Props.C20_other_version",
    "OpenType.Props.C20_variations"
   ],
   "note": ""
  },
  {
   "property": "C21",
   "status": "proved",
   "theorems": [
    "OpenType.Props.C21_zero_offset",
    "OpenType.Props.C21_nonzero_offsets"
   ],
   "note": ""
  },
  {
   "property": "C22",
   "status": "partial",
   "theorems": [
    "OpenType.Props.C22_substitution_partial",
    "OpenType.Props.C22_reverse_partial",
    "OpenType.Props.C22_other_type",
    "OpenType.Props.C22_other_format_partial",
    "OpenType.Props.C22_violated"
   ],
   "note": "The full claim is false for type 8, whose format word is not tested: C22_violated. Proved: everything else for types 1 to 8 (C22_substitution_partial), what type 8 accepts (C22_reverse_partial), other formats of types 1 to 7 and other types refused."
  },
  {
   "property": "C23",
   "status": "proved",
   "theorems": [
    "OpenType.Props.C23_reported",
    "OpenType.Props.C23_own_bytes"
   ],
   "note": ""
  },
  {
   "property": "C24",
   "status": "proved",
   "theorems": [
    "OpenType.Props.C24_positioning",
    "OpenType.Props.C24_other_type",
    "OpenType.Props.C24_other_format",
    "OpenType.Props.C24_anchor"
   ],
   "note": ""
  },
  {
   "property": "C25",
   "status": "proved",
   "theorems": [
    "OpenType.Props.C25_value_record",
    "OpenType.Props.C25_corrections"
   ],
   "note": ""
  },
  {
   "property": "C26",
   "status": "proved",
   "theorems": [
    "OpenType.Props.C26_moves",
    "OpenType.Props.C26_strides"
   ],
   "note": ""
  },
  {
   "property": "C27",
   "status": "proved",
   "theorems": [
    "OpenType.Props.C27_matrix"
   ],
   "note": ""
  },
  {
   "property": "C28",
   "status": "proved",
   "theorems": [
    "OpenType.Props.C28_anchors",
    "OpenType.Props.C28_class_count"
   ],
   "note": ""
  },
  {
   "property": "C29",
   "status": "proved",
   "theorems": [
    "OpenType.Props.C29_marks",
    "OpenType.Props.C29_anchor",
    "OpenType.Props.C29_nonzero_offsets"
   ],
   "note": ""
  },
  {
   "property": "C30",
   "status": "proved",
   "theorems": [
    "OpenType.Props.C30_glyph_definition",
    "OpenType.Props.C30_ligatures",
    "OpenType.Props.C30_other_version"
   ],
   "note": ""
  },
  {
   "property": "C31",
   "status": "partial",
   "theorems": [
    "OpenType.Props.C31_taken_partial",
    "OpenType.Props.C31_equal_offsets_partial",
    "OpenType.Props.C31_lost",
    "OpenType.Props.C31_rejected",
    "OpenType.Props.C31_violated"
   ],
   "note": "The full claim is false: the store is read at the mark glyph sets' offset: C31_violated. Proved: where it is read (C31_taken_partial), that the claim holds when both offsets agree (C31_equal_offsets_partial), and the consequences otherwise (C31_lost, C31_rejected)."
  },
  {
   "property": "C32",
   "status": "partial",
   "theorems": [
    "OpenType.Props.C32_accepted_partial",
    "OpenType.Props.C32_refused",
    "OpenType.Props.C32_violated",
    "OpenType.Props.C32_ligature_refused"
   ],
   "note": "The full claim is false: every well-formed caret is refused: C32_refused, C32_violated. Proved: exactly what is accepted instead (C32_accepted_partial)."
  },
  {
   "property": "C33",
   "status": "proved",
   "theorems": [
    "OpenType.Props.C33_palettes",
    "OpenType.Props.C33_other_version"
   ],
   "note": ""
  },
  {
   "property": "C34",
   "status": "proved",
   "theorems": [
    "OpenType.Props.C34_iteration"
   ],
   "note": ""
  },
  {
   "property": "C35",
   "status": "partial",
   "theorems": [
    "OpenType.Props.C35_safe_iff_partial",
    "OpenType.Props.C35_violated"
   ],
   "note": "The full claim is false: C35_violated. Proved: iteration panics exactly when an index leads out of the colors (C35_safe_iff_partial)."
  },
  {
   "property": "C36",
   "status": "proved",
   "theorems": [
    "OpenType.Props.C36_variations",
    "OpenType.Props.C36_strides",
    "OpenType.Props.C36_reserved"
   ],
   "note": ""
  },
  {
   "property": "C37",
   "status": "partial",
   "theorems": [
    "OpenType.Props.C37_rejected",
    "OpenType.Props.C37_followed_partial",
    "OpenType.Props.C37_violated"
   ],
   "note": "The full claim is false: such a table is refused when it ends with its last instance (C37_rejected, C37_violated). Proved: it is read when two more bytes follow (C37_followed_partial)."
  },
  {
   "property": "C38",
   "status": "partial",
   "theorems": [
    "OpenType.Props.C38_store_partial",
    "OpenType.Props.C38_store_checked_partial",
    "OpenType.Props.C38_other_format",
    "OpenType.Props.C38_wraps",
    "OpenType.Props.C38_violated"
   ],
   "note": "The full claim is false in builds without overflow checks, where the sum wraps: C38_wraps, C38_violated. Proved: the exact claim with the sum as the build computes it (C38_store_partial), and the full claim for builds with overflow checks, which panic instead (C38_store_checked_partial, C39_gdef_panics)."
  },
  {
   "property": "C39",
   "status": "partial",
   "theorems": [
    "OpenType.Props.C39_record",
    "OpenType.Props.C39_store",
    "OpenType.Props.C39_gdef",
    "OpenType.Props.C39_no_panic_partial",
    "OpenType.Props.C39_no_panic_release_partial",
    "OpenType.Props.C39_no_panic_based_partial",
    "OpenType.Props.C39_gdef_panics"
   ],
   "note": "The full claim is false of glyph definitions and item variation stores in builds with overflow checks: C39_gdef_panics. Proved: for every other reader in every build, and for these in builds without overflow checks; and exactly when these panic: C39_record, C39_store, C39_gdef."
  },
  {
   "property": "C40",
   "status": "proved",
   "theorems": [
    "OpenType.Props.C40_append"
   ],
   "note": ""
  },
  {
   "property": "C41",
   "status": "proved",
   "theorems": [
    "OpenType.Props.C41_relocatable"
   ],
   "note": ""
  },
  {
   "property": "C42",
   "status": "proved",
   "theorems": [
    "OpenType.Props.C42_gsub",
    "OpenType.Props.C42_gpos",
    "OpenType.Props.C42_gdef",
    "OpenType.Props.C42_cpal",
    "OpenType.Props.C42_fvar",
    "OpenType.Props.C42_store",
    "OpenType.Props.C42_layout",
    "OpenType.Props.C42_lookup"
   ],
   "note": ""
  },
  {
   "property": "C43",
   "status": "proved",
   "theorems": [
    "OpenType.Props.C43_tag_feature",
    "OpenType.Props.C43_tag_script",
    "OpenType.Props.C43_tag_language",
    "OpenType.Props.C43_injective",
    "OpenType.Props.C43_get"
   ],
   "note": ""
  },
  {
   "property": "C44",
   "status": "partial",
   "theorems": [
    "OpenType.Props.C44_feature",
    "OpenType.Props.C44_language",
    "OpenType.Props.C44_build",
    "OpenType.Props.C44_script_partial",
    "OpenType.Props.C44_katakana",
    "OpenType.Props.C44_violated"
   ],
   "note": "The full claim is false of Script::Katakana: C44_violated, C44_katakana. Proved: for every feature, every language and every other script."
  },
  {
   "property": "C45",
   "status": "proved",
   "theorems": [
    "OpenType.Props.C45_feature",
    "OpenType.Props.C45_script",
    "OpenType.Props.C45_language"
   ],
   "note": ""
  },
  {
   "property": "C46",
   "status": "proved",
   "theorems": [
    "OpenType.Props.C46_codes",
    "OpenType.Props.C46_unknown",
    "OpenType.Props.C46_complete"
   ],
   "note": ""
  },
  {
   "property": "C47",
   "status": "proved",
   "theorems": [
    "OpenType.Props.C47_other_tags",
    "OpenType.Props.C47_default"
   ],
   "note": ""
  },
  {
   "property": "C48",
   "status": "proved",
   "theorems": [
    "OpenType.Props.C48_gsub",
    "OpenType.Props.C48_gpos",
    "OpenType.Props.C48_cpal",
    "OpenType.Props.C48_fvar",
    "OpenType.Props.C48_store",
    "OpenType.Props.C48_layout",
    "OpenType.Props.C48_lookup",
    "OpenType.Props.C48_device"
   ],
   "note": ""
  },
  {
   "property": "C49",
   "status": "proved",
   "theorems": [
    "OpenType.Props.C49_checksum_is_sum",
    "OpenType.Props.C49_damage_detected"
   ],
   "note": "With the checksum algorithm of the OpenType specification."
  },
  {
   "property": "C50",
   "status": "proved",
   "theorems": [
    "OpenType.Props.C50_own_bytes",
    "OpenType.Props.C50_own_bytes_layout",
    "OpenType.Props.C50_depends_on_rest"
   ],
   "note": ""
  },
  {
   "property": "C51",
   "status": "partial",
   "theorems": [
    "OpenType.Props.C51_sized_partial",
    "OpenType.Props.C51_long_words",
    "OpenType.Props.C51_misread",
    "OpenType.Props.C51_violated"
   ],
   "note": "The full claim is false with LONG_WORDS: C51_violated, C51_misread. Proved: the claim without that bit (C51_sized_partial), and what is read with it (C51_long_words)."
  },
  {
   "property": "C52",
   "status": "partial",
   "theorems": [
    "OpenType.Props.C52_gdef_partial",
    "OpenType.Props.C52_gdef_taken_partial",
    "OpenType.Props.C52_violated"
   ],
   "note": "The full claim is false of tables with carets or with a variation store of their own (C31, C32): C52_violated. Proved: for tables without them (C52_gdef_partial), and for all tables when they are written as the code takes them (C52_gdef_taken_partial)."
  },
  {
   "property": "C53",
   "status": "proved",
   "theorems": [
    "OpenType.Props.C53_predicates",
    "OpenType.Props.C53_lookup",
    "OpenType.Props.C53_axis",
    "OpenType.Props.C53_instance",
    "OpenType.Props.C53_values"
   ],
   "note": ""
  },
  {
   "property": "C54",
   "status": "proved",
   "theorems": [
    "OpenType.Props.C54_gsub",
    "OpenType.Props.C54_gpos",
    "OpenType.Props.C54_others",
    "OpenType.Props.C54_complete"
   ],
   "note": ""
  },
  {
   "property": "C55",
   "status": "proved",
   "theorems": [
    "OpenType.Props.C55_stored",
    "OpenType.Props.C55_tables",
    "OpenType.Props.C55_absent"
   ],
   "note": "With the checksum algorithm of the OpenType specification; the formats truetype accepts are a parameter."
  },
  {
   "property": "C56",
   "status": "proved",
   "theorems": [
    "OpenType.Props.C56_opens",
    "OpenType.Props.C56_takes",
    "OpenType.Props.C56_alone",
    "OpenType.Props.C56_absent",
    "OpenType.Props.C56_values"
   ],
   "note": "With the checksum algorithm of the OpenType specification; the formats truetype accepts are a parameter. Glyph definitions are written as the code takes them (C31, C32)."
  },
  {
   "property": "C57",
   "status": "proved",
   "theorems": [
    "OpenType.Props.C57_open",
    "OpenType.Props.C57_checksum",
    "OpenType.Props.C57_take",
    "OpenType.Props.C57_append",
    "OpenType.Props.C57_tables"
   ],
   "note": ""
  },
  {
   "property": "C58",
   "status": "partial",
   "theorems": [
    "OpenType.Props.C58_gsub",
    "OpenType.Props.C58_gdef",
    "OpenType.Props.C58_cpal",
    "OpenType.Props.C58_store",
    "OpenType.Props.C58_layout",
    "OpenType.Props.C58_gpos_partial",
    "OpenType.Props.C58_fvar_partial",
    "OpenType.Props.C58_fvar_violated",
    "OpenType.Props.C58_gpos_violated"
   ],
   "note": "The full claim is false: C58_gpos_violated (50 bytes, a pair matrix of any size up to 65535 by 65535) and C58_fvar_violated (36 bytes, up to 65535 axes). Proved in full for GSUB, GDEF, CPAL, the item variation store and the layout tables; for GPOS when value records have a field and there is a mark class, and for fvar when the record sizes are not zero."
  },
  {
   "property": "C59",
   "status": "proved",
   "theorems": [
    "OpenType.Props.C59_other_records",
    "OpenType.Props.C59_first",
    "OpenType.Props.C59_order"
   ],
   "note": ""
  },
  {
   "property": "C60",
   "status": "proved",
   "theorems": [
    "OpenType.Props.C60_truncated",
    "OpenType.Props.C60_take",
    "OpenType.Props.C60_loss",
    "OpenType.Props.C60_loss_layout"
   ],
   "note": ""
  },
  {
   "property": "C61",
   "status": "proved",
   "theorems": [
    "OpenType.Props.C61_faults",
    "OpenType.Props.C61_take",
    "OpenType.Props.C61_flaky"
   ],
   "note": ""
  },
  {
   "property": "C62",
   "status": "proved",
   "theorems": [
    "OpenType.Props.C62_session",
    "OpenType.Props.C62_tables"
   ],
   "note": ""
  },
  {
   "property": "C63",
   "status": "proved",
   "theorems": [
    "OpenType.Props.C63_forward",
    "OpenType.Props.C63_forward_from",
    "OpenType.Props.C63_take"
   ],
   "note": ""
  },
  {
   "property": "C64",
   "status": "proved",
   "theorems": [
    "OpenType.Props.C64_work",
    "OpenType.Props.C64_take"
   ],
   "note": ""
  },
  {
   "property": "C65",
   "status": "proved",
   "theorems": [
    "OpenType.Props.C65_work",
    "OpenType.Props.C65_work_rows",
    "OpenType.Props.C65_pairs",
    "OpenType.Props.C65_take",
    "OpenType.Props.C65_tables"
   ],
   "note": ""
  },
  {
   "property": "C66",
   "status": "partial",
   "theorems": [
    "OpenType.Props.C66_linear_partial",
    "OpenType.Props.C66_nested",
    "OpenType.Props.C66_violated"
   ],
   "note": "The full claim is false: C66_nested gives, for each n up to 32000, a GSUB and a GPOS table of 36 + 10n bytes that is accepted and takes at least n^5 operations, a GDEF table of 36 + 6n bytes that takes n^3 and an fvar table of 36 + 4n bytes that takes n^2, because offsets may lead to the same place again and again; C66_violated is the case of n = 32000. These are the powers of C65. Proved for the readers that have at most one level of repetition, among them opening a file, checksums and CPAL. C65 bounds the others by polynomials."
  },
  {
   "property": "C67",
   "status": "proved",
   "theorems": [
    "OpenType.Props.C67_complete",
    "OpenType.Props.C67_complete_layout",
    "OpenType.Props.C67_misses",
    "OpenType.Props.C67_take"
   ],
   "note": ""
  },
  {
   "property": "C68",
   "status": "proved",
   "theorems": [
    "OpenType.Props.C68_tables",
    "OpenType.Props.C68_layout",
    "OpenType.Props.C68_file"
   ],
   "note": "For glyph definitions the bytes are those the code takes (C31, C32)."
  },
  {
   "property": "C69",
   "status": "proved",
   "theorems": [
    "OpenType.Props.C69_tables",
    "OpenType.Props.C69_file"
   ],
   "note": "With the checksum algorithm of the OpenType specification. For glyph definitions the bytes are those the code takes (C31, C32)."
  },
  {
   "property": "C70",
   "status": "proved",
   "theorems": [
    "OpenType.Props.C70_spoiled",
    "OpenType.Props.C70_retry",
    "OpenType.Props.C70_open"
   ],
   "note": "With the checksum algorithm of the OpenType specification."
  },
  {
   "property": "C71",
   "status": "proved",
   "theorems": [
    "OpenType.Props.C71_mixed",
    "OpenType.Props.C71_working",
    "OpenType.Props.C71_spoiled"
   ],
   "note": "With the checksum algorithm of the OpenType specification."
  },
  {
   "property": "C72",
   "status": "proved",
   "theorems": [
    "OpenType.Props.C72_accept"
   ],
   "note": ""
  },
  {
   "property": "C73",
   "status": "proved",
   "theorems": [
    "OpenType.Props.C73_order",
    "OpenType.Props.C73_declared",
    "OpenType.Props.C73_bytes",
    "OpenType.Props.C73_distinct",
    "OpenType.Props.C73_get",
    "OpenType.Props.C73_katakana"
   ],
   "note": ""
  },
  {
   "property": "C74",
   "status": "partial",
   "theorems": [
    "OpenType.Props.C74_parts",
    "OpenType.Props.C74_positioning",
    "OpenType.Props.C74_gpos_partial",
    "OpenType.Props.C74_gpos",
    "OpenType.Props.C74_size",
    "OpenType.Props.C74_violated",
    "OpenType.Props.C74_violated_far"
   ],
   "note": "The full claim is false for pair adjustments in format 2 with empty rows or cells: C74_violated reads a matrix of any size up to 65535 by 65535 with 27 operations from 24 bytes. Proved in full for everything but GPOS; for GPOS without such matrices (C74_gpos_partial); and for all of GPOS with 2^34 in place of eight (C74_gpos). C74_size is the bound on the size by the length of the file, for all tables."
  },
  {
   "property": "C75",
   "status": "proved",
   "theorems": [
    "OpenType.Props.C75_messages",
    "OpenType.Props.C75_texts",
    "OpenType.Props.C75_substitution_given",
    "OpenType.Props.C75_positioning_given",
    "OpenType.Props.C75_other_given",
    "OpenType.Props.C75_ignoring",
    "OpenType.Props.C75_ignoring_substitution_given",
    "OpenType.Props.C75_ignoring_positioning_given",
    "OpenType.Props.C75_ignoring_variations_given",
    "OpenType.Props.C75_place",
    "OpenType.Props.C75_version",
    "OpenType.Props.C75_font",
    "OpenType.Props.C75_file"
   ],
   "note": ""
  },
  {
   "property": "C76",
   "status": "proved",
   "theorems": [
    "OpenType.Props.C76_gsub",
    "OpenType.Props.C76_gpos",
    "OpenType.Props.C76_fvar",
    "OpenType.Props.C76_gdef",
    "OpenType.Props.C76_font",
    "OpenType.Props.C76_language",
    "OpenType.Props.C76_release",
    "OpenType.Props.C76_palettes"
   ],
   "note": ""
  },
  {
   "property": "C77",
   "status": "proved",
   "theorems": [
    "OpenType.Props.C77_gsub",
    "OpenType.Props.C77_gpos",
    "OpenType.Props.C77_gdef",
    "OpenType.Props.C77_store",
    "OpenType.Props.C77_layout",
    "OpenType.Props.C77_lookup"
   ],
   "note": ""
  },
  {
   "property": "C78",
   "status": "proved",
   "theorems": [
    "OpenType.Props.C78_behind",
    "OpenType.Props.C78_next",
    "OpenType.Props.C78_many"
   ],
   "note": ""
  },
  {
   "property": "C79",
   "status": "proved",
   "theorems": [
    "OpenType.Props.C79_built",
    "OpenType.Props.C79_built_release",
    "OpenType.Props.C79_built_based",
    "OpenType.Props.C79_font",
    "OpenType.Props.C79_device",
    "OpenType.Props.C79_variations"
   ],
   "note": ""
  },
  {
   "property": "C80",
   "status": "proved",
   "theorems": [
    "OpenType.Props.C80_never_read",
    "OpenType.Props.C80_marks",
    "OpenType.Props.C80_attachments"
   ],
   "note": ""
  },
  {
   "property": "C81",
   "status": "partial",
   "theorems": [
    "OpenType.Props.C81_confined_partial",
    "OpenType.Props.C81_asks_partial",
    "OpenType.Props.C81_same",
    "OpenType.Props.C81_sizes",
    "OpenType.Props.C81_violated"
   ],
   "note": "The full claim is false: the size in the record is used for the checksum only, so a table whose own bytes end too early goes on in the bytes that follow (C81_violated, with a right checksum). Proved: the outcome is always that of the file from the table's offset on, and it is that of the table's own bytes, value or failure, unless those alone are reported as incomplete; then no byte is asked for but those of the record and, for the checksum, those that fill up its last word (C81_asks_partial); in builds that ignore checksums the sizes are of no account (C81_sizes)."
  },
  {
   "property": "C82",
   "status": "proved",
   "theorems": [
    "OpenType.Props.C82_no_panic",
    "OpenType.Props.C82_faithful",
    "OpenType.Props.C82_lookup",
    "OpenType.Props.C82_directory",
    "OpenType.Props.C82_header",
    "OpenType.Props.C82_movable",
    "OpenType.Props.C82_faults",
    "OpenType.Props.C82_misses",
    "OpenType.Props.C82_forward",
    "OpenType.Props.C82_map",
    "OpenType.Props.C82_same"
   ],
   "note": ""
  },
  {
   "property": "C83",
   "status": "proved",
   "theorems": [
    "OpenType.Props.C83_growth",
    "OpenType.Props.C83_take",
    "OpenType.Props.C83_layout",
    "OpenType.Props.C83_enough",
    "OpenType.Props.C83_session",
    "OpenType.Props.C83_growing"
   ],
   "note": ""
  },
  {
   "property": "C84",
   "status": "proved",
   "theorems": [
    "OpenType.Props.C84_schedule",
    "OpenType.Props.C84_progress",
    "OpenType.Props.C84_alone",
    "OpenType.Props.C84_handles",
    "OpenType.Props.C84_shared_disturbs"
   ],
   "note": ""
  },
  {
   "property": "C85",
   "status": "proved",
   "theorems": [
    "OpenType.Props.C85_serves",
    "OpenType.Props.C85_reader",
    "OpenType.Props.C85_session",
    "OpenType.Props.C85_failures",
    "OpenType.Props.C85_piecemeal"
   ],
   "note": ""
  },
  {
   "property": "C86",
   "status": "proved",
   "theorems": [
    "OpenType.Props.C86_gsub",
    "OpenType.Props.C86_gpos",
    "OpenType.Props.C86_gdef",
    "OpenType.Props.C86_store",
    "OpenType.Props.C86_rows",
    "OpenType.Props.C86_layout",
    "OpenType.Props.C86_lookup",
    "OpenType.Props.C86_subtable",
    "OpenType.Props.C86_across"
   ],
   "note": ""
  },
  {
   "property": "C87",
   "status": "proved",
   "theorems": [
    "OpenType.Props.C87_window",
    "OpenType.Props.C87_layout",
    "OpenType.Props.C87_gsub",
    "OpenType.Props.C87_gpos",
    "OpenType.Props.C87_other",
    "OpenType.Props.C87_least",
    "OpenType.Props.C87_take",
    "OpenType.Props.C87_open"
   ],
   "note": ""
  },
  {
   "property": "C88",
   "status": "proved",
   "theorems": [
    "OpenType.Props.C88_font",
    "OpenType.Props.C88_stored",
    "OpenType.Props.C88_tables",
    "OpenType.Props.C88_absent",
    "OpenType.Props.C88_shared",
    "OpenType.Props.C88_refused",
    "OpenType.Props.C88_opens",
    "OpenType.Props.C88_takes",
    "OpenType.Props.C88_alone",
    "OpenType.Props.C88_embedded"
   ],
   "note": ""
  },
  {
   "property": "C89",
   "status": "proved",
   "theorems": [
    "OpenType.Props.C89_columns",
    "OpenType.Props.C89_burst",
    "OpenType.Props.C89_uncounted",
    "OpenType.Props.C89_order"
   ],
   "note": ""
  },
  {
   "property": "C90",
   "status": "proved",
   "theorems": [
    "OpenType.Props.C90_asked",
    "OpenType.Props.C90_in_place",
    "OpenType.Props.C90_moved",
    "OpenType.Props.C90_changed",
    "OpenType.Props.C90_gsub",
    "OpenType.Props.C90_gpos"
   ],
   "note": ""
  },
  {
   "property": "C91",
   "status": "proved",
   "theorems": [
    "OpenType.Props.C91_tables",
    "OpenType.Props.C91_layout",
    "OpenType.Props.C91_same_requests",
    "OpenType.Props.C91_font",
    "OpenType.Props.C91_file",
    "OpenType.Props.C91_take"
   ],
   "note": ""
  },
  {
   "property": "C92",
   "status": "proved",
   "theorems": [
    "OpenType.Props.C92_download",
    "OpenType.Props.C92_tables",
    "OpenType.Props.C92_layout",
    "OpenType.Props.C92_open"
   ],
   "note": ""
  },
  {
   "property": "C93",
   "status": "proved",
   "theorems": [
    "OpenType.Props.C93_changing",
    "OpenType.Props.C93_tables",
    "OpenType.Props.C93_layout",
    "OpenType.Props.C93_open",
    "OpenType.Props.C93_take"
   ],
   "note": ""
  },
  {
   "property": "C94",
   "status": "proved",
   "theorems": [
    "OpenType.Props.C94_get",
    "OpenType.Props.C94_changing",
    "OpenType.Props.C94_iter"
   ],
   "note": ""
  },
  {
   "property": "C95",
   "status": "proved",
   "theorems": [
    "OpenType.Props.C95_quiet",
    "OpenType.Props.C95_take",
    "OpenType.Props.C95_layout",
    "OpenType.Props.C95_still",
    "OpenType.Props.C95_tables",
    "OpenType.Props.C95_parts",
    "OpenType.Props.C95_open",
    "OpenType.Props.C95_taken"
   ],
   "note": ""
  },
  {
   "property": "C96",
   "status": "proved",
   "theorems": [
    "OpenType.Props.C96_shared",
    "OpenType.Props.C96_tables",
    "OpenType.Props.C96_layout",
    "OpenType.Props.C96_open",
    "OpenType.Props.C96_take",
    "OpenType.Props.C96_threads"
   ],
   "note": ""
  },
  {
   "property": "C97",
   "status": "proved",
   "theorems": [
    "OpenType.Props.C97_delivers",
    "OpenType.Props.C97_steady",
    "OpenType.Props.C97_session",
    "OpenType.Props.C97_failures",
    "OpenType.Props.C97_stumbling"
   ],
   "note": ""
  },
  {
   "property": "C98",
   "status": "partial",
   "theorems": [
    "OpenType.Props.C98_tables",
    "OpenType.Props.C98_layout",
    "OpenType.Props.C98_gdef_partial",
    "OpenType.Props.C98_violated",
    "OpenType.Props.C98_font",
    "OpenType.Props.C98_font_gdef_partial",
    "OpenType.Props.C98_font_others"
   ],
   "note": "The full claim is false of the coordinates of ligature carets in GDEF, which the code takes for a part of the format (C32): C98_violated. Proved: for GSUB, GPOS, CPAL, fvar, the item variation store and the parts of layout tables (C98_tables, C98_layout), and for GDEF tables whose ligatures stay as they are (C98_gdef_partial). The same in a font, with the checksum in the record of the table brought up to date: C98_font, C98_font_gdef_partial, C98_font_others."
  },
  {
   "property": "C99",
   "status": "proved",
   "theorems": [
    "OpenType.Props.C99_tables",
    "OpenType.Props.C99_layout",
    "OpenType.Props.C99_gdef"
   ],
   "note": "The glyph definition is proved with its parts where the code looks for them: in version 1.3 the variation store is read from the offset of the mark glyph sets, which is the subject of C31."
  },
  {
   "property": "C100",
   "status": "proved",
   "theorems": [
    "OpenType.Props.C100_walk",
    "OpenType.Props.C100_font"
   ],
   "note": ""
  },
  {
   "property": "C101",
   "status": "proved",
   "theorems": [
    "OpenType.Props.C101_follow",
    "OpenType.Props.C101_font",
    "OpenType.Props.C101_step",
    "OpenType.Props.C101_circular"
   ],
   "note": ""
  },
  {
   "property": "C102",
   "status": "proved",
   "theorems": [
    "OpenType.Props.C102_coverage",
    "OpenType.Props.C102_class",
    "OpenType.Props.C102_single",
    "OpenType.Props.C102_multiple",
    "OpenType.Props.C102_alternate",
    "OpenType.Props.C102_ligature"
   ],
   "note": ""
  },
  {
   "property": "C103",
   "status": "proved",
   "theorems": [
    "OpenType.Props.C103_single",
    "OpenType.Props.C103_pair"
   ],
   "note": ""
  },
  {
   "property": "C104",
   "status": "proved",
   "theorems": [
    "OpenType.Props.C104_cursive",
    "OpenType.Props.C104_base",
    "OpenType.Props.C104_mark",
    "OpenType.Props.C104_ligature"
   ],
   "note": ""
  },
  {
   "property": "C105",
   "status": "proved",
   "theorems": [
    "OpenType.Props.C105_context",
    "OpenType.Props.C105_chain",
    "OpenType.Props.C105_reverse"
   ],
   "note": ""
  },
  {
   "property": "C106",
   "status": "proved",
   "theorems": [
    "OpenType.Props.C106_device",
    "OpenType.Props.C106_record",
    "OpenType.Props.C106_store"
   ],
   "note": ""
  },
  {
   "property": "C107",
   "status": "proved",
   "theorems": [
    "OpenType.Props.C107_classes",
    "OpenType.Props.C107_points",
    "OpenType.Props.C107_marks"
   ],
   "note": ""
  },
  {
   "property": "C108",
   "status": "proved",
   "theorems": [
    "OpenType.Props.C108_substitution",
    "OpenType.Props.C108_adjustment"
   ],
   "note": ""
  },
  {
   "property": "C109",
   "status": "proved",
   "theorems": [
    "OpenType.Props.C109_shape",
    "OpenType.Props.C109_ignoring",
    "OpenType.Props.C109_font"
   ],
   "note": ""
  },
  {
   "property": "C110",
   "status": "proved",
   "theorems": [
    "OpenType.Props.C110_ignored",
    "OpenType.Props.C110_font"
   ],
   "note": ""
  },
  {
   "property": "C111",
   "status": "proved",
   "theorems": [
    "OpenType.Props.C111_alternate",
    "OpenType.Props.C111_context",
    "OpenType.Props.C111_chain",
    "OpenType.Props.C111_reverse",
    "OpenType.Props.C111_attachment"
   ],
   "note": ""
  },
  {
   "property": "C112",
   "status": "proved",
   "theorems": [
    "OpenType.Props.C112_position",
    "OpenType.Props.C112_ignoring",
    "OpenType.Props.C112_font"
   ],
   "note": ""
  },
  {
   "property": "C113",
   "status": "proved",
   "theorems": [
    "OpenType.Props.C113_typeset"
   ],
   "note": ""
  },
  {
   "property": "C114",
   "status": "proved",
   "theorems": [
    "OpenType.Props.C114_shape",
    "OpenType.Props.C114_ignoring",
    "OpenType.Props.C114_font"
   ],
   "note": ""
  },
  {
   "property": "C115",
   "status": "proved",
   "theorems": [
    "OpenType.Props.C115_place",
    "OpenType.Props.C115_ignoring",
    "OpenType.Props.C115_font"
   ],
   "note": ""
  },
  {
   "property": "C116",
   "status": "proved",
   "theorems": [
    "OpenType.Props.C116_right",
    "OpenType.Props.C116_unspoiled",
    "OpenType.Props.C116_alone",
    "OpenType.Props.C116_pieces",
    "OpenType.Props.C116_spoiled",
    "OpenType.Props.C116_threads",
    "OpenType.Props.C116_progress",
    "OpenType.Props.C116_threads_alone"
   ],
   "note": ""
  },
  {
   "property": "C117",
   "status": "proved",
   "theorems": [
    "OpenType.Props.C117_tapes",
    "OpenType.Props.C117_pieces",
    "OpenType.Props.C117_builds"
   ],
   "note": ""
  },
  {
   "property": "C118",
   "status": "proved",
   "theorems": [
    "OpenType.Props.C118_colors",
    "OpenType.Props.C118_panics",
    "OpenType.Props.C118_tapes"
   ],
   "note": ""
  },
  {
   "property": "C119",
   "status": "proved",
   "theorems": [
    "OpenType.Props.C119_coordinates",
    "OpenType.Props.C119_ranges",
    "OpenType.Props.C119_answers",
    "OpenType.Props.C119_tapes"
   ],
   "note": ""
  },
  {
   "property": "C120",
   "status": "proved",
   "theorems": [
    "OpenType.Props.C120_parts",
    "OpenType.Props.C120_values",
    "OpenType.Props.C120_anchors"
   ],
   "note": ""
  },
  {
   "property": "C121",
   "status": "proved",
   "theorems": [
    "OpenType.Props.C121_tables",
    "OpenType.Props.C121_files",
    "OpenType.Props.C121_written"
   ],
   "note": ""
  },
  {
   "property": "C122",
   "status": "proved",
   "theorems": [
    "OpenType.Props.C122_values",
    "OpenType.Props.C122_files",
    "OpenType.Props.C122_written"
   ],
   "note": ""
  },
  {
   "property": "C123",
   "status": "proved",
   "theorems": [
    "OpenType.Props.C123_set",
    "OpenType.Props.C123_enough",
    "OpenType.Props.C123_taken"
   ],
   "note": ""
  },
  {
   "property": "C124",
   "status": "proved",
   "theorems": [
    "OpenType.Props.C124_closed",
    "OpenType.Props.C124_uncovered",
    "OpenType.Props.C124_length",
    "OpenType.Props.C124_taken"
   ],
   "note": ""
  },
  {
   "property": "C125",
   "status": "proved",
   "theorems": [
    "OpenType.Props.C125_same",
    "OpenType.Props.C125_features",
    "OpenType.Props.C125_nothing"
   ],
   "note": ""
  },
  {
   "property": "C126",
   "status": "proved",
   "theorems": [
    "OpenType.Props.C126_depth",
    "OpenType.Props.C126_circles",
    "OpenType.Props.C126_asks",
    "OpenType.Props.C126_taken",
    "OpenType.Props.C126_ranked"
   ],
   "note": ""
  },
  {
   "property": "C127",
   "status": "proved",
   "theorems": [
    "OpenType.Props.C127_apart",
    "OpenType.Props.C127_taken",
    "OpenType.Props.C127_words"
   ],
   "note": ""
  },
  {
   "property": "C128",
   "status": "proved",
   "theorems": [
    "OpenType.Props.C128_alike",
    "OpenType.Props.C128_retained"
   ],
   "note": ""
  },
  {
   "property": "C129",
   "status": "proved",
   "theorems": [
    "OpenType.Props.C129_longer",
    "OpenType.Props.C129_every",
    "OpenType.Props.C129_taken"
   ],
   "note": ""
  },
  {
   "property": "C130",
   "status": "proved",
   "theorems": [
    "OpenType.Props.C130_alike",
    "OpenType.Props.C130_substitutions",
    "OpenType.Props.C130_positionings",
    "OpenType.Props.C130_uncovered",
    "OpenType.Props.C130_renamed"
   ],
   "note": ""
  },
  {
   "property": "C131",
   "status": "proved",
   "theorems": [
    "OpenType.Props.C131_values",
    "OpenType.Props.C131_alike",
    "OpenType.Props.C131_same",
    "OpenType.Props.C131_written",
    "OpenType.Props.C131_found"
   ],
   "note": ""
  },
  {
   "property": "C132",
   "status": "proved",
   "theorems": [
    "OpenType.Props.C132_table",
    "OpenType.Props.C132_text",
    "OpenType.Props.C132_subset"
   ],
   "note": ""
  },
  {
   "property": "C133",
   "status": "proved",
   "theorems": [
    "OpenType.Props.C133_single",
    "OpenType.Props.C133_multiple",
    "OpenType.Props.C133_alternate",
    "OpenType.Props.C133_ligature"
   ],
   "note": ""
  },
  {
   "property": "C134",
   "status": "proved",
   "theorems": [
    "OpenType.Props.C134_text",
    "OpenType.Props.C134_stages"
   ],
   "note": ""
  },
  {
   "property": "C135",
   "status": "proved",
   "theorems": [
    "OpenType.Props.C135_pairs",
    "OpenType.Props.C135_text",
    "OpenType.Props.C135_alone"
   ],
   "note": ""
  },
  {
   "property": "C136",
   "status": "proved",
   "theorems": [
    "OpenType.Props.C136_marks",
    "OpenType.Props.C136_stacks",
    "OpenType.Props.C136_moves",
    "OpenType.Props.C136_classes",
    "OpenType.Props.C136_joints",
    "OpenType.Props.C136_text",
    "OpenType.Props.C136_alone",
    "OpenType.Props.C136_glyphs",
    "OpenType.Props.C136_kinds",
    "OpenType.Props.C136_order"
   ],
   "note": ""
  },
  {
   "property": "C137",
   "status": "proved",
   "theorems": [
    "OpenType.Props.C137_classes",
    "OpenType.Props.C137_set",
    "OpenType.Props.C137_only"
   ],
   "note": ""
  },
  {
   "property": "C138",
   "status": "proved",
   "theorems": [
    "OpenType.Props.C138_ligatures",
    "OpenType.Props.C138_only"
   ],
   "note": ""
  },
  {
   "property": "C139",
   "status": "proved",
   "theorems": [
    "OpenType.Props.C139_replace",
    "OpenType.Props.C139_kern",
    "OpenType.Props.C139_words",
    "OpenType.Props.C139_both",
    "OpenType.Props.C139_join",
    "OpenType.Props.C139_steps"
   ],
   "note": ""
  },
  {
   "property": "C140",
   "status": "proved",
   "theorems": [
    "OpenType.Props.C140_hang",
    "OpenType.Props.C140_moves",
    "OpenType.Props.C140_joints"
   ],
   "note": ""
  }
 ]
}