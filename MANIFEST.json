{
 "claims": [
  {
   "property": "C01",
   "status": "proved",
   "theorems": [
    "Verif.C01_integer_section",
    "Verif.C01_integer_readback"
   ],
   "note": "Full statement, every width and integer."
  },
  {
   "property": "C02",
   "status": "proved",
   "theorems": [
    "Verif.C02_boolean_section"
   ],
   "note": "Full statement."
  },
  {
   "property": "C03",
   "status": "proved",
   "theorems": [
    "Verif.C03_bitfield_write",
    "Verif.C03_bitfield_readback"
   ],
   "note": "Full statement for every slice that selects at least one bit."
  },
  {
   "property": "C04",
   "status": "partial",
   "theorems": [
    "Verif.C04_bitfield_silent_loss_false",
    "Verif.C04_bitfield_silent_loss_partial"
   ],
   "note": "False of the code: 256 is stored as 0 without warning (value % 256). The partial theorem proves it for values of one byte."
  },
  {
   "property": "C05",
   "status": "proved",
   "theorems": [
    "Verif.C05_string_section"
   ],
   "note": "Full statement."
  },
  {
   "property": "C06",
   "status": "proved",
   "theorems": [
    "Verif.C06_section_width",
    "Verif.C06_header_history",
    "Verif.C06_entry_history"
   ],
   "note": "Full statement, for headers and for entries."
  },
  {
   "property": "C07",
   "status": "proved",
   "theorems": [
    "Verif.C07_view_length",
    "Verif.C07_view_write",
    "Verif.C07_view_frame",
    "Verif.C07_view_commute"
   ],
   "note": "Full statement for contiguous fixed-width views."
  },
  {
   "property": "C08",
   "status": "partial",
   "theorems": [
    "Verif.C08_view_after_section_set_false",
    "Verif.C08_view_after_section_set_partial"
   ],
   "note": "False of the code: a whole-section assignment leaves an immutable bytes object, and the next view write raises TypeError. Partial: reads through views still work and a buffer that was never reassigned stays writable."
  },
  {
   "property": "C09",
   "status": "proved",
   "theorems": [
    "Verif.C09_flags_update"
   ],
   "note": "Full statement for flag sets with bits 0..w-1."
  },
  {
   "property": "C10",
   "status": "proved",
   "theorems": [
    "Verif.C10_flags_roundtrip"
   ],
   "note": "Full statement for nonempty byte strings."
  },
  {
   "property": "C11",
   "status": "proved",
   "theorems": [
    "Verif.C11_bcd_field",
    "Verif.C11_bcd_readback"
   ],
   "note": "Full statement, every width."
  },
  {
   "property": "C12",
   "status": "partial",
   "theorems": [
    "Verif.C12_nibble_overflow_false",
    "Verif.C12_left_nibble_partial",
    "Verif.C12_right_nibble",
    "Verif.C12_left_nibble_reject_partial"
   ],
   "note": "The right-aligned half is proved in full. The left-aligned half is false of the code for 1000..9999: the value leaks into the neighbouring nibble."
  },
  {
   "property": "C13",
   "status": "proved",
   "theorems": [
    "Verif.C13_radical_write",
    "Verif.C13_radical_history"
   ],
   "note": "Full statement, any sequence of in-range writes."
  },
  {
   "property": "C14",
   "status": "partial",
   "theorems": [
    "Verif.C14_date_false",
    "Verif.C14_date_partial",
    "Verif.C14_revision_partial",
    "Verif.C14_revision_false"
   ],
   "note": "Round trips are proved in range. The rejection half is false of the code: an oversized component carries into its neighbour."
  },
  {
   "property": "C15",
   "status": "proved",
   "theorems": [
    "Verif.C15_load_decimal"
   ],
   "note": "Full statement over rational values; numbers out of exponent range raise OverflowError."
  },
  {
   "property": "C16",
   "status": "partial",
   "theorems": [
    "Verif.C16_leading_zeros_false",
    "Verif.C16_leading_zeros_partial",
    "Verif.C16_divided"
   ],
   "note": "False of the code: \"01\" stores 0.1. Partial: literals whose integer part is zero. For all others it is proved that k leading zeros divide the number by 10^k."
  },
  {
   "property": "C17",
   "status": "proved",
   "theorems": [
    "Verif.C17_reload",
    "Verif.C17_reload_decimal",
    "Verif.C17_reload_zero",
    "Verif.C17_decimal_exact"
   ],
   "note": "Full statement; any decimal notation without redundant leading zeros, including str(Decimal)."
  },
  {
   "property": "C18",
   "status": "partial",
   "theorems": [
    "Verif.C18_load_float_false",
    "Verif.C18_load_float_partial",
    "Verif.C18_truncated"
   ],
   "note": "False of the code: 1.23 is stored as 1.2299999999999. Partial: floats whose exact expansion has at most 14 significant digits. For all floats it is proved that the exact expansion is truncated to 14 digits, or OverflowError raised."
  },
  {
   "property": "C19",
   "status": "partial",
   "theorems": [
    "Verif.C19_failed_load_false",
    "Verif.C19_failed_load_partial"
   ],
   "note": "False of the code: an exponent out of range raises after the mantissa was overwritten. Partial: every other failure leaves the number unchanged."
  },
  {
   "property": "C20",
   "status": "proved",
   "theorems": [
    "Verif.C20_negation"
   ],
   "note": "Full statement."
  },
  {
   "property": "C21",
   "status": "proved",
   "theorems": [
    "Verif.C21_fraction",
    "Verif.C21_sharp"
   ],
   "note": "Full statement with the wider bound 10^6; C21_sharp shows that the wider bound cannot be raised to 10^6+1. Python Decimal arithmetic with 14 digits and Fraction.limit_denominator are modelled from their documentation."
  },
  {
   "property": "C22",
   "status": "proved",
   "theorems": [
    "Verif.C22_entry_length"
   ],
   "note": "Full statement."
  },
  {
   "property": "C23",
   "status": "partial",
   "theorems": [
    "Verif.C23_entry_roundtrip_partial",
    "Verif.C23_entry_typed_partial",
    "Verif.C23_misfire_false",
    "Verif.C23_graphed_false"
   ],
   "note": "False of the code: an entry whose flash bytes equal its data length is read without them, and type 0x23 is rewritten. Partial: every other well-formed entry whose content determines its class."
  },
  {
   "property": "C24",
   "status": "proved",
   "theorems": [
    "Verif.C24_load_total",
    "Verif.C24_load_base"
   ],
   "note": "Full statement."
  },
  {
   "property": "C25",
   "status": "partial",
   "theorems": [
    "Verif.C25_archive",
    "Verif.C25_saveload_partial",
    "Verif.C25_saveload_false"
   ],
   "note": "Archiving proved in full; the save/load clause is false when the data has 0x8000 + version bytes, proved otherwise."
  },
  {
   "property": "C26",
   "status": "partial",
   "theorems": [
    "Verif.C26_sized_in_step_partial",
    "Verif.C26_image_false",
    "Verif.C26_reload_false",
    "Verif.C26_raise_false",
    "Verif.C76_graphed_false"
   ],
   "note": "False of assignments to images and to equations of graph databases, of reloads that misread the flash bytes and of assignments whose version computation raises. Partial: every other history of every sized class."
  },
  {
   "property": "C27",
   "status": "partial",
   "theorems": [
    "Verif.C27_var_roundtrip_partial",
    "Verif.C27_exact",
    "Verif.C27_var_roundtrip_false",
    "Verif.C27_mono_false"
   ],
   "note": "Proved for every header and every list of storable entries (well formed, flash bytes not repeating the data length, content that determines the class). The classes come back too, except those of monochrome graph databases longer than 61 bytes. False for the others (C27_var_roundtrip_false, C27_mono_false)."
  },
  {
   "property": "C28",
   "status": "proved",
   "theorems": [
    "Verif.C28_framing"
   ],
   "note": "Header and entries of their section widths, which C06 proves of every header and entry."
  },
  {
   "property": "C29",
   "status": "partial",
   "theorems": [
    "Verif.C29_len_false",
    "Verif.C29_len_partial"
   ],
   "note": "False: the length reported is always two short (the checksum or length field is left out). Partial: it is the length of the file less two, and grows by the length of each entry added."
  },
  {
   "property": "C30",
   "status": "partial",
   "theorems": [
    "Verif.C30_checksum",
    "Verif.C30_mismatch_partial",
    "Verif.C30_corruption_false"
   ],
   "note": "Sum and sensitivity proved for every var. The warning: proved for storable entries and any wrong stored checksum; false in general, since the checksum compared is recomputed from the entries as loaded."
  },
  {
   "property": "C31",
   "status": "proved",
   "theorems": [
    "Verif.C31_load_terminates"
   ],
   "note": ""
  },
  {
   "property": "C32",
   "status": "proved",
   "theorems": [
    "Verif.C32_offset"
   ],
   "note": "For every saved var that loads; a var that does not load has no entries to compare."
  },
  {
   "property": "C33",
   "status": "partial",
   "theorems": [
    "Verif.C33_add_entry_partial",
    "Verif.C33_add_entry_false"
   ],
   "note": "False for every entry without data; proved for every entry with data."
  },
  {
   "property": "C34",
   "status": "partial",
   "theorems": [
    "Verif.C34_header_roundtrip_partial",
    "Verif.C34_header_stream_false"
   ],
   "note": "False of the code: loading from a stream raises AttributeError. Partial: loading from bytes."
  },
  {
   "property": "C35",
   "status": "partial",
   "theorems": [
    "Verif.C35_header_targets",
    "Verif.C35_targets_spec",
    "Verif.C35_load_partial",
    "Verif.C35_load_crash_false",
    "Verif.C35_load_warning_false"
   ],
   "note": "First half proved. Loading is false of the code: for the four models alone in their target set min(*targets) raises TypeError; any model with an older co-target gets a spurious warning. Partial: the strictly oldest of at least two targets."
  },
  {
   "property": "C36",
   "status": "partial",
   "theorems": [
    "Verif.C36_extension_partial",
    "Verif.C36_extension_false",
    "Verif.C36_extension_witness_false"
   ],
   "note": "False of the code: KeyError for every model newer than a listed one but not itself listed. Partial: listed models, models older than all listed ones, no model."
  },
  {
   "property": "C37",
   "status": "proved",
   "theorems": [
    "Verif.C37_trie_match"
   ],
   "note": "Full statement, every table (duplicates included)."
  },
  {
   "property": "C38",
   "status": "proved",
   "theorems": [
    "Verif.C38_decode_bytes"
   ],
   "note": "Full statement."
  },
  {
   "property": "C39",
   "status": "proved",
   "theorems": [
    "Verif.C39_decode_concat"
   ],
   "note": "Full statement."
  },
  {
   "property": "C40",
   "status": "proved",
   "theorems": [
    "Verif.C40_encode_pieces",
    "Verif.C40_encode_error"
   ],
   "note": "Full statement."
  },
  {
   "property": "C41",
   "status": "proved",
   "theorems": [
    "Verif.C41_encode_terminates",
    "Verif.C41_empty_name_loops"
   ],
   "note": "Full statement; the second theorem shows the condition on empty names is needed."
  },
  {
   "property": "C42",
   "status": "proved",
   "theorems": [
    "Verif.C42_stack_never_empty",
    "Verif.C42_stack_shape"
   ],
   "note": "Full statement."
  },
  {
   "property": "C43",
   "status": "proved",
   "theorems": [
    "Verif.C43_max_munch",
    "Verif.C43_min_munch",
    "Verif.C43_munch_unique"
   ],
   "note": "Full statement, and the reading is unique."
  },
  {
   "property": "C44",
   "status": "proved",
   "theorems": [
    "Verif.C44_smart_mode",
    "Verif.C44_smart_unique"
   ],
   "note": "Full statement, and the reading is unique."
  },
  {
   "property": "C45",
   "status": "proved",
   "theorems": [
    "Verif.C45_escape_anywhere",
    "Verif.C45_escape_text"
   ],
   "note": "Full statement."
  },
  {
   "property": "C46",
   "status": "proved",
   "theorems": [
    "Verif.C46_decode_since",
    "Verif.C46_encode_since"
   ],
   "note": "Full statement."
  },
  {
   "property": "C47",
   "status": "partial",
   "theorems": [
    "Verif.C47_version_monotone",
    "Verif.C47_recognised_partial",
    "Verif.C47_recognised_false"
   ],
   "note": "Monotonicity proved. Recognition: false for minimum OS from 2.55 up to the colour models (07 and 27 are not in the list), proved outside that range."
  },
  {
   "property": "C48",
   "status": "partial",
   "theorems": [
    "Verif.C48_lines_partial",
    "Verif.C48_lines_false"
   ],
   "note": "False as soon as a store or quotation mark occurs (they are dropped); proved otherwise, and the lines are characterised for every token list."
  },
  {
   "property": "C49",
   "status": "partial",
   "theorems": [
    "Verif.C49_protect_partial",
    "Verif.C49_data_untouched",
    "Verif.C49_asm_false",
    "Verif.C49_becomes_asm_false"
   ],
   "note": "Proved for programs not taken for assembly, for every sequence of calls; false for assembly programs, where both calls raise."
  },
  {
   "property": "C50",
   "status": "partial",
   "theorems": [
    "Verif.C50_list_store",
    "Verif.C50_list_read_partial",
    "Verif.C50_flashless_false"
   ],
   "note": "Storing and the OverflowError proved in full. Reading back: proved for lists with flash bytes; a list without them cannot be read at all (AttributeError)."
  },
  {
   "property": "C51",
   "status": "partial",
   "theorems": [
    "Verif.C51_list_loads_partial",
    "Verif.C51_empty_false"
   ],
   "note": "Proved for nonempty lists whose first byte does not hide the element class; false for the empty list, which raises IndexError."
  },
  {
   "property": "C52",
   "status": "partial",
   "theorems": [
    "Verif.C52_matrix_store",
    "Verif.C52_ragged",
    "Verif.C52_matrix_read_partial",
    "Verif.C52_flashless_false"
   ],
   "note": "Storing and rejection proved in full. Reading back: proved for matrices with flash bytes; a matrix without them cannot be read (AttributeError)."
  },
  {
   "property": "C53",
   "status": "partial",
   "theorems": [
    "Verif.C53_array_version_false",
    "Verif.C53_array_version_partial"
   ],
   "note": "False: the version is 0 for every content. Partial: content whose elements all require version 0."
  },
  {
   "property": "C54",
   "status": "proved",
   "theorems": [
    "Verif.C54_l1",
    "Verif.C54_l1_pixels",
    "Verif.C54_rgb565",
    "Verif.C54_palette"
   ],
   "note": "Full statement."
  },
  {
   "property": "C55",
   "status": "proved",
   "theorems": [
    "Verif.C55_nearest"
   ],
   "note": "Full statement; distances are compared by their squares."
  },
  {
   "property": "C56",
   "status": "proved",
   "theorems": [
    "Verif.C56_mono",
    "Verif.C56_mono_uneven",
    "Verif.C56_picture",
    "Verif.C56_image"
   ],
   "note": "Full statement, and what other pixels become."
  },
  {
   "property": "C57",
   "status": "partial",
   "theorems": [
    "Verif.C57_image_length_false",
    "Verif.C57_image_length_partial"
   ],
   "note": "False for every image: the magic byte is not counted and reloading warns. Partial: everything but the length field survives, and the warnings are exactly known."
  },
  {
   "property": "C58",
   "status": "proved",
   "theorems": [
    "Verif.C58_write",
    "Verif.C58_refused",
    "Verif.C58_history",
    "Verif.C58_read",
    "Verif.C58_number"
   ],
   "note": "Full statement; the first four leave the conversion to int and float open, C58_number puts it in."
  },
  {
   "property": "C59",
   "status": "partial",
   "theorems": [
    "Verif.C59_read",
    "Verif.C59_replace",
    "Verif.C59_equations_partial",
    "Verif.C59_pair_false"
   ],
   "note": "Replacement and reading proved for every database; false for the style and colour of the Y component of a parametric curve, which are dropped."
  },
  {
   "property": "C60",
   "status": "partial",
   "theorems": [
    "Verif.C60_length_false",
    "Verif.C60_length_partial"
   ],
   "note": "False whenever the number of tokens changes. Partial: equations of the same length."
  },
  {
   "property": "C61",
   "status": "partial",
   "theorems": [
    "Verif.C61_fresh_false",
    "Verif.C61_fresh_partial"
   ],
   "note": "False: the new equation claims one token. Partial: after loading an equation, also an empty one."
  },
  {
   "property": "C62",
   "status": "partial",
   "theorems": [
    "Verif.C62_group_partial",
    "Verif.C62_flashless_false",
    "Verif.C62_list_false",
    "Verif.C62_complex_false",
    "Verif.C62_matrix_false",
    "Verif.C62_name_false",
    "Verif.C62_graphed_false"
   ],
   "note": "False: groups with lists, complex numbers or graphed equations, or starting with an entry without flash bytes, cannot be made; matrices and entries with names longer than three bytes are misread. Partial: lists of all other entries, nested groups included, come back with type, name, version, archived flag and data."
  },
  {
   "property": "C63",
   "status": "partial",
   "theorems": [
    "Verif.C63_block_partial",
    "Verif.C63_checksum",
    "Verif.C63_short",
    "Verif.C63_empty_false"
   ],
   "note": "Proved for every block that has data, and that another checksum and missing data are noticed. False for blocks made without data, which cannot be serialised (AttributeError)."
  },
  {
   "property": "C64",
   "status": "partial",
   "theorems": [
    "Verif.C64_load_partial",
    "Verif.C64_roundtrip_partial",
    "Verif.C64_exact",
    "Verif.C64_len",
    "Verif.C64_short",
    "Verif.C64_new_false",
    "Verif.C64_loaded_false",
    "Verif.C64_reload_false"
   ],
   "note": "False for every header made by the library and for every loaded one whose name has not eight bytes or that has several devices. Partial: loading any header as flash files have it gives its fields; it serialises to the same bytes exactly when the name has eight bytes and there is one device."
  },
  {
   "property": "C65",
   "status": "partial",
   "theorems": [
    "Verif.C65_next_partial",
    "Verif.C65_offset_partial",
    "Verif.C65_end",
    "Verif.C65_open_partial",
    "Verif.C65_new_false"
   ],
   "note": "Proved for headers as flash files have them. False for headers made by the library, which have another layout."
  },
  {
   "property": "C66",
   "status": "proved",
   "theorems": [
    "Verif.C66_load_string_terminates"
   ],
   "note": "Every string."
  },
  {
   "property": "C67",
   "status": "partial",
   "theorems": [
    "Verif.C67_name_limit_false",
    "Verif.C67_name_limit_partial"
   ],
   "note": "False of the code: one token more than documented is read minimally. Partial: names that end within the documented limits."
  },
  {
   "property": "C68",
   "status": "partial",
   "theorems": [
    "Verif.C68_meta_conflict_partial",
    "Verif.C68_meta_conflict_false"
   ],
   "note": "False for every var of two or more flashless entries; proved for flash entries."
  },
  {
   "property": "C69",
   "status": "partial",
   "theorems": [
    "Verif.C69_load_tokens_partial",
    "Verif.C69_empty_false"
   ],
   "note": "Proved for nonempty sequences; false for the empty one, whose version comes from the replaced data."
  },
  {
   "property": "C70",
   "status": "partial",
   "theorems": [
    "Verif.C70_load_string_partial",
    "Verif.C70_codes",
    "Verif.C70_load_string_error",
    "Verif.C70_literal_false",
    "Verif.C70_quotes_false"
   ],
   "note": "The codes of the pieces are stored for every text that can be encoded. Reading back is false of byte literals, which are read as tokens, and of string entries with quotation marks at the ends, which are lost. Partial: text without byte literals."
  },
  {
   "property": "C71",
   "status": "partial",
   "theorems": [
    "Verif.C71_image_name_false",
    "Verif.C71_image_name_partial",
    "Verif.C71_image_name_default"
   ],
   "note": "False for the tenth image, whose name cannot be set. Proved for the other nine."
  },
  {
   "property": "C72",
   "status": "partial",
   "theorems": [
    "Verif.C72_dict_false",
    "Verif.C72_dict_partial"
   ],
   "note": "False: loading always raises ValueError. Partial: loading changes nothing."
  },
  {
   "property": "C73",
   "status": "proved",
   "theorems": [
    "Verif.C73_number",
    "Verif.C73_equation"
   ],
   "note": "Full statement."
  },
  {
   "property": "C74",
   "status": "partial",
   "theorems": [
    "Verif.C74_blocks_partial",
    "Verif.C74_empty_false",
    "Verif.C74_line_end_false"
   ],
   "note": "Proved for at least one record. False without records and with a line end after the last record (ValueError)."
  },
  {
   "property": "C75",
   "status": "proved",
   "theorems": [
    "Verif.C75_blank"
   ],
   "note": "Full statement; the version of blank graph databases is computed from their equations and left open. That no OS version of the table is older than the initial one is a hypothesis, since the table is in a missing submodule."
  },
  {
   "property": "C76",
   "status": "partial",
   "theorems": [
    "Verif.C76_assign_partial",
    "Verif.C76_too_long",
    "Verif.C76_complex_short",
    "Verif.C76_graphed_false",
    "Verif.C76_graphed_too_long",
    "Verif.C26_raise_false"
   ],
   "note": "False of equations of graph databases, whose data overlap the length, and of groups: data that cannot be ungrouped raise after the length has been changed. Partial: everything else."
  },
  {
   "property": "C77",
   "status": "partial",
   "theorems": [
    "Verif.C77_copy_partial",
    "Verif.C77_asm_false",
    "Verif.C77_empty_list_false",
    "Verif.C77_misfire_false",
    "Verif.C77_class_false"
   ],
   "note": "False of assembly programs and empty lists (copying raises), of entries whose flash bytes repeat the data length and of content that suggests another class. Partial: every other entry."
  },
  {
   "property": "C78",
   "status": "proved",
   "theorems": [
    "Verif.C78_rounding"
   ],
   "note": "Full statement."
  },
  {
   "property": "C79",
   "status": "proved",
   "theorems": [
    "Verif.C79_text",
    "Verif.C79_ratio",
    "Verif.C79_zero",
    "Verif.C79_decimal",
    "Verif.C79_float"
   ],
   "note": "Full statement; texts are those of the grammar of literals without tilde and with a digit, and ratios of digit strings."
  },
  {
   "property": "C80",
   "status": "proved",
   "theorems": [
    "Verif.C80_text_roundtrip"
   ],
   "note": "Full statement."
  },
  {
   "property": "C81",
   "status": "proved",
   "theorems": [
    "Verif.C81_pi_fraction",
    "Verif.C81_sharp"
   ],
   "note": "Full statement; C81_sharp shows a fraction just above the bound which is lost."
  },
  {
   "property": "C82",
   "status": "partial",
   "theorems": [
    "Verif.C82_pi_text_partial",
    "Verif.C82_pi_text_false"
   ],
   "note": "False of whole multiples of pi, which print without the pi that loading requires. Partial: every other fraction, and zero."
  },
  {
   "property": "C83",
   "status": "partial",
   "theorems": [
    "Verif.C83_pi_partial",
    "Verif.C83_pi_false"
   ],
   "note": "False of a bare pi, which loads as zero. Partial: every literal in all four spellings, and the refusal of other texts."
  },
  {
   "property": "C84",
   "status": "proved",
   "theorems": [
    "Verif.C84_text"
   ],
   "note": "Full statement. Python formatting with .14f is modelled from its documentation."
  },
  {
   "property": "C85",
   "status": "partial",
   "theorems": [
    "Verif.C85_reload_partial",
    "Verif.C85_reload_zero",
    "Verif.C85_reload_false"
   ],
   "note": "False of numbers with digits beyond the 14th decimal: 10^-15 prints as 0. Partial: every number with at most 14 decimals, and zero."
  },
  {
   "property": "C86",
   "status": "partial",
   "theorems": [
    "Verif.C86_pi_text_partial",
    "Verif.C86_pi_text_false"
   ],
   "note": "False of 0 times pi, which prints as 0 and cannot be loaded. Partial: every nonzero factor with at most 14 decimals."
  },
  {
   "property": "C87",
   "status": "partial",
   "theorems": [
    "Verif.C87_load_partial",
    "Verif.C87_refused",
    "Verif.C87_load_false",
    "Verif.C87_large_false",
    "Verif.C87_empty_false"
   ],
   "note": "False of \"0\" (refused), of numbers from 1000 on (stored as other numbers, no warning) and of the empty text (loads as 1). Partial: every text of the grammar with numbers below 1000 that the code accepts loads with its exact value; which texts are refused is characterised exactly."
  },
  {
   "property": "C88",
   "status": "partial",
   "theorems": [
    "Verif.C88_text",
    "Verif.C88_reload_partial",
    "Verif.C88_value_partial",
    "Verif.C88_reload_false"
   ],
   "note": "The text always denotes the value of the fields. Reloading is false of zero and of a left part of zero; the same fields and text are proved for every radical with a nonzero left part and the larger radicand on the left. For fields in any order it is decided which texts are refused, and all others are proved to load as the same value; only equal roots that add up to more than three digits are left out, which C87_large_false covers by an example."
  },
  {
   "property": "C89",
   "status": "proved",
   "theorems": [
    "Verif.C89_set_real",
    "Verif.C89_set_imag",
    "Verif.C89_value"
   ],
   "note": "Full statement. Undefined numbers read back as ordinary ones."
  },
  {
   "property": "C90",
   "status": "partial",
   "theorems": [
    "Verif.C90_assigned_number_partial",
    "Verif.C90_assigned_number_false"
   ],
   "note": "False: the subtype of the assigned number is overwritten, so that a list made of it is taken for a complex list. Partial: only the low six bits of its first byte change, so value and text do not."
  },
  {
   "property": "C91",
   "status": "partial",
   "theorems": [
    "Verif.C91_load_partial",
    "Verif.C91_kinds_partial",
    "Verif.C91_other_kind",
    "Verif.C91_no_kind",
    "Verif.C91_load_false",
    "Verif.C91_forms_false"
   ],
   "note": "False: 1-i loads as 1-0i, 1e-5+2i as 1-5i, 1+2 as 1+2i. Partial: every text whose numbers have no sign in the exponent and whose bare unit is not negative; how the text is split is proved for all kinds of parts, and which kind is taken when the one at hand refuses the text of the real part."
  },
  {
   "property": "C92",
   "status": "partial",
   "theorems": [
    "Verif.C92_reload_partial",
    "Verif.C92_reload_false",
    "Verif.C92_fraction_false"
   ],
   "note": "False of a-i, and of fractional parts, where the unit is lost. Partial: ordinary parts with at most 14 decimals, except a-i with a not zero."
  },
  {
   "property": "C93",
   "status": "partial",
   "theorems": [
    "Verif.C93_version_partial",
    "Verif.C93_version_bit",
    "Verif.C93_version_false"
   ],
   "note": "False: a sign or graph bit makes the version 0x10. Partial: all numbers without such bits."
  },
  {
   "property": "C94",
   "status": "partial",
   "theorems": [
    "Verif.C94_element_partial",
    "Verif.C94_refused",
    "Verif.C94_forms_false"
   ],
   "note": "False: 2*3 loads as the radical 23, π as 0π, 3pi/4 is refused. Partial: all texts of the five forms that fit their class (ratios without ~, radicals that C87 covers, multiples of pi without exponent)."
  },
  {
   "property": "C95",
   "status": "partial",
   "theorems": [
    "Verif.C95_list_load_partial",
    "Verif.C95_first_error",
    "Verif.C95_numbers",
    "Verif.C95_list_refused",
    "Verif.C95_complex",
    "Verif.C95_unit_false",
    "Verif.C95_empty_false"
   ],
   "note": "False: the text of the empty list loads as [0], and the unit [i] loses its bracket at the end. Partial: all texts without delimiters inside the elements."
  },
  {
   "property": "C96",
   "status": "partial",
   "theorems": [
    "Verif.C96_matrix_load_partial",
    "Verif.C96_numbers",
    "Verif.C96_ragged",
    "Verif.C96_refused",
    "Verif.C96_empty_false"
   ],
   "note": "False: [[]] loads as [[0]]. Partial: all matrices with elements."
  },
  {
   "property": "C97",
   "status": "partial",
   "theorems": [
    "Verif.C97_list_text_partial",
    "Verif.C97_complex_text_partial",
    "Verif.C97_list_text_false",
    "Verif.C97_unknown"
   ],
   "note": "False of the empty list and of whole fractions, which load as ordinary numbers. Partial: all lists of numbers whose text has the form of their kind."
  },
  {
   "property": "C98",
   "status": "partial",
   "theorems": [
    "Verif.C98_matrix_text_partial",
    "Verif.C98_matrix_text_false"
   ],
   "note": "False of whole fractions. Partial: all matrices of numbers whose text has the form of their kind."
  },
  {
   "property": "C99",
   "status": "proved",
   "theorems": [
    "Verif.C99_load",
    "Verif.C99_refused"
   ],
   "note": ""
  },
  {
   "property": "C100",
   "status": "partial",
   "theorems": [
    "Verif.C100_reload_partial",
    "Verif.C100_text_false",
    "Verif.C100_reload_false",
    "Verif.C100_mono_false"
   ],
   "note": "False of every equation with 1 to 255 tokens, whose text starts with an escaped null byte, and of equations without a colour. Partial: equations without tokens."
  },
  {
   "property": "C101",
   "status": "partial",
   "theorems": [
    "Verif.C101_load_partial",
    "Verif.C101_sequence_false",
    "Verif.C101_colors_false",
    "Verif.C101_mode_false"
   ],
   "note": "False of dictionaries of sequences as the library writes them (KeyError), of colours for a database without, and of another mode. Partial: all other dictionaries with known names."
  },
  {
   "property": "C102",
   "status": "partial",
   "theorems": [
    "Verif.C102_reload_partial",
    "Verif.C102_mono_false",
    "Verif.C102_tokens_false",
    "Verif.C102_grid_false",
    "Verif.C102_border_false",
    "Verif.C102_sequence_false"
   ],
   "note": "False of databases without colours, sequences, equations with tokens, grids of lines and borders without a colour. Partial: all other databases with colours."
  },
  {
   "property": "C103",
   "status": "partial",
   "theorems": [
    "Verif.C103_real_partial",
    "Verif.C103_real_false",
    "Verif.C103_complex_partial",
    "Verif.C103_complex_false",
    "Verif.C103_list_partial",
    "Verif.C103_complex_list_partial",
    "Verif.C103_complex_list_false",
    "Verif.C103_tokens",
    "Verif.C103_asm",
    "Verif.C103_group",
    "Verif.C103_gdb_partial",
    "Verif.C103_class"
   ],
   "note": "False of negative fractions, whose sign bit hides the fraction, and of complex numbers with a sign bit or exact parts, for which asking raises TypeError. Partial: numbers without sign and graph bits; graph databases whose equations have fewer than 256 bytes and do not start with a null byte; tokens, assembly programs, groups and all other classes in full."
  },
  {
   "property": "C104",
   "status": "partial",
   "theorems": [
    "Verif.C104_features",
    "Verif.C104_real",
    "Verif.C104_other",
    "Verif.C104_list_false",
    "Verif.C104_complex_partial",
    "Verif.C104_complex_false",
    "Verif.C104_complex_list_partial",
    "Verif.C104_complex_list_false",
    "Verif.C104_var",
    "Verif.C104_var_partial",
    "Verif.C104_var_false"
   ],
   "note": "False of lists and matrices of radicals, of complex numbers, alone or in lists, with a sign bit or exact parts (TypeError) and of vars holding radicals. Partial: all other entries and vars."
  },
  {
   "property": "C105",
   "status": "partial",
   "theorems": [
    "Verif.C105_save_open_partial",
    "Verif.C105_failed_false",
    "Verif.C105_warnings",
    "Verif.C105_boundary_false",
    "Verif.C105_exact_false",
    "Verif.C105_name_partial",
    "Verif.C105_name_false"
   ],
   "note": "False of failed saves, which empty the file; of paths with a dot in a directory, which are given no extension; and of warnings for entries needing the latest OS and for radicals. Partial: vars of storable entries of less than 65536 bytes in all, whose minimum OS can be asked for."
  },
  {
   "property": "C106",
   "status": "partial",
   "theorems": [
    "Verif.C106_export_partial",
    "Verif.C106_export_false",
    "Verif.C106_first",
    "Verif.C106_save_open_partial",
    "Verif.C106_several_false"
   ],
   "note": "False of entries without data, for which another entry is exported, and of files of several entries unless the second has 11 or 13 bytes of data. Partial: entries with data whose content agrees with their class."
  },
  {
   "property": "C107",
   "status": "partial",
   "theorems": [
    "Verif.C107_hex",
    "Verif.C107_back",
    "Verif.C107_fromhex",
    "Verif.C107_refused",
    "Verif.C107_range",
    "Verif.C107_separator_false"
   ],
   "note": "False of letters as separators, whose case is changed too. Everything else is proved for all specifications."
  },
  {
   "property": "C108",
   "status": "partial",
   "theorems": [
    "Verif.C108_tokens",
    "Verif.C108_lines",
    "Verif.C108_language",
    "Verif.C108_number_refused",
    "Verif.C108_hex_partial",
    "Verif.C108_hex_false",
    "Verif.C108_language_false"
   ],
   "note": "False of hexadecimal text with a small x and a separator, which is taken for line numbers, and of entries with illegal bytes in languages other than English. Partial: all other specifications."
  },
  {
   "property": "C109",
   "status": "partial",
   "theorems": [
    "Verif.C109_text",
    "Verif.C109_reload_partial",
    "Verif.C109_refused",
    "Verif.C109_reload_false",
    "Verif.C109_complex_text",
    "Verif.C109_complex_partial",
    "Verif.C109_complex_refused"
   ],
   "note": "False of numbers with a denominator, whose n/d no loader accepts, and of complex numbers with a nonzero real and a negative imaginary part. Partial: all other numbers whose ordinary text is of the form of their kind; the text itself is proved for all of these."
  },
  {
   "property": "C110",
   "status": "partial",
   "theorems": [
    "Verif.C110_list_partial",
    "Verif.C110_list_refused",
    "Verif.C110_matrix_partial",
    "Verif.C110_matrix_refused",
    "Verif.C110_complex_partial",
    "Verif.C110_complex_refused",
    "Verif.C110_reload_false"
   ],
   "note": "False of lists and matrices with an element of which C109 is false and of complex lists whose last element has an imaginary part. Partial: all others."
  },
  {
   "property": "C111",
   "status": "partial",
   "theorems": [
    "Verif.C111_unknown",
    "Verif.C111_load",
    "Verif.C111_sequence",
    "Verif.C111_sequence_unknown",
    "Verif.C111_null",
    "Verif.C111_flags_false",
    "Verif.C111_forms_false"
   ],
   "note": "False of the names of extended settings, colour settings and forms of sequences among the format settings, which change the format without a warning. Partial: all other names, also together with settings of sequences. With null as the mode these raise AttributeError."
  },
  {
   "property": "C112",
   "status": "partial",
   "theorems": [
    "Verif.C112_load_partial",
    "Verif.C112_unwanted",
    "Verif.C112_wanted",
    "Verif.C112_file_false",
    "Verif.C112_tokens_false",
    "Verif.C112_equation_false",
    "Verif.C112_fraction_false"
   ],
   "note": "False of file objects, of sequences of tokens, of equations for graphed equations and of fractions for fractional multiples of pi. Partial: all other kinds of objects, in all classes."
  },
  {
   "property": "C113",
   "status": "partial",
   "theorems": [
    "Verif.C113_text_partial",
    "Verif.C113_dict_false",
    "Verif.C113_equation_false",
    "Verif.C113_copy_false"
   ],
   "note": "False of dictionaries, equations and copies: what is said of style, colour and flags is lost, and of an equation the first byte of the length is overwritten. Partial: texts."
  },
  {
   "property": "C114",
   "status": "partial",
   "theorems": [
    "Verif.C114_value_partial",
    "Verif.C114_sign_partial",
    "Verif.C114_denominator",
    "Verif.C114_zero_false"
   ],
   "note": "False of radicals whose roots cancel exactly: their decimal value need not be zero and their sign may be -1. Partial: all radicals whose value is not zero; if it is, the decimal value is at most 10^-21."
  },
  {
   "property": "C115",
   "status": "partial",
   "theorems": [
    "Verif.C115_negate_partial",
    "Verif.C115_radical_false"
   ],
   "note": "False of every radical: the sign bit is no part of its value, so that its negation has the same value, sign and text. Partial: all other kinds of real numbers."
  },
  {
   "property": "C116",
   "status": "partial",
   "theorems": [
    "Verif.C116_mono_partial",
    "Verif.C116_picture_partial",
    "Verif.C116_image_false",
    "Verif.C116_size_false",
    "Verif.C116_refused"
   ],
   "note": "False of images (.8ca), which are saved with a length that the plugin then refuses, and of images of another size with the same number of components. Partial: both kinds of pictures."
  },
  {
   "property": "C117",
   "status": "partial",
   "theorems": [
    "Verif.C117_new",
    "Verif.C117_number",
    "Verif.C117_flags_partial",
    "Verif.C117_flags_false",
    "Verif.C117_update_false",
    "Verif.C117_models",
    "Verif.C117_models_shared"
   ],
   "note": "False of <= and >= of flags, which always raise, and of updates with other numbers than 0 and 1. Partial: < and > of flags; models whose places differ."
  },
  {
   "property": "C118",
   "status": "partial",
   "theorems": [
    "Verif.C118_load_partial",
    "Verif.C118_other_parts",
    "Verif.C118_refused",
    "Verif.C118_exact_false"
   ],
   "note": "False of entries one of whose parts is a radical or a multiple of pi: nothing can be loaded into them. Partial: entries whose parts are real numbers or fractions."
  },
  {
   "property": "C119",
   "status": "partial",
   "theorems": [
    "Verif.C119_float",
    "Verif.C119_float_decimal",
    "Verif.C119_int_partial",
    "Verif.C119_int_false",
    "Verif.C119_complex"
   ],
   "note": "False of int: numbers above 2^53 become the whole number nearest to their float. Partial: numbers below 2^53."
  },
  {
   "property": "C120",
   "status": "partial",
   "theorems": [
    "Verif.C120_reload_partial",
    "Verif.C120_close",
    "Verif.C120_whole",
    "Verif.C120_false",
    "Verif.C120_gdb_partial",
    "Verif.C120_gdb_false",
    "Verif.C120_kind_false"
   ],
   "note": "False of numbers of up to five digits that are no floats: 0.3 becomes 0.29999999999999, also in graph databases, and of fractions and multiples of pi, which become plain numbers. Partial: numbers with six digits or more and numbers that are floats; for all others at least twelve digits are kept."
  },
  {
   "property": "C121",
   "status": "partial",
   "theorems": [
    "Verif.C121_init_partial",
    "Verif.C121_gdb_partial",
    "Verif.C121_colors_false",
    "Verif.C121_version_false"
   ],
   "note": "False of colour databases, whose grid and axes colours are replaced, and of the version, which is computed anew unless one is given (and then that one is ignored). Partial: everything but the version and these colours."
  },
  {
   "property": "C122",
   "status": "partial",
   "theorems": [
    "Verif.C122_mono_partial",
    "Verif.C122_length_false"
   ],
   "note": "False of the length field, which is never adjusted, so that there are always two warnings. Partial: class, type, name, flag and all parts of the content."
  },
  {
   "property": "C123",
   "status": "partial",
   "theorems": [
    "Verif.C123_header",
    "Verif.C123_copy_partial",
    "Verif.C123_eq",
    "Verif.C123_name_false",
    "Verif.C123_mono_false"
   ],
   "note": "False of the name and the model of a var, which copies never have, and of vars with monochrome graph databases. Partial: headers, comparisons, and header and entries of vars."
  },
  {
   "property": "C124",
   "status": "partial",
   "theorems": [
    "Verif.C124_join_partial",
    "Verif.C124_separate",
    "Verif.C124_empty_false",
    "Verif.C124_falsy_false",
    "Verif.C124_shared_false"
   ],
   "note": "False of empty lists, of entries without data and of vars made from one header, which share it. Partial: entries with data; vars with headers of their own."
  },
  {
   "property": "C125",
   "status": "partial",
   "theorems": [
    "Verif.C125_json",
    "Verif.C125_read",
    "Verif.C125_text",
    "Verif.C125_back_partial",
    "Verif.C125_invalid",
    "Verif.C125_emptied",
    "Verif.C125_emptied_false",
    "Verif.C125_settings_false",
    "Verif.C125_pairs_false"
   ],
   "note": "False of JSON that is no dictionary, which empties the database before it is refused, and of settings, whose text can never be loaded. Partial: the same bytes for plain function, parametric and polar databases with numbers that survive JSON (C102, C120)."
  },
  {
   "property": "C126",
   "status": "partial",
   "theorems": [
    "Verif.C126_load_partial",
    "Verif.C126_null_partial",
    "Verif.C126_sequence_false",
    "Verif.C126_mono_false",
    "Verif.C126_base_false"
   ],
   "note": "False of sequence databases, whose default is refused with KeyError; of databases without colours, which are corrupted; and of the classes without a mode, which have no default. Partial: function, parametric and polar databases with colours."
  },
  {
   "property": "C127",
   "status": "partial",
   "theorems": [
    "Verif.C127_extension_partial",
    "Verif.C127_default",
    "Verif.C127_extension_false",
    "Verif.C127_save_open_partial",
    "Verif.C127_missing",
    "Verif.C127_emptied_false",
    "Verif.C127_new_false"
   ],
   "note": "False of models that are not listed themselves, which get the default extension; of headers whose bytes cannot be made, for which the old file is emptied; and of all new headers. Partial: listed models; headers with a name of eight bytes and one device."
  },
  {
   "property": "C128",
   "status": "partial",
   "theorems": [
    "Verif.C128_read",
    "Verif.C128_devices",
    "Verif.C128_assign_false",
    "Verif.C128_name_partial",
    "Verif.C128_name_false"
   ],
   "note": "False of device type, type ID, data and license, to which nothing can ever be assigned, and of headers with an assigned name, which no longer load. Partial: reading all of them; assigning devices; assigning names as far as reading them back."
  },
  {
   "property": "C129",
   "status": "partial",
   "theorems": [
    "Verif.C129_dict_partial",
    "Verif.C129_color_false",
    "Verif.C129_style_false",
    "Verif.C129_vertweb_false",
    "Verif.C129_default",
    "Verif.C129_read",
    "Verif.C129_load_partial",
    "Verif.C129_load_false",
    "Verif.C129_line_false"
   ],
   "note": "False of every database with colours, of unnamed modes, styles and colours and of VertWeb; it is proved exactly which dictionaries conform. The default dictionaries conform. Loading: dictionaries that conform have known kinds and names only; complete ones without settings of sequences load; incomplete ones are refused, and the style of lines is ignored."
  },
  {
   "property": "C130",
   "status": "partial",
   "theorems": [
    "Verif.C130_real",
    "Verif.C130_stored_partial",
    "Verif.C130_error",
    "Verif.C130_list",
    "Verif.C130_matrix",
    "Verif.C130_complex",
    "Verif.C130_complex_false"
   ],
   "note": "False of every complex number: with decimals the text for typing has the letter j instead of [i]. Rounding is proved for all kinds of numbers, lists and matrices; reloading for numbers stored by their digits whose text has at most 14 digits."
  },
  {
   "property": "C131",
   "status": "proved",
   "theorems": [
    "Verif.C131_stored",
    "Verif.C131_long",
    "Verif.C131_error",
    "Verif.C131_spelled",
    "Verif.C131_again",
    "Verif.C131_settings"
   ],
   "note": ""
  },
  {
   "property": "C132",
   "status": "partial",
   "theorems": [
    "Verif.C132_stored_partial",
    "Verif.C132_builtin_read",
    "Verif.C132_builtin_false",
    "Verif.C132_custom_false",
    "Verif.C132_idlist_false"
   ],
   "note": "False of L1 to L6, which are stored as a letter and a digit, of names of users, which lose their first byte when assigned again, and of IDList. Partial: the name is stored as the tokens of the text in capitals and reads back, with the warning about its length."
  },
  {
   "property": "C133",
   "status": "partial",
   "theorems": [
    "Verif.C133_entry_partial",
    "Verif.C133_var_partial",
    "Verif.C133_flash_partial",
    "Verif.C133_load_false"
   ],
   "note": "False of lists without a first element (IndexError), complex numbers without imaginary part (ValueError), the classes of assembly programs (UserWarning) and flash headers shorter than 50 bytes; one such entry makes a whole var fail. Partial: for arbitrary bytes, exactly which exception is raised, from the class, the type byte and the amount of data; in all other cases there is none."
  },
  {
   "property": "C134",
   "status": "partial",
   "theorems": [
    "Verif.C134_entry_partial",
    "Verif.C134_var_partial",
    "Verif.C134_flash_partial",
    "Verif.C134_open_false"
   ],
   "note": "False of files with fewer than two bytes opened as an entry and fewer than 78 opened as a flash header (OSError), and of what C133 excludes. Partial: exactly which exception is raised for arbitrary contents; every file of 78 bytes or more opens as a flash header, and no file is changed."
  },
  {
   "property": "C135",
   "status": "partial",
   "theorems": [
    "Verif.C135_named",
    "Verif.C135_default_partial",
    "Verif.C135_default_false"
   ],
   "note": "False of lists, whose default name L1 is stored as a letter and a digit. Partial: the default names of all other classes (the general part, about given names, is proved for lists too)."
  },
  {
   "property": "C136",
   "status": "partial",
   "theorems": [
    "Verif.C136_class_partial",
    "Verif.C136_text",
    "Verif.C136_anywhere_false"
   ],
   "note": "False of programs that contain a mark, or its two bytes, anywhere but at the start, for instance inside of a string: they become assembly programs. Partial: programs without a mark behind the first token; for all programs made of tokens it is proved exactly which become assembly programs."
  },
  {
   "property": "C137",
   "status": "partial",
   "theorems": [
    "Verif.C137_new",
    "Verif.C137_codes",
    "Verif.C137_names_partial",
    "Verif.C137_names_false",
    "Verif.C137_tries"
   ],
   "note": "False of a name that two languages give to different tokens: the last language decides, even against the English name. Partial: sheets in which no name stands for two tokens; in general it is proved which token is found. The other parts are proved in full, for tries of sheets whose indices agree with their tokens."
  },
  {
   "property": "C138",
   "status": "partial",
   "theorems": [
    "Verif.C138_equation_partial",
    "Verif.C138_inverse",
    "Verif.C138_equation_false"
   ],
   "note": "False of a graphed equation whose version and archive flag read as a number are the length of its data: it is taken for one without flash and the equation taken out is shifted by two bytes. Partial: all others, for which the entry taken out, its warnings and both directions of the round trip are proved."
  },
  {
   "property": "C139",
   "status": "proved",
   "theorems": [
    "Verif.C139_mono",
    "Verif.C139_picture",
    "Verif.C139_image",
    "Verif.C139_mono_written",
    "Verif.C139_picture_written",
    "Verif.C139_image_written"
   ],
   "note": ""
  },
  {
   "property": "C140",
   "status": "partial",
   "theorems": [
    "Verif.C140_list_partial",
    "Verif.C140_matrix_partial",
    "Verif.C140_length_false"
   ],
   "note": "False of lists and matrices whose length field or number of rows does not agree with their data: these are not looked at. Partial: the elements come from all complete groups of the data, whatever the field says, and are as many as the field says exactly if the data are that long; without flash reading raises (C50, C52)."
  },
  {
   "property": "C141",
   "status": "partial",
   "theorems": [
    "Verif.C141_text_partial",
    "Verif.C141_long",
    "Verif.C141_flash_false"
   ],
   "note": "False of short texts whose computed version is the length of the entry: a program of ten bytes using eval( has version 12 and is read back shifted by two bytes. Partial: every text for which version and archive flag do not read as the length, in particular every text of at least 43 bytes in an entry that is not archived."
  },
  {
   "property": "C142",
   "status": "partial",
   "theorems": [
    "Verif.C142_real",
    "Verif.C142_zero",
    "Verif.C142_list_partial",
    "Verif.C142_matrix",
    "Verif.C142_mono",
    "Verif.C142_picture",
    "Verif.C142_image",
    "Verif.C142_empty_false"
   ],
   "note": "False of the empty list, whose file cannot be opened. Everything else of the statement is proved; a list that begins with a multiple of pi by a fraction, and every image, open with a warning that is not about damage."
  },
  {
   "property": "C143",
   "status": "partial",
   "theorems": [
    "Verif.C143_group_partial",
    "Verif.C143_length_false"
   ],
   "note": "False of groups whose data has 32766 bytes, or as many more as their version says: version and archive flag are then taken for the length and the data are shifted by two bytes. Partial: all groups with fewer than 32766 or more than 33021 bytes of data, of entries that can be grouped (C62)."
  },
  {
   "property": "C144",
   "status": "partial",
   "theorems": [
    "Verif.C144_open",
    "Verif.C144_quiet_partial",
    "Verif.C144_assigned_partial",
    "Verif.C144_stray_false"
   ],
   "note": "False of lists and matrices with seven or more stray bytes, or the last element of which lacks one or two bytes: the number of elements is compared with the length of the data and the length field together. Partial: silence is proved equivalent to the conditions that are really asked."
  },
  {
   "property": "C145",
   "status": "partial",
   "theorems": [
    "Verif.C145_file_partial",
    "Verif.C145_length_false"
   ],
   "note": "False of dictionaries with equations: the length field stays that of a database without tokens, and opening the file says so. Partial: everything but that warning, unless version and archive flag of the entry read as its length."
  },
  {
   "property": "C146",
   "status": "partial",
   "theorems": [
    "Verif.C146_first",
    "Verif.C146_refused",
    "Verif.C146_number_partial",
    "Verif.C146_real",
    "Verif.C146_tokens_partial",
    "Verif.C146_list_false",
    "Verif.C146_matrix_false"
   ],
   "note": "False of lists: the text {1,2} becomes an equation, which is asked first. False of meaningless texts: one or two characters that nothing else reads become a matrix of one zero. Partial: for whatever constructors, the first class that accepts the text decides, and refusal by all gives ValueError and no change; numbers as in C94; tokenisable text becomes an equation unless its version is mistaken for its length. What graphed equations, databases, groups, pictures and settings do with a text is a parameter."
  },
  {
   "property": "C147",
   "status": "proved",
   "theorems": [
    "Verif.C147_register",
    "Verif.C147_place",
    "Verif.C147_last",
    "Verif.C147_order",
    "Verif.C147_values",
    "Verif.C147_list",
    "Verif.C147_own",
    "Verif.C147_flash"
   ],
   "note": ""
  },
  {
   "property": "C148",
   "status": "proved",
   "theorems": [
    "Verif.C148_real",
    "Verif.C148_complex",
    "Verif.C148_float",
    "Verif.C148_assigned"
   ],
   "note": ""
  },
  {
   "property": "C149",
   "status": "partial",
   "theorems": [
    "Verif.C149_reload_partial",
    "Verif.C149_file_partial",
    "Verif.C149_reload_false"
   ],
   "note": "False of the code: a selected equation of a graph database becomes an ordinary one, a complex number with an imaginary part of unknown type an entry of no class, an entry whose data is cut off may lose its flash bytes, and a header length other than 11 and 13 is read and written differently. Partial: for all other bytes the second reading gives the same entry without warnings about the layout, also through files."
  },
  {
   "property": "C150",
   "status": "partial",
   "theorems": [
    "Verif.C150_exact",
    "Verif.C150_text_partial",
    "Verif.C150_unmistakable_partial",
    "Verif.C150_text_false"
   ],
   "note": "False of the code: adjacent tokens may spell another one, tokens in string literals are read minimally, and a string loses quotation marks at its ends. Partial: exactly the entries whose text reads as the same codes load back, among them all entries of tokens with unmistakable names. The text is assumed to be normalised already."
  },
  {
   "property": "C151",
   "status": "partial",
   "theorems": [
    "Verif.C151_pieces",
    "Verif.C151_reload_partial",
    "Verif.C151_file_partial",
    "Verif.C151_reload_false"
   ],
   "note": "What loading gives is proved in full. False of the code is that reading again gives the same: an equation of a graph database becomes an ordinary one, and an entry whose data is cut off at the end of the file may lose its flash bytes. Partial: for vars without a model whose pieces are all there and steady, and whose entries fit one file."
  },
  {
   "property": "C152",
   "status": "proved",
   "theorems": [
    "Verif.C152_open",
    "Verif.C152_var",
    "Verif.C152_saved",
    "Verif.C152_borrowed",
    "Verif.C152_position"
   ],
   "note": "For entries the saving is without a model; parts of headers have their widths, as all headers that the library makes or loads."
  },
  {
   "property": "C153",
   "status": "partial",
   "theorems": [
    "Verif.C153_raw",
    "Verif.C153_meta_partial",
    "Verif.C153_flashless_false"
   ],
   "note": "False of every entry without flash bytes: its meta section has version and archive flag although they are not written. Partial: entries with flash bytes; the raw container is proved in full."
  },
  {
   "property": "C154",
   "status": "proved",
   "theorems": [
    "Verif.C154_clear",
    "Verif.C154_truth",
    "Verif.C154_empty",
    "Verif.C154_position"
   ],
   "note": ""
  }
 ]
}