{
 "claims": [
  {
   "property": "C01",
   "status": "proved",
   "theorems": [
    "Gvas.C01_scalars_roundtrip",
    "Gvas.C01_scalars_little_endian"
   ],
   "note": "all widths, every value, any following bytes and position"
  },
  {
   "property": "C02",
   "status": "proved",
   "theorems": [
    "Gvas.C02_strings_roundtrip"
   ],
   "note": "every string whose stored length is within the limit"
  },
  {
   "property": "C03",
   "status": "proved",
   "theorems": [
    "Gvas.C03_too_long_rejected",
    "Gvas.C03_limit_exact"
   ],
   "note": "both sides of the limit"
  },
  {
   "property": "C04",
   "status": "proved",
   "theorems": [
    "Gvas.C04_null_vs_empty"
   ],
   "note": ""
  },
  {
   "property": "C05",
   "status": "proved",
   "theorems": [
    "Gvas.C05_decoded_strings_valid",
    "Gvas.C05_valid_strings_accepted",
    "Gvas.C05_strings_never_panic"
   ],
   "note": ""
  },
  {
   "property": "C06",
   "status": "partial",
   "theorems": [
    "Gvas.C06_ascii_count_wrong",
    "Gvas.C06_counts_wrong",
    "Gvas.C06_wide_count_partial",
    "Gvas.C06_scalar_body_partial",
    "Gvas.C06_property_count_partial",
    "Gvas.C06_header_count_partial"
   ],
   "note": "False as stated: negations proved for strings, properties and headers. Proved instead: by how much the count of every property and every header is off (Spec.countOver: characters of ASCII strings count twice, the type name of a name property not at all, a number of gameplay tags as itself instead of four bytes); it is right for null and non-ASCII strings and for bodies without strings"
  },
  {
   "property": "C07",
   "status": "proved",
   "theorems": [
    "Gvas.C07_read_bool",
    "Gvas.C07_read_b32",
    "Gvas.C07_bools_roundtrip"
   ],
   "note": ""
  },
  {
   "property": "C08",
   "status": "proved",
   "theorems": [
    "Gvas.C08_enums_strict"
   ],
   "note": "every enum read through read_enum"
  },
  {
   "property": "C09",
   "status": "proved",
   "theorems": [
    "Gvas.C09_guid_conversions",
    "Gvas.C09_guid_representations_agree",
    "Gvas.C09_is_zero"
   ],
   "note": ""
  },
  {
   "property": "C10",
   "status": "proved",
   "theorems": [
    "Gvas.C10_guid_spellings",
    "Gvas.C10_guid_display_roundtrip",
    "Gvas.C10_guid_display_injective"
   ],
   "note": ""
  },
  {
   "property": "C100",
   "status": "proved",
   "theorems": [
    "Gvas.C100_reading",
    "Gvas.C100_writing",
    "Gvas.C100_body_moves",
    "Gvas.C100_exactly",
    "Gvas.C100_dropped",
    "Gvas.C100_representable",
    "Gvas.C100_kept",
    "Gvas.C100_lost",
    "Gvas.C100_entry_lost"
   ],
   "note": ""
  },
  {
   "property": "C101",
   "status": "proved",
   "theorems": [
    "Gvas.C101_found",
    "Gvas.C101_exact",
    "Gvas.C101_hash_decides",
    "Gvas.C101_filled",
    "Gvas.C101_beyond"
   ],
   "note": "Shows how far the key test of the model (sameKey) is that of the library; the hash is idealised to the data fed to it."
  },
  {
   "property": "C102",
   "status": "proved",
   "theorems": [
    "Gvas.C102_value",
    "Gvas.C102_direct",
    "Gvas.C102_property",
    "Gvas.C102_text",
    "Gvas.C102_sorting",
    "Gvas.C102_sorted",
    "Gvas.C102_saves",
    "Gvas.C102_entry_lost",
    "Gvas.C102_save_shrinks"
   ],
   "note": "Only for JSON that is a reordering of what the crate writes: entries that are added may be taken for a flattened variant, where the first one counts."
  },
  {
   "property": "C103",
   "status": "proved",
   "theorems": [
    "Gvas.C103_value",
    "Gvas.C103_direct",
    "Gvas.C103_property",
    "Gvas.C103_saved",
    "Gvas.C103_text",
    "Gvas.C103_one_entry",
    "Gvas.C103_struct_value",
    "Gvas.C103_words_needed",
    "Gvas.C103_text_words_needed",
    "Gvas.C103_header_words_needed"
   ],
   "note": "The additions are relative to an object whose tag is known; entries named like the tag are not additions."
  },
  {
   "property": "C104",
   "status": "proved",
   "theorems": [
    "Gvas.C104_file",
    "Gvas.C104_property",
    "Gvas.C104_styles",
    "Gvas.C104_no_nan",
    "Gvas.C104_one_key",
    "Gvas.C104_number",
    "Gvas.C104_guid",
    "Gvas.C104_declared",
    "Gvas.C104_property_declared"
   ],
   "note": "The texts of floats and the set of escaped characters are core's and are parameters; what is assumed of float texts is the structure TellFloats, which is shown to be inhabited."
  },
  {
   "property": "C105",
   "status": "proved",
   "theorems": [
    "Gvas.C105_property",
    "Gvas.C105_header",
    "Gvas.C105_contents",
    "Gvas.C105_embedded",
    "Gvas.C105_file"
   ],
   "note": "Positions are natural numbers: the wrapping of u64 positions near 2^64 is outside the model."
  },
  {
   "property": "C106",
   "status": "proved",
   "theorems": [
    "Gvas.C106_contents",
    "Gvas.C106_frame_or_fault",
    "Gvas.C106_accepts_iff"
   ],
   "note": "The codec is arbitrary here; which bytes a zlib decoder gives is C86. With it the claims on missing hints, extra hints, builds and panics are also stated for files in either container (C26, C27, C28, C54)."
  },
  {
   "property": "C107",
   "status": "proved",
   "theorems": [
    "Gvas.C107_elements",
    "Gvas.C107_fields",
    "Gvas.C107_file_elements",
    "Gvas.C107_file_fields",
    "Gvas.C107_through_json",
    "Gvas.C107_fields_through_json",
    "Gvas.C107_relisted_representable",
    "Gvas.C107_relisted_reads_back"
   ],
   "note": "For reading back, taking out elements may not change the kind of list on reading: an array of namespaced bytes keeps one, a map with null keys keeps one."
  },
  {
   "property": "C108",
   "status": "proved",
   "theorems": [
    "Gvas.C108_converted",
    "Gvas.C108_there_and_back",
    "Gvas.C108_same_contents"
   ],
   "note": "The size limit is that of C19."
  },
  {
   "property": "C109",
   "status": "proved",
   "theorems": [
    "Gvas.C109_ordinary_takes_all",
    "Gvas.C109_nothing_behind_ordinary",
    "Gvas.C109_plain_leaves_rest",
    "Gvas.C109_in_a_row"
   ],
   "note": "Compressed Palworld saves are left out: how far the decompressor reads ahead in the stream is a matter of the library."
  },
  {
   "property": "C11",
   "status": "partial",
   "theorems": [
    "Gvas.C11_parse_can_panic",
    "Gvas.C11_parse_accepts_plus",
    "Gvas.C11_parse_strict_partial",
    "Gvas.C11_parse_total_partial",
    "Gvas.C11_parse_exact_partial"
   ],
   "note": "False as stated: off-boundary slices panic and a plus sign is accepted in place of the first digit of a pair; both negations proved with witnesses. Proved beside them: the restricted claims for ASCII text and text without plus signs, and exactly which text is accepted as which GUID and which text panics"
  },
  {
   "property": "C110",
   "status": "proved",
   "theorems": [
    "Gvas.C110_put_together",
    "Gvas.C110_same_bytes",
    "Gvas.C110_any_order"
   ],
   "note": "The size limit is that of C19. A property may need the hint for its own path, so all saves are read with the same hints."
  },
  {
   "property": "C111",
   "status": "proved",
   "theorems": [
    "Gvas.C111_copied",
    "Gvas.C111_no_hints",
    "Gvas.C111_any_versions",
    "Gvas.C111_same_answers_keep",
    "Gvas.C111_versions_needed",
    "Gvas.C111_through_json"
   ],
   "note": "The size limit is that of C19. A value may be taken out of the key of a map, but not put there, as keys must stay different. What happens if the hints do not suit is C99."
  },
  {
   "property": "C112",
   "status": "proved",
   "theorems": [
    "Gvas.C112_merged",
    "Gvas.C112_through_json"
   ],
   "note": "The size limit is that of C19. Values added to maps must not be such that the size of an enclosing property decides how they are read (SizeFree); the conditions on mixed and empty lists are those under which C15 reads a list back."
  },
  {
   "property": "C12",
   "status": "proved",
   "theorems": [
    "Gvas.C12_headers_roundtrip"
   ],
   "note": ""
  },
  {
   "property": "C13",
   "status": "proved",
   "theorems": [
    "Gvas.C13_accepts_iff",
    "Gvas.C13_never_panics",
    "Gvas.C13_rejects"
   ],
   "note": "exact characterisation of the accepted bytes"
  },
  {
   "property": "C14",
   "status": "proved",
   "theorems": [
    "Gvas.C14_accepted_headers_stable"
   ],
   "note": ""
  },
  {
   "property": "C15",
   "status": "proved",
   "theorems": [
    "Gvas.C15_properties_roundtrip"
   ],
   "note": "for properties that take less than 4 GiB (sizes are stored in 32 bits)"
  },
  {
   "property": "C16",
   "status": "proved",
   "theorems": [
    "Gvas.C16_element",
    "Gvas.C16_array",
    "Gvas.C16_set",
    "Gvas.C16_map"
   ],
   "note": "for containers that take less than 4 GiB"
  },
  {
   "property": "C17",
   "status": "proved",
   "theorems": [
    "Gvas.C17_files_roundtrip",
    "Gvas.C17_large_files",
    "Gvas.C17_large_example"
   ],
   "note": "for files each of whose properties takes less than 4 GiB (their sizes are stored in 32 bits; the whole file may be larger)"
  },
  {
   "property": "C18",
   "status": "proved",
   "theorems": [
    "Gvas.C18_palworld_roundtrip"
   ],
   "note": "for files of less than 4 GiB, assuming zlib inflate inverts deflate (Spec.Lawful)"
  },
  {
   "property": "C19",
   "status": "partial",
   "theorems": [
    "Gvas.C19_reread_partial",
    "Gvas.C19_default_reread_partial",
    "Gvas.C19_large_reread_partial",
    "Gvas.C19_at_most_doubles",
    "Gvas.C19_huge_not_reread"
   ],
   "note": "Everything read accepts is written (no size limit) and reread to the same file, if the contents written take less than 4 GiB; inputs under 2 GiB always meet this since writing at most doubles the size. In the default container only each property has to stay below 4 GiB, not the whole. The unrestricted claim is false: an accepted array of 2^29 UTF-8 strings is rewritten as UTF-16 with a length that wraps its 32-bit header, and the output is refused."
  },
  {
   "property": "C20",
   "status": "proved",
   "theorems": [
    "Gvas.C20_properties_injective",
    "Gvas.C20_contents_injective",
    "Gvas.C20_files_injective",
    "Gvas.C20_large_contents_injective"
   ],
   "note": "for sizes below 4 GiB"
  },
  {
   "property": "C21",
   "status": "proved",
   "theorems": [
    "Gvas.C21_own_output_reproduced",
    "Gvas.C21_large_reproduced"
   ],
   "note": "for files of less than 4 GiB"
  },
  {
   "property": "C22",
   "status": "partial",
   "theorems": [
    "Gvas.C22_canonical_partial",
    "Gvas.C22_second_save_partial",
    "Gvas.C22_large_second_save_partial",
    "Gvas.C22_reproduced_iff_partial",
    "Gvas.C22_palworld_partial",
    "Gvas.C22_not_every_input"
   ],
   "note": "The byte-for-byte claim is false (an accepted UTF-8 string that fits in ASCII or duplicate names are rewritten differently, witness proved). Proved instead: without any limit, an input is reproduced if and only if it is a save and has the one form of C79; if no property takes 4 GiB, the second save equals the first; below 2 GiB the input is reproduced if and only if it is itself the output of a write; a Palworld file is reproduced if and only if it is the frame the library would write around contents that are a save in their one form."
  },
  {
   "property": "C23",
   "status": "proved",
   "theorems": [
    "Gvas.C23_truncation_detected",
    "Gvas.C23_file_truncation_detected",
    "Gvas.C23_palworld_truncation_detected"
   ],
   "note": "default container and uncompressed Palworld payloads; for compressed payloads see C95"
  },
  {
   "property": "C24",
   "status": "proved",
   "theorems": [
    "Gvas.C24_trailing_ignored",
    "Gvas.C24_file_trailing_ignored",
    "Gvas.C24_palworld_trailing_ignored"
   ],
   "note": "compressed Palworld payloads: given that the decompressor stops at the end of its stream"
  },
  {
   "property": "C25",
   "status": "proved",
   "theorems": [
    "Gvas.C25_reading_terminates",
    "Gvas.C25_fuel_irrelevant",
    "Gvas.C25_property_terminates",
    "Gvas.C25_file_terminates"
   ],
   "note": ""
  },
  {
   "property": "C26",
   "status": "partial",
   "theorems": [
    "Gvas.C26_reading_can_panic",
    "Gvas.C26_more_panics",
    "Gvas.C26_panics_known_partial",
    "Gvas.C26_file_panics_known_partial"
   ],
   "note": "False as stated: negation proved with witnesses for every panic; the list of panics is complete"
  },
  {
   "property": "C27",
   "status": "proved",
   "theorems": [
    "Gvas.C27_missing_hint_is_missing",
    "Gvas.C27_no_hint_fails",
    "Gvas.C27_supplied_hint_helps",
    "Gvas.C27_path_text",
    "Gvas.C27_file"
   ],
   "note": ""
  },
  {
   "property": "C28",
   "status": "proved",
   "theorems": [
    "Gvas.C28_extra_hints_harmless",
    "Gvas.C28_file_extra_hints_harmless",
    "Gvas.C28_file_outcomes"
   ],
   "note": ""
  },
  {
   "property": "C29",
   "status": "proved",
   "theorems": [
    "Gvas.C29_stack_restored"
   ],
   "note": ""
  },
  {
   "property": "C30",
   "status": "partial",
   "theorems": [
    "Gvas.C30_paths_differ_partial",
    "Gvas.C30_shared_iff_partial",
    "Gvas.C30_shared_path"
   ],
   "note": "False for names that contain a dot: two saves with structs at different places consult the same path. Proved for names without dots; exact in general: places share a path iff their names have the same pieces between dots."
  },
  {
   "property": "C31",
   "status": "partial",
   "theorems": [
    "Gvas.C31_lengths_enforced_partial",
    "Gvas.C31_byte_length_ignored",
    "Gvas.C31_byte_layout_partial"
   ],
   "note": "False for ByteProperty, whose declared length only chooses between byte and name (witness, and the exact rule proved). Proved for every other type with a header."
  },
  {
   "property": "C32",
   "status": "proved",
   "theorems": [
    "Gvas.C32_read_width",
    "Gvas.C32_write_width"
   ],
   "note": ""
  },
  {
   "property": "C33",
   "status": "proved",
   "theorems": [
    "Gvas.C33_texts_roundtrip",
    "Gvas.C33_exactly",
    "Gvas.C33_what_is_kept"
   ],
   "note": "exactly these texts can be stored; of others, culture invariant strings are lost without error under old versions"
  },
  {
   "property": "C34",
   "status": "proved",
   "theorems": [
    "Gvas.C34_write_ok_iff"
   ],
   "note": ""
  },
  {
   "property": "C35",
   "status": "proved",
   "theorems": [
    "Gvas.C35_array_new_keeps",
    "Gvas.C35_array_new_fails_iff",
    "Gvas.C35_array_new_total",
    "Gvas.C35_representation"
   ],
   "note": ""
  },
  {
   "property": "C36",
   "status": "proved",
   "theorems": [
    "Gvas.C36_map_new_keeps",
    "Gvas.C36_representation"
   ],
   "note": ""
  },
  {
   "property": "C37",
   "status": "proved",
   "theorems": [
    "Gvas.C37_map_duplicates",
    "Gvas.C37_top_duplicates",
    "Gvas.C37_arguments_duplicates",
    "Gvas.C37_custom_versions_duplicates",
    "Gvas.C37_count",
    "Gvas.C37_unique"
   ],
   "note": ""
  },
  {
   "property": "C38",
   "status": "proved",
   "theorems": [
    "Gvas.C38_fields_kept",
    "Gvas.C38_fields_accepted",
    "Gvas.C38_fields_written"
   ],
   "note": ""
  },
  {
   "property": "C39",
   "status": "partial",
   "theorems": [
    "Gvas.C39_top_level_kept_partial",
    "Gvas.C39_value_lost"
   ],
   "note": "False if a save stores a name twice at the top level (witness: the first value is lost). Proved: all names are kept, and the properties are exactly those stored if and only if no name is stored twice."
  },
  {
   "property": "C40",
   "status": "proved",
   "theorems": [
    "Gvas.C40_unknown_preserved",
    "Gvas.C40_unknown_accepted"
   ],
   "note": ""
  },
  {
   "property": "C41",
   "status": "proved",
   "theorems": [
    "Gvas.C41_failed_write_untouched",
    "Gvas.C41_fails_iff"
   ],
   "note": ""
  },
  {
   "property": "C42",
   "status": "proved",
   "theorems": [
    "Gvas.C42_palworld_frame",
    "Gvas.C42_default_frame",
    "Gvas.C42_before_untouched"
   ],
   "note": ""
  },
  {
   "property": "C43",
   "status": "proved",
   "theorems": [
    "Gvas.C43_compressed_length_ignored",
    "Gvas.C43_decompressed_length_too_large",
    "Gvas.C43_decompressed_length_cuts",
    "Gvas.C43_twice_ignores_length"
   ],
   "note": ""
  },
  {
   "property": "C44",
   "status": "partial",
   "theorems": [
    "Gvas.C44_ok_but_not_delivered",
    "Gvas.C44_delivered_partial",
    "Gvas.C44_ascii_ok_iff_partial",
    "Gvas.C44_delivered_iff_partial"
   ],
   "note": "False as stated for ASCII strings on short writers: negation proved. Exact: when Ok is returned, and when a string reported written has been delivered (other strings: always)."
  },
  {
   "property": "C45",
   "status": "partial",
   "theorems": [
    "Gvas.C45_equal_maps_hash_differently",
    "Gvas.C45_same_order_partial",
    "Gvas.C45_feed_iff_partial"
   ],
   "note": "False as stated: negation proved. Exact: equal maps feed the same data iff their keys are in the same order."
  },
  {
   "property": "C46",
   "status": "proved",
   "theorems": [
    "Gvas.C46_supports_iff",
    "Gvas.C46_antitone",
    "Gvas.C46_ignores_others",
    "Gvas.C46_gates"
   ],
   "note": ""
  },
  {
   "property": "C47",
   "status": "proved",
   "theorems": [
    "Gvas.C47_get_version",
    "Gvas.C47_distinct"
   ],
   "note": ""
  },
  {
   "property": "C48",
   "status": "partial",
   "theorems": [
    "Gvas.C48_same_key_iff",
    "Gvas.C48_keys_kept_partial",
    "Gvas.C48_zeros_merge",
    "Gvas.C48_spellings_merge"
   ],
   "note": "False for float keys that differ in the sign of zero or the bits of a NaN, and for one string stored in two encodings (witnesses proved). Proved: which keys are one, and that for key types without floats exactly equal keys are merged."
  },
  {
   "property": "C49",
   "status": "proved",
   "theorems": [
    "Gvas.C49_layout",
    "Gvas.C49_bool_layout"
   ],
   "note": "booleans have their own layout"
  },
  {
   "property": "C50",
   "status": "proved",
   "theorems": [
    "Gvas.C50_linear",
    "Gvas.C50_nonempty",
    "Gvas.C50_amplification"
   ],
   "note": "The linear bound has a factor of 2^30 properties per byte, because unknown array elements may take no bytes (96 bytes can hold 2^32 properties, proved); without those there is at most one property per byte."
  },
  {
   "property": "C51",
   "status": "proved",
   "theorems": [
    "Gvas.C51_error_positions_inside",
    "Gvas.C51_error_positions_read",
    "Gvas.C51_frame_positions_inside"
   ],
   "note": "positions inside compressed Palworld saves refer to the decompressed data"
  },
  {
   "property": "C52",
   "status": "partial",
   "theorems": [
    "Gvas.C52_property_readable_iff_partial",
    "Gvas.C52_file_readable_iff_partial",
    "Gvas.C52_large_file_readable_iff_partial",
    "Gvas.C52_not_every_value"
   ],
   "note": "False for every constructible value (witness proved). With every property below 4 GiB, exactly the values meeting the well-formedness predicate are read back equal."
  },
  {
   "property": "C53",
   "status": "partial",
   "theorems": [
    "Gvas.C53_json_roundtrip_partial",
    "Gvas.C53_saves_partial",
    "Gvas.C53_nonfinite_lost"
   ],
   "note": "Exact outcome for every file: read back unchanged if all floats are finite, refused otherwise. The property is false for files with infinities or NaNs (C53_nonfinite_lost), which is what is missing. JSON values, not JSON text; serde's derive rules are modelled from the attributes."
  },
  {
   "property": "C54",
   "status": "proved",
   "theorems": [
    "Gvas.C54_debug_agrees_with_release",
    "Gvas.C54_release_accepts",
    "Gvas.C54_profiles_differ",
    "Gvas.C54_files"
   ],
   "note": ""
  },
  {
   "property": "C55",
   "status": "proved",
   "theorems": [
    "Gvas.C55_write_ok_iff",
    "Gvas.C55_write_error",
    "Gvas.C55_write_panic"
   ],
   "note": ""
  },
  {
   "property": "C56",
   "status": "proved",
   "theorems": [
    "Gvas.C56_json_injective",
    "Gvas.C56_infinities_collide"
   ],
   "note": "The finiteness in the statement is needed: both infinities become null."
  },
  {
   "property": "C57",
   "status": "proved",
   "theorems": [
    "Gvas.C57_save_through_json"
   ],
   "note": ""
  },
  {
   "property": "C58",
   "status": "partial",
   "theorems": [
    "Gvas.C58_json_stable_partial",
    "Gvas.C58_overflow"
   ],
   "note": "Keys are distinct for all accepted JSON; stability holds exactly for files with finite floats. False otherwise: a finite number beyond the 32 bit range is read as infinity (C58_overflow)."
  },
  {
   "property": "C59",
   "status": "proved",
   "theorems": [
    "Gvas.C59_save_is_concatenation",
    "Gvas.C59_edit_is_local",
    "Gvas.C59_edit_reads_back"
   ],
   "note": "Reading back below 4 GiB, as in C17."
  },
  {
   "property": "C60",
   "status": "proved",
   "theorems": [
    "Gvas.C60_default_is_not_palworld",
    "Gvas.C60_palworld_is_not_default"
   ],
   "note": ""
  },
  {
   "property": "C61",
   "status": "proved",
   "theorems": [
    "Gvas.C61_header_alone"
   ],
   "note": ""
  },
  {
   "property": "C62",
   "status": "proved",
   "theorems": [
    "Gvas.C62_delivery_irrelevant",
    "Gvas.C62_failure_reported",
    "Gvas.C62_failure_in_frame",
    "Gvas.C62_failure_in_payload"
   ],
   "note": "C62_failure_in_frame and C62_failure_in_payload say which of the two it is for Palworld saves, except for compressed ones. A zlib decoder is taken to read its input to the end before it decodes."
  },
  {
   "property": "C63",
   "status": "partial",
   "theorems": [
    "Gvas.C63_enough_room",
    "Gvas.C63_full_reported_partial",
    "Gvas.C63_ok_complete_partial",
    "Gvas.C63_truncated_but_ok",
    "Gvas.C63_lost_save"
   ],
   "note": "False for ZlibTwice: the outer encoder is finished by its destructor, which ignores errors, so write returns Ok for a truncated payload (C63_truncated_but_ok, C63_lost_save). Holds for the other three containers."
  },
  {
   "property": "C64",
   "status": "proved",
   "theorems": [
    "Gvas.C64_equivalence",
    "Gvas.C64_equivalence_files",
    "Gvas.C64_same_order",
    "Gvas.C64_maps",
    "Gvas.C64_single_entry",
    "Gvas.C64_one_more_entry",
    "Gvas.C64_structs",
    "Gvas.C64_sets",
    "Gvas.C64_files",
    "Gvas.C64_equal_not_same_key"
   ],
   "note": "MapsDistinct and FileMaps hold for every Rust value (its maps are IndexMaps). C64_equal_not_same_key records that equal structs with fields in different orders are nevertheless two keys of one map. indexmap finds the key of a map with a single entry without hashing: C64_single_entry; C64_one_more_entry shows that therefore equal maps may differ once the same entry is added to both."
  },
  {
   "property": "C65",
   "status": "partial",
   "theorems": [
    "Gvas.C65_same_order_partial",
    "Gvas.C65_same_bytes_partial",
    "Gvas.C65_same_contents_iff_partial",
    "Gvas.C65_order_matters",
    "Gvas.C65_zero_sign"
   ],
   "note": "False: equality ignores the order of map entries and the sign of zeros, writing does not (witnesses C65_order_matters, C65_zero_sign). Proved for files whose maps are in the same order and that have no NaNs or negative zeros; exact: equal well-formed files have the same contents iff they are identical."
  },
  {
   "property": "C66",
   "status": "proved",
   "theorems": [
    "Gvas.C66_progress",
    "Gvas.C66_bounded_rounds",
    "Gvas.C66_one_by_one",
    "Gvas.C66_files"
   ],
   "note": "C66_progress compares two runs whose hint tables extend each other; C66_bounded_rounds is for any growing sequence of tables that follows the reports; C66_one_by_one is for the documented procedure with an arbitrary function giving the answers, and identifies its final outcome; C66_files is for whole files in either container."
  },
  {
   "property": "C67",
   "status": "proved",
   "theorems": [
    "Gvas.C67_depth_bounded",
    "Gvas.C67_every_depth"
   ],
   "note": "bound through the size of what is written (at least four bytes per level) and C19_at_most_doubles; witnesses by the round trip of nested transformations. Stack overflow itself is not modelled"
  },
  {
   "property": "C68",
   "status": "proved",
   "theorems": [
    "Gvas.C68_edit_is_local",
    "Gvas.C68_file_edit_is_local",
    "Gvas.C68_patch_in_place",
    "Gvas.C68_element_is_local",
    "Gvas.C68_file_element_is_local",
    "Gvas.C68_patch_element"
   ],
   "note": "places are properties inside arrays, sets, structs, struct arrays and maps, and the values that are not properties: elements of compact arrays, values of compact maps, structs of a fixed layout, the tags of tag containers, and all parts of texts (at any depth, except argument names), delegates and field paths."
  },
  {
   "property": "C69",
   "status": "proved",
   "theorems": [
    "Gvas.C69_accepts_iff",
    "Gvas.C69_property_iff",
    "Gvas.C69_bare_iff",
    "Gvas.C69_unambiguous",
    "Gvas.C69_one_meaning",
    "Gvas.C69_written_saves"
   ],
   "note": "the grammar is in Spec/Grammar.lean, as mutually inductive relations between bytes and values, without reader, position or fuel"
  },
  {
   "property": "C70",
   "status": "proved",
   "theorems": [
    "Gvas.C70_int_to_f32",
    "Gvas.C70_int_to_f64",
    "Gvas.C70_f64_to_f32",
    "Gvas.C70_f32_to_f64_exact"
   ],
   "note": "nearest is specified in Spec/Nearest.lean by distances of magnitudes, not by shifting; the conversion itself is serde_json's and the as operator's, modelled"
  },
  {
   "property": "C71",
   "status": "proved",
   "theorems": [
    "Gvas.C71_unsigned",
    "Gvas.C71_signed",
    "Gvas.C71_bytes"
   ],
   "note": "added after two wrong readers survived all round-trip theorems, which only see JSON the crate itself wrote"
  },
  {
   "property": "C72",
   "status": "proved",
   "theorems": [
    "Gvas.C72_recorded_faithfully",
    "Gvas.C72_accepted",
    "Gvas.C72_bound",
    "Gvas.C72_greedy"
   ],
   "note": "the readers are modelled a second time with a record of requests (Model/Meter.lean) and shown to be the same readers; the requests of C72_greedy amount to hundreds of gigabytes for elements of the size of Property, so a file of 35 bytes can abort the process"
  },
  {
   "property": "C73",
   "status": "proved",
   "theorems": [
    "Gvas.C73_read_with_header",
    "Gvas.C73_read_bare",
    "Gvas.C73_exactly_one",
    "Gvas.C73_struct_values",
    "Gvas.C73_lenses",
    "Gvas.C73_struct_lenses",
    "Gvas.C73_new_none",
    "Gvas.C73_new_base"
   ],
   "note": "the exceptions are in the code: Property::StructPropertyValue has no accessor, nor have Vector2F, Vector2D, Timespan, LinearColor and GameplayTagContainer values"
  },
  {
   "property": "C74",
   "status": "proved",
   "theorems": [
    "Gvas.C74_messages",
    "Gvas.C74_message_tells_error",
    "Gvas.C74_texts"
   ],
   "note": "of errors built by hand it does not hold: C74_made_up_errors has two missing hints with one message"
  },
  {
   "property": "C75",
   "status": "proved",
   "theorems": [
    "Gvas.C75_engine_version_text",
    "Gvas.C75_engine_version_letters"
   ],
   "note": ""
  },
  {
   "property": "C76",
   "status": "partial",
   "theorems": [
    "Gvas.C76_false",
    "Gvas.C76_table_partial",
    "Gvas.C76_numbers"
   ],
   "note": "false: LatestVersion is VersionPlusOne + 1 (Unreal has - 1), so VER_UE4_AUTOMATIC_VERSION has 42 and VER_UE4_AUTOMATIC_VERSION_PLUS_ONE 41; it holds of all other pairs (4.18 and 4.27 have no entry, and the UE5 table is empty); C76_numbers has the numbers themselves, counted in the declaration"
  },
  {
   "property": "C77",
   "status": "proved",
   "theorems": [
    "Gvas.C77_accepted",
    "Gvas.C77_written",
    "Gvas.C77_any_nesting",
    "Gvas.C77_fields_written"
   ],
   "note": "of the JSON model, which includes serde's alternative spellings (arrays for structs and tagged values, indices for names in buffered values)"
  },
  {
   "property": "C78",
   "status": "proved",
   "theorems": [
    "Gvas.C78_strings_read",
    "Gvas.C78_strings_written",
    "Gvas.C78_one_meaning"
   ],
   "note": ""
  },
  {
   "property": "C79",
   "status": "proved",
   "theorems": [
    "Gvas.C79_property_written",
    "Gvas.C79_bare_written",
    "Gvas.C79_contents_written",
    "Gvas.C79_one_form"
   ],
   "note": ""
  },
  {
   "property": "C80",
   "status": "proved",
   "theorems": [
    "Gvas.C80_properties",
    "Gvas.C80_files",
    "Gvas.C80_representable",
    "Gvas.C80_interchangeable"
   ],
   "note": ""
  },
  {
   "property": "C81",
   "status": "proved",
   "theorems": [
    "Gvas.C81_scalars",
    "Gvas.C81_strings",
    "Gvas.C81_structs",
    "Gvas.C81_array",
    "Gvas.C81_struct_array",
    "Gvas.C81_set",
    "Gvas.C81_map",
    "Gvas.C81_guids"
   ],
   "note": ""
  },
  {
   "property": "C82",
   "status": "proved",
   "theorems": [
    "Gvas.C82_numbers",
    "Gvas.C82_guids",
    "Gvas.C82_structs",
    "Gvas.C82_number_texts",
    "Gvas.C82_guid_text",
    "Gvas.C82_struct_texts"
   ],
   "note": "The text of a float is core's and is a parameter; the type of a struct is not told (DateTime and Timespan are shown alike), which is why the theorem fixes it."
  },
  {
   "property": "C83",
   "status": "proved",
   "theorems": [
    "Gvas.C83_errors_describe",
    "Gvas.C83_eof_at_end",
    "Gvas.C83_file",
    "Gvas.C83_frame",
    "Gvas.C83_palworld"
   ],
   "note": "The inner payload of the UTF errors (core's) is not modelled. Of the missing-hint path only that it has no hint is said here; what it is, is C27."
  },
  {
   "property": "C84",
   "status": "proved",
   "theorems": [
    "Gvas.C84_panics_describe",
    "Gvas.C84_file",
    "Gvas.C84_palworld"
   ],
   "note": "Spec.Blames spells out the fact for each message (positions, numbers and strings in the input). Samples show every cause."
  },
  {
   "property": "C85",
   "status": "proved",
   "theorems": [
    "Gvas.C85_no_lookahead",
    "Gvas.C85_threshold",
    "Gvas.C85_property",
    "Gvas.C85_file"
   ],
   "note": "C23 and C24 say half of this for successes; here failures and panics are included and the state is exact."
  },
  {
   "property": "C86",
   "status": "proved",
   "theorems": [
    "Gvas.C86_decode_iff",
    "Gvas.C86_decode_fails_iff",
    "Gvas.C86_stream_unique",
    "Gvas.C86_stream_exists",
    "Gvas.C86_lawful",
    "Gvas.C86_zlibCodec",
    "Gvas.C86_zlib_frame",
    "Gvas.C86_zlib_twice_frame",
    "Gvas.C86_other_decoder"
   ],
   "note": "The decoder is a model of the format, not of flate2's code; it was compared with zlib on the compressed save in /repo and on changed streams (conformance/zlib_check.py)."
  },
  {
   "property": "C87",
   "status": "partial",
   "theorems": [
    "Gvas.C87_panics_explained_partial",
    "Gvas.C87_no_panic_partial",
    "Gvas.C87_outcomes_partial",
    "Gvas.C87_saved_partial",
    "Gvas.C87_saved_outcome_partial",
    "Gvas.C87_ascii_partial",
    "Gvas.C87_struct_panics",
    "Gvas.C87_version_panics",
    "Gvas.C87_error_first",
    "Gvas.C87_unused_text",
    "Gvas.C87_first_decides",
    "Gvas.C87_half_pair",
    "Gvas.C87_long_set"
   ],
   "note": "False: a text of 32 bytes that is cut inside a character makes the loader panic wherever a GUID is expected (C87_struct_panics, C87_version_panics), even where it is not needed (C87_unused_text). Proved: every panic comes from such a text in such a place, documents without one (in particular all saved by the crate) give a file or an error, and the outcome is then that of GvasFile.ofJson."
  },
  {
   "property": "C88",
   "status": "partial",
   "theorems": [
    "Gvas.C88_text_accepted",
    "Gvas.C88_text_unambiguous",
    "Gvas.C88_repeated_names",
    "Gvas.C88_same_value",
    "Gvas.C88_text_roundtrip_partial",
    "Gvas.C88_text_iff_partial",
    "Gvas.C88_saves_partial",
    "Gvas.C88_deep_refused",
    "Gvas.C88_save_refused",
    "Gvas.C88_save_changes",
    "Gvas.C88_exact_digits",
    "Gvas.C88_float_changes"
   ],
   "note": "Text is accepted exactly if it is a document of RFC 8259 (own grammar) nested at most 127 deep. The round trip is false: files nested deeper are saved but refused (C88_deep_refused), and the f32 0x15AE43FD, saved with its shortest digits 7.038531e-26, is loaded as 0x15AE43FE, as it is rounded to f64 first (C88_float_changes; properties are buffered for their tag). Both happen to saves of a few KB that are read (C88_save_refused, C88_save_changes). Proved exactly: a file is loaded from its text as it was if and only if its floats are finite, it is nested at most 127 deep and this double rounding keeps its floats; with exact digits it always keeps them. Loading is by way of a Value here (directly: C89), serde_json is modelled from knowledge of its sources, and the texts of floats are a parameter."
  },
  {
   "property": "C89",
   "status": "proved",
   "theorems": [
    "Gvas.C89_text_accepted",
    "Gvas.C89_document",
    "Gvas.C89_other_entries",
    "Gvas.C89_no_repeats",
    "Gvas.C89_as_by_value",
    "Gvas.C89_same",
    "Gvas.C89_saved",
    "Gvas.C89_saved_iff",
    "Gvas.C89_saves",
    "Gvas.C89_repeated_refused",
    "Gvas.C89_repeated",
    "Gvas.C89_unknown",
    "Gvas.C89_first_or_last"
   ],
   "note": "Derived visitors refuse repeated fields and tags, flattened variants take the first match and unknown entries of the outermost object are skipped without limits on nesting and numbers; all this is serde's and serde_json's behaviour, modelled from knowledge of their sources."
  },
  {
   "property": "C90",
   "status": "proved",
   "theorems": [
    "Gvas.C90_linear",
    "Gvas.C90_length",
    "Gvas.C90_below",
    "Gvas.C90_slow"
   ],
   "note": "A step is a part of a reader without a loop over a count (M.lift in Model/Meter): reading a few fields, a buffer or a string, a check, or rearranging what has been read. Hashing, sorting out of duplicates and growing of vectors are not counted, nor is unpacking Palworld containers."
  },
  {
   "property": "C91",
   "status": "proved",
   "theorems": [
    "Gvas.C91_no_recovery",
    "Gvas.C91_save_no_recovery",
    "Gvas.C91_stands",
    "Gvas.C91_wrong_length",
    "Gvas.C91_wrong_index",
    "Gvas.C91_wrong_index_types",
    "Gvas.C91_wrong_end",
    "Gvas.C91_ends",
    "Gvas.C91_unnoticed"
   ],
   "note": "Spec/Inside describes the beginning of a save up to the header of a property in it, at any depth; sizes stored there are not compared with anything, since what they count is not complete yet. C91_wrong_length gives the place in the save, that the property stands there by the grammar, and the exact error with its position."
  },
  {
   "property": "C92",
   "status": "proved",
   "theorems": [
    "Gvas.C92_same_property",
    "Gvas.C92_same_file",
    "Gvas.C92_property",
    "Gvas.C92_file",
    "Gvas.C92_room_reached",
    "Gvas.C92_square_reached",
    "Gvas.C92_slow_saves"
   ],
   "note": "the metered writers (Model/Spool.lean) are shown to write the same bytes and fail in the same way as the writers. Buffers are counted by their length; the spare capacity of a growing Vec, and what zlib holds for Palworld saves, are not modelled."
  },
  {
   "property": "C93",
   "status": "proved",
   "theorems": [
    "Gvas.C93_stream",
    "Gvas.C93_yields",
    "Gvas.C93_stream_yields",
    "Gvas.C93_file",
    "Gvas.C93_read",
    "Gvas.C93_stated",
    "Gvas.C93_zlibCodec",
    "Gvas.C93_zeros",
    "Gvas.C93_factor_reached",
    "Gvas.C93_bomb",
    "Gvas.C93_file_factor_reached"
   ],
   "note": "flate2 itself is not modelled: the bounds are for every codec that gives out nothing but what the bits it has read stand for (Spec.Zlib.Faithful), the lower bounds for every codec that decodes the streams of RFC 1950/1951 (Spec.Decodes); the decoder of C86 is both. What decompressors hold besides their output is not modelled."
  },
  {
   "property": "C94",
   "status": "proved",
   "theorems": [
    "Gvas.C94_place_in_json",
    "Gvas.C94_place_in_text",
    "Gvas.C94_edit_through_json",
    "Gvas.C94_edit_through_text",
    "Gvas.C94_value_through_json",
    "Gvas.C94_element_through_json",
    "Gvas.C94_part_in_json",
    "Gvas.C94_part_through_json"
   ],
   "note": "Places are those of C68: struct fields, elements of arrays and sets, and values of maps, at any depth. Values that are not properties (elements of compact lists and maps, components of structs, parts of texts, delegates and field paths) are edited in their own place in the JSON too, with the pointer given; where there is no such place (bytes of byte arrays, which are one string, and parts of texts that are left out of the JSON) the JSON of the property around them is replaced. Map keys are excluded from the edits, as a changed key may meet another one (C37). The edit of text needs the conditions of C88 for loading text: at most 127 deep and f32 numbers that survive being rounded twice."
  },
  {
   "property": "C95",
   "status": "proved",
   "theorems": [
    "Gvas.C95_yields",
    "Gvas.C95_contents",
    "Gvas.C95_same_or_refused",
    "Gvas.C95_decompressors_agree"
   ],
   "note": "The decompressor may stop early without reporting it, as flate2 does at the end of its input; nothing is assumed about the checksum. What it may give out is said with RFC 1951 alone, in Spec/Inflate.lean."
  },
  {
   "property": "C96",
   "status": "proved",
   "theorems": [
    "Gvas.C96_squeezed",
    "Gvas.C96_space_means_nothing",
    "Gvas.C96_space_loaded_alike",
    "Gvas.C96_pretty_layout",
    "Gvas.C96_pretty_loaded_alike",
    "Gvas.C96_pretty_iff"
   ],
   "note": "serde_json's PrettyFormatter is modelled from knowledge of its sources; the model's text equals all expected texts of the test-suite (conformance)."
  },
  {
   "property": "C97",
   "status": "proved",
   "theorems": [
    "Gvas.C97_text_accepted",
    "Gvas.C97_document",
    "Gvas.C97_document_value",
    "Gvas.C97_same",
    "Gvas.C97_space",
    "Gvas.C97_value_roundtrip",
    "Gvas.C97_saved_alike",
    "Gvas.C97_saved_iff",
    "Gvas.C97_file_by_property",
    "Gvas.C97_type_twice",
    "Gvas.C97_repeated",
    "Gvas.C97_alone_only"
   ],
   "note": "serde and serde_json are modelled from knowledge of their sources. The texts of floats are any that meet FloatsOf, see C88."
  },
  {
   "property": "C98",
   "status": "proved",
   "theorems": [
    "Gvas.C98_property",
    "Gvas.C98_file",
    "Gvas.C98_read_fits",
    "Gvas.C98_other_versions"
   ],
   "note": "Spec/Faults lists what a file asks for in storage order, with the messages written out. This completes C55, which leaves open what happens when structs and texts are both at fault."
  },
  {
   "property": "C99",
   "status": "proved",
   "theorems": [
    "Gvas.C99_necessary",
    "Gvas.C99_needed_iff",
    "Gvas.C99_no_needs",
    "Gvas.C99_missing",
    "Gvas.C99_first_missing",
    "Gvas.C99_first_asked",
    "Gvas.C99_file_first_missing",
    "Gvas.C99_rounds",
    "Gvas.C99_one_kind",
    "Gvas.C99_hints_from_file",
    "Gvas.C99_names_free",
    "Gvas.C99_file_necessary",
    "Gvas.C99_file_iff"
   ],
   "note": "Spec/Hints lists the needs of a file by recursion over it. Zlib enters C99_file_iff through Spec.Lawful."
  }
 ]
}