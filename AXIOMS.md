# Axioms each property theorem depends on

Printed by `#print axioms`; regenerate with `python3 tools/axioms.py` after a build.

## none (2 theorems)

* `Verif.Browse.C25_slices`
* `Verif.Uniform.C91_no_records`

## propext (38 theorems)

* `Verif.Pvl.C01_params_exact`
* `Verif.Pvl.C05_result_unique`
* `Verif.Locate.C12_file_name`
* `Verif.Locate.C12_last_of_list`
* `Verif.Locate.C12_first_place`
* `Verif.Locate.C12_record_size`
* `Verif.Locate.C12_table_rows`
* `Verif.Scaling.C14_factor`
* `Verif.Meta.C17_warns_iff`
* `Verif.Load.C18_unknown`
* `Verif.Load.C18_already_loaded`
* `Verif.Load.C18_pds3_never_raises`
* `Verif.Load.C18_get_loads`
* `Verif.Load.C18_get_stable`
* `Verif.Load.C18_unloaded`
* `Verif.Load.C18_load_all_pds3_ok`
* `Verif.Files.C19_choice`
* `Verif.Files.C19_result_exists`
* `Verif.Query.C20_specialize`
* `Verif.Moc.C24_marker`
* `Verif.Format.C27_numbering`
* `Verif.LineEnd.C28_breaks_become_lf`
* `Verif.LineEnd.C28_every_text_is_lines_and_breaks`
* `Verif.LineEnd.C28_no_cr`
* `Verif.LineEnd.C28_identity`
* `Verif.LineEnd.C28_idempotent`
* `Verif.LineEnd.C28_sequences`
* `Verif.Literal.C34_last_character_ignored`
* `Verif.Literal.C34_leading_sign_bypasses_radix`
* `Verif.Image.C40_qube_without_axis_names`
* `Verif.Locate.C42_lines_of_text`
* `Verif.Objects.C77_no_file_name`
* `Verif.Open.C87_empty_pointer`
* `Verif.Xml.C93_zero`
* `Verif.Special.C102_other_definitions`
* `Verif.Special.C109_own_readers`
* `Verif.Special.C109_own_columns`
* `Verif.Special.C109_not_loaded`

## propext, Quot.sound (137 theorems)

* `Verif.Pvl.C01_parse_written`
* `Verif.Pvl.C01_params_cover`
* `Verif.Pvl.C01_parse_stated`
* `Verif.Pvl.C02_comment_removed`
* `Verif.Pvl.C03_literalize_maps_leaves`
* `Verif.Literal.C04_every_integer_has_a_numeral`
* `Verif.Pvl.C05_pointerize`
* `Verif.Pvl.C05_applies_to_parsed_labels`
* `Verif.Trim.C06_binary_head_refused`
* `Verif.Trim.C06_decoding`
* `Verif.Pvl.C07_unpack_document_order`
* `Verif.Pvl.C07_unpack_unique`
* `Verif.Pvl.C07_unpack_leaves`
* `Verif.Image.C11_multiband_pixels`
* `Verif.Image.C11_singleband_pixels`
* `Verif.Image.C11_bil_last_object`
* `Verif.Image.C11_short_file`
* `Verif.Locate.C12_never_negative`
* `Verif.Locate.C12_record_pointer`
* `Verif.Locate.C12_record_quantity`
* `Verif.Locate.C12_byte_quantity`
* `Verif.Locate.C12_nonpositive_place`
* `Verif.Locate.C12_from_bottom`
* `Verif.Locate.C12_table_extent`
* `Verif.Meta.C17_count_is_occurrences`
* `Verif.Meta.C17_repeatable`
* `Verif.Load.C18_load_value`
* `Verif.Load.C18_missing_file`
* `Verif.Load.C18_load_other`
* `Verif.Load.C18_load_all_ends`
* `Verif.Load.C18_load_all_complete`
* `Verif.Load.C18_unloaded_after_all`
* `Verif.Load.C18_names_only_grow`
* `Verif.Load.C18_loaded_stays`
* `Verif.Files.C19_search_order`
* `Verif.Files.C19_not_found_iff`
* `Verif.Files.C19_search_paths`
* `Verif.Files.C19_label`
* `Verif.Files.C19_with_extension`
* `Verif.Query.C20_missing`
* `Verif.Query.C20_given_kept`
* `Verif.Query.C20_complete`
* `Verif.Query.C20_calls`
* `Verif.Query.C20_values`
* `Verif.Query.C20_filtered`
* `Verif.Dispatch.C21_never_loaded`
* `Verif.Dispatch.C21_by_file`
* `Verif.Dispatch.C21_numbered`
* `Verif.Msl.C22_codes_prefix_free`
* `Verif.Msl.C22_every_image_has_a_file`
* `Verif.Moc.C24_header`
* `Verif.Moc.C24_search`
* `Verif.Format.C26_columns_in_order`
* `Verif.Format.C26_flat_tables`
* `Verif.Format.C26_format_files_in_place`
* `Verif.Format.C26_format_files_end`
* `Verif.Format.C27_length`
* `Verif.Format.C27_table_columns`
* `Verif.Format.C27_reserved`
* `Verif.Pvl.C30_END_parameter_lost_at_top_level`
* `Verif.Pvl.C30_END_parameter_is_a_block_end`
* `Verif.Pvl.C30_statements_after_END`
* `Verif.Pvl.C31_multiline_comment_tail_kept`
* `Verif.Datatypes.C38_qube_integers_have_wrong_width`
* `Verif.Image.C40_bil_linefix_followed_by_data`
* `Verif.Locate.C41_stream_without_file_name`
* `Verif.Locate.C41_length_of_unknown_records`
* `Verif.Locate.C42_header_rows`
* `Verif.Locate.C42_header_bytes`
* `Verif.Locate.C42_table_bytes`
* `Verif.Locate.C42_table_rows`
* `Verif.Locate.C43_fits_offset`
* `Verif.Locate.C43_index_is_of_file`
* `Verif.Format.C44_array_takes_previous_count`
* `Verif.Format.C44_self_reference_never_ends`
* `Verif.Format.C45_container_start_ignored`
* `Verif.Format.C45_only_container_overlaps`
* `Verif.Format.C45_items_out_of_order`
* `Verif.Meta.C46_unhashable_default`
* `Verif.Meta.C46_added_parameters_not_found`
* `Verif.Load.C47_side_results_replace`
* `Verif.Load.C47_none_is_asked_again`
* `Verif.Load.C47_shadowed_names`
* `Verif.Load.C47_debug_stops`
* `Verif.Files.C48_dotted_names`
* `Verif.Query.C49_later_answers_missing`
* `Verif.Query.C49_unused_answers_computed`
* `Verif.Dispatch.C50_file_name_pointers`
* `Verif.Dispatch.C50_inner_suffix`
* `Verif.Pvl.C51_values_edited_in_place`
* `Verif.Pvl.C51_values_filtered`
* `Verif.Pvl.C51_keys_edited_in_place`
* `Verif.Pvl.C51_failure_is_total`
* `Verif.Moc.C59_repeats`
* `Verif.Objects.C77_named_label`
* `Verif.Fits.C84_by_byte`
* `Verif.Open.C86_url`
* `Verif.Open.C86_file`
* `Verif.Open.C86_label_itself`
* `Verif.Open.C86_target`
* `Verif.Open.C87_compressed_order`
* `Verif.Uniform.C90_one_per_record`
* `Verif.Uniform.C91_unknown_scale`
* `Verif.Xml.C92_structure_value`
* `Verif.Xml.C93_attributes`
* `Verif.Xml.C93_prefixes`
* `Verif.Special.C100_ordinary_products`
* `Verif.Special.C100_ordinary_definitions`
* `Verif.Special.C100_ordinary_loaders`
* `Verif.Special.C101_words_override_pointers`
* `Verif.Special.C101_words_no_rows`
* `Verif.Special.C104_gz_files`
* `Verif.Special.C104_other_files`
* `Verif.Special.C105_table_lengths`
* `Verif.Special.C106_read_as`
* `Verif.Special.C106_lroc_edr`
* `Verif.Special.C106_jiram_rdr`
* `Verif.Special.C108_special_hdus`
* `Verif.Special.C110_beside_label`
* `Verif.Prettify.C136_one_line`
* `Verif.Prettify.C137_blank_fails`
* `Verif.LooseText.C142_tables`
* `Verif.LooseText.C142_header`
* `Verif.LooseText.C142_mismatch`
* `Verif.MissionCsv.C143_columns`
* `Verif.MissionCsv.C143_short`
* `Verif.NamedText.C145_words`
* `Verif.NamedText.C145_mismatch`
* `Verif.NamedText.C146_uhfd`
* `Verif.NamedText.C146_geom`
* `Verif.NamedText.C147_unknown`
* `Verif.HeadedText.C148_rows`
* `Verif.HeadedText.C149_miniRf`
* `Verif.HeadedText.C149_places`
* `Verif.HeadedText.C149_pws`
* `Verif.HeadedText.C149_mismatch`
* `Verif.CommentText.C150_comments`

## propext, Classical.choice, Quot.sound (372 theorems)

* `Verif.Pvl.C01_C02_text_roundtrip`
* `Verif.Pvl.C02_statements`
* `Verif.Pvl.C01_C02_text_roundtrip`
* `Verif.Pvl.C03_literalize_fails_iff`
* `Verif.Literal.C04_radix_integer`
* `Verif.Literal.C04_radix_sound`
* `Verif.Literal.C04_only_numerals`
* `Verif.Literal.C04_radix_collection`
* `Verif.Pvl.C05_duplicates_numbered`
* `Verif.Pvl.C05_fails_iff_too_many_objects`
* `Verif.Pvl.C05_parameter_list`
* `Verif.Pvl.C05_parameter_list_covers`
* `Verif.Pvl.C05_duplicates_distinguishable`
* `Verif.Pvl.C05_no_duplicates_unchanged`
* `Verif.Trim.C06_ending_found`
* `Verif.Trim.C06_no_ending`
* `Verif.Trim.C06_result_is_head_of_file`
* `Verif.Pvl.C07_parameters`
* `Verif.Bits.C08_big_endian_bits`
* `Verif.Bits.C08_little_endian_bits`
* `Verif.Bits.C08_bit_count`
* `Verif.Bits.C08_lossless`
* `Verif.Bits.C08_little_endian_word`
* `Verif.Bits.C09_fields_are_cut_where_the_label_says`
* `Verif.Bits.C09_jiram_correction`
* `Verif.Bits.C09_adjacent_fields_reassemble`
* `Verif.Bits.C09_items_reassemble`
* `Verif.Datatypes.C10_types_mean_what_they_say`
* `Verif.Datatypes.C10_accepted_only_if_meaningful`
* `Verif.Image.C11_line_prefix_suffix`
* `Verif.Image.C11_image_label`
* `Verif.Image.C11_qube_pixels`
* `Verif.Format.C13_offsets`
* `Verif.Format.C13_items_disjoint`
* `Verif.Format.C13_repetitions_disjoint`
* `Verif.Format.C13_record_length`
* `Verif.Scaling.C14_integers`
* `Verif.Scaling.C14_floats`
* `Verif.Scaling.C14_integers_to_float`
* `Verif.Scaling.C14_planes`
* `Verif.Scaling.C14_planes_integers`
* `Verif.Scaling.C14_get_scaled`
* `Verif.Scaling.C14_get_scaled_floats`
* `Verif.Scaling.C14_unchanged`
* `Verif.Pds4Scale.C15_type_holds`
* `Verif.Pds4Scale.C15_scaled_exact`
* `Verif.Pds4Scale.C15_mask`
* `Verif.Pds4Scale.C15_signed_succeeds`
* `Verif.Ibm.C16_short`
* `Verif.Ibm.C16_long`
* `Verif.Ibm.C16_short_column`
* `Verif.Ibm.C16_long_column`
* `Verif.Meta.C17_first_exists_unique`
* `Verif.Meta.C17_metaget`
* `Verif.Meta.C17_metablock`
* `Verif.Meta.C17_identifiers`
* `Verif.Meta.C17_refresh`
* `Verif.Files.C19_variant_iff`
* `Verif.Files.C19_available_iff`
* `Verif.Query.C20_sig_union`
* `Verif.Query.C20_paramsort`
* `Verif.Query.C20_required`
* `Verif.Dispatch.C21_by_name`
* `Verif.Msl.C22_decompress`
* `Verif.Msl.C22_no_sync`
* `Verif.Msl.C22_ends`
* `Verif.Msl.C22_round_trip`
* `Verif.Msl.C23_header`
* `Verif.Msl.C23_header_found`
* `Verif.Msl.C23_raw`
* `Verif.Msl.C23_thumbnail`
* `Verif.Moc.C24_sections`
* `Verif.Moc.C24_lossless`
* `Verif.Moc.C24_raw`
* `Verif.Moc.C24_damage`
* `Verif.Moc.C24_total`
* `Verif.Moc.C24_fragments`
* `Verif.Moc.C24_open`
* `Verif.Moc.C24_file`
* `Verif.Browse.C25_bounds`
* `Verif.Browse.C25_floats`
* `Verif.Browse.C25_integers`
* `Verif.Browse.C25_masked`
* `Verif.Browse.C25_bands`
* `Verif.Browse.C25_size`
* `Verif.Format.C27_unique_iff`
* `Verif.Pvl.C29_multiline_value`
* `Verif.Pvl.C32_existing_suffix_stays_ambiguous`
* `Verif.Pvl.C33_first_line_glued`
* `Verif.Literal.C34_unterminated_radix_integer`
* `Verif.Literal.C35_quantities`
* `Verif.Trim.C36_ending_across_windows_missed`
* `Verif.Trim.C36_nul_bytes_win_over_earlier_end_line`
* `Verif.Bits.C37_odd_little_endian_fields_are_mixed`
* `Verif.Datatypes.C38_odd_integer_widths_read_one_byte`
* `Verif.Image.C39_zero_suffix_planes_empty_image`
* `Verif.Format.C45_spare_bytes_after_items`
* `Verif.Format.C45_container_after_repeated`
* `Verif.Files.C48_offcase_compressed`
* `Verif.Msl.C52_incomplete_word_hangs`
* `Verif.Msl.C53_wide_compressed`
* `Verif.Msl.C53_wide_thumbnail`
* `Verif.Msl.C53_half_pixel`
* `Verif.Ibm.C54_subnormal`
* `Verif.Ibm.C54_no_rows`
* `Verif.Table.C54_stored_as`
* `Verif.Table.C54_items`
* `Verif.Table.C54_empty_tables`
* `Verif.Pds4Scale.C55_unsigned`
* `Verif.Pds4Scale.C55_most_negative`
* `Verif.Scaling.C56_inplace`
* `Verif.Scaling.C56_wraps`
* `Verif.Scaling.C56_wraps_before_offset`
* `Verif.Scaling.C56_negative_offset`
* `Verif.Scaling.C56_negative_offset_int8`
* `Verif.Scaling.C57_float32_constant`
* `Verif.Scaling.C57_not_applicable`
* `Verif.Scaling.C57_null`
* `Verif.Scaling.C57_uint64`
* `Verif.Browse.C58_one_value`
* `Verif.Browse.C58_wide`
* `Verif.Moc.C60_blocks`
* `Verif.Moc.C60_early`
* `Verif.Moc.C60_truncated`
* `Verif.Moc.C60_total`
* `Verif.Moc.C60_no_level`
* `Verif.Moc.C60_other_transform`
* `Verif.Moc.C60_pixels`
* `Verif.Moc.C60_image`
* `Verif.Moc.C60_flat`
* `Verif.Moc.C60_any`
* `Verif.Moc.C60_file`
* `Verif.Moc.C61_cyclic`
* `Verif.Table.C62_values`
* `Verif.Table.C63_scaling`
* `Verif.Table.C64_record_too_short`
* `Verif.Table.C64_rows_misplaced`
* `Verif.Table.C65_no_rows`
* `Verif.Table.C65_truncated`
* `Verif.Table.C65_truncated_compressed`
* `Verif.Table.C66_taken_for_text`
* `Verif.Table.C67_wraps`
* `Verif.Table.C67_factor_too_large`
* `Verif.Table.C67_zero`
* `Verif.Table.C67_mixed`
* `Verif.ImageFile.C68_image_single`
* `Verif.ImageFile.C68_image_objects`
* `Verif.ImageFile.C68_image_bands`
* `Verif.ImageFile.C68_qube`
* `Verif.ImageFile.C68_array`
* `Verif.ImageFile.C68_short`
* `Verif.ImageFile.C68_vax_single`
* `Verif.ImageFile.C68_vax_bands`
* `Verif.ImageFile.C69_ibm_words`
* `Verif.ImageFile.C69_compressed_array`
* `Verif.ImageFile.C69_vax_linefix`
* `Verif.ImageFile.C69_vax_spelling`
* `Verif.Pds4Array.C70_array`
* `Verif.Pds4Array.C70_bitmask`
* `Verif.Pds4Array.C70_bitmask_constants`
* `Verif.Pds4Array.C71_signed_mask`
* `Verif.Pds4Array.C71_constants_absent`
* `Verif.Pds4Array.C71_constants_absent_old`
* `Verif.Pds4Array.C71_no_integer_constants`
* `Verif.Pds4Array.C71_truncated`
* `Verif.Pds4Array.C71_truncated_one`
* `Verif.Pds4Table.C72_table`
* `Verif.Pds4Table.C73_three_groups`
* `Verif.Pds4Table.C73_repetitions`
* `Verif.Pds4Table.C73_duplicates`
* `Verif.Pds4Table.C73_first_record`
* `Verif.Pds4Table.C73_least`
* `Verif.Pds4Delim.C74_delimited`
* `Verif.Pds4Delim.C74_one_each`
* `Verif.Pds4Delim.C75_no_records`
* `Verif.Pds4Delim.C75_missing_records`
* `Verif.Pds4Delim.C75_too_many`
* `Verif.Pds4Delim.C75_one_too_many`
* `Verif.Pds4Delim.C75_missing_numbers`
* `Verif.Pds4Delim.C75_uniform`
* `Verif.Objects.C76_pds4_objects`
* `Verif.Objects.C77_same_name`
* `Verif.Objects.C78_pds3_objects`
* `Verif.Objects.C79_two_structures`
* `Verif.Objects.C79_loose_prefixes`
* `Verif.Objects.C79_no_image`
* `Verif.Objects.C80_frames`
* `Verif.Objects.C80_names`
* `Verif.Ascii.C81_table`
* `Verif.Ascii.C82_places`
* `Verif.Ascii.C82_table`
* `Verif.Ascii.C82_spreadsheet`
* `Verif.Ascii.C83_places_ignored`
* `Verif.Ascii.C83_delimiter`
* `Verif.Ascii.C83_empty`
* `Verif.Ascii.C83_spreadsheet`
* `Verif.Ascii.C83_placeholder`
* `Verif.Ascii.C83_reserved`
* `Verif.Fits.C84_header`
* `Verif.Fits.C84_header_lookup`
* `Verif.Fits.C84_names`
* `Verif.Fits.C84_metadata`
* `Verif.Fits.C84_get`
* `Verif.Fits.C84_load_all`
* `Verif.Fits.C84_clean`
* `Verif.Fits.C84_mended`
* `Verif.Fits.C84_pds4`
* `Verif.Fits.C85_bad_card`
* `Verif.Fits.C85_numbered_header`
* `Verif.Fits.C85_same_name`
* `Verif.Fits.C85_header_late`
* `Verif.Fits.C85_header_again`
* `Verif.Fits.C85_header_replaces`
* `Verif.Fits.C85_pds4_replaced`
* `Verif.Open.C86_standard`
* `Verif.Open.C86_beside`
* `Verif.Open.C86_alone`
* `Verif.Open.C86_compressed`
* `Verif.Open.C87_not_pds4`
* `Verif.Open.C87_compressed_fits`
* `Verif.AsciiArray.C88_values`
* `Verif.AsciiArray.C88_exact`
* `Verif.AsciiArray.C88_count`
* `Verif.AsciiArray.C88_typed`
* `Verif.AsciiArray.C88_which_way`
* `Verif.AsciiArray.C89_exponents`
* `Verif.AsciiArray.C89_no_leading_digit`
* `Verif.AsciiArray.C89_attached`
* `Verif.AsciiArray.C89_words`
* `Verif.AsciiArray.C89_text_types`
* `Verif.Uniform.C90_type`
* `Verif.Uniform.C90_linear_integers`
* `Verif.Uniform.C90_linear_huge`
* `Verif.Uniform.C90_linear_exact`
* `Verif.Uniform.C90_linear_near`
* `Verif.Uniform.C90_logarithmic_integers`
* `Verif.Uniform.C90_logarithmic`
* `Verif.Uniform.C90_exponential`
* `Verif.Uniform.C90_columns`
* `Verif.Uniform.C91_no_progress`
* `Verif.Uniform.C91_large_integers`
* `Verif.Uniform.C91_overflow`
* `Verif.Xml.C92_label`
* `Verif.Xml.C92_same_name`
* `Verif.Xml.C92_all_children`
* `Verif.Xml.C92_document_order`
* `Verif.Xml.C92_lookup`
* `Verif.Xml.C92_lookup_single`
* `Verif.Xml.C92_structure`
* `Verif.Xml.C93_interleaved`
* `Verif.Xml.C93_text_child`
* `Verif.BitTable.C94_values`
* `Verif.BitTable.C95_data_type_ignored`
* `Verif.BitTable.C95_no_rows`
* `Verif.BitTable.C95_other_bit_strings`
* `Verif.BitTable.C95_numbers`
* `Verif.BitTable.C95_scaled`
* `Verif.BitTable.C95_repeated`
* `Verif.Value.C96_values`
* `Verif.Value.C96_collections_of_words`
* `Verif.Value.C96_collections_of_radix_integers`
* `Verif.Value.C96_quantity`
* `Verif.Value.C96_sequences_with_quantities`
* `Verif.Value.C97_mixed_collections`
* `Verif.Value.C97_one_in_parentheses`
* `Verif.Value.C97_sets_in_sets`
* `Verif.Value.C97_leading_zeros`
* `Verif.Value.C97_constants`
* `Verif.Value.C97_escapes`
* `Verif.Value.C97_adjacent_texts`
* `Verif.Value.C97_backslash_at_the_end`
* `Verif.Value.C97_plus_exponents`
* `Verif.Label.C98_utf8`
* `Verif.Label.C98_label_text`
* `Verif.Label.C98_duplicate_pointers`
* `Verif.Label.C98_label_file`
* `Verif.Label.C98_special_encodings`
* `Verif.Label.C98_not_utf8`
* `Verif.Label.C99_too_many_objects`
* `Verif.Label.C99_one_bad_value`
* `Verif.Label.C99_special_labels_ignore_options`
* `Verif.Special.C102_reading_again`
* `Verif.Special.C102_corrected_values`
* `Verif.Special.C102_supplement`
* `Verif.Special.C103_lines_and_samples`
* `Verif.Special.C103_columns_move`
* `Verif.Special.C103_item_bytes`
* `Verif.Special.C106_cassini_iss`
* `Verif.Special.C107_special_starts`
* `Verif.Special.C108_vmc_data`
* `Verif.Special.C108_lamp_hdus`
* `Verif.FitsTable.C111_tables`
* `Verif.FitsTable.C112_three_dimensions`
* `Verif.FitsTable.C112_one_element`
* `Verif.FitsTable.C112_same_names`
* `Verif.PrefixTable.C113_prefix_tables`
* `Verif.PrefixTable.C114_steps`
* `Verif.PrefixTable.C114_missing`
* `Verif.PrefixTable.C114_given`
* `Verif.Histogram.C115_scaled`
* `Verif.Histogram.C115_histograms`
* `Verif.Histogram.C116_ascii`
* `Verif.Histogram.C116_start_byte`
* `Verif.Histogram.C116_no_sizes`
* `Verif.Histogram.C116_ibm`
* `Verif.Histogram.C116_no_item_bytes`
* `Verif.ArrayRecords.C117_records`
* `Verif.ArrayRecords.C118_no_gaps`
* `Verif.ArrayRecords.C118_nested`
* `Verif.Product.C119_table`
* `Verif.Product.C119_label`
* `Verif.Product.C119_product`
* `Verif.Product.C120_image`
* `Verif.Product.C120_bands`
* `Verif.Product.C120_product`
* `Verif.Product.C121_delimited`
* `Verif.Product.C121_fixed`
* `Verif.Product.C121_spreadsheet`
* `Verif.Read.C122_format_file`
* `Verif.Read.C122_table`
* `Verif.Read.C122_image`
* `Verif.Read.C122_bands`
* `Verif.Read.C122_delimited`
* `Verif.Read.C122_fixed`
* `Verif.Read.C122_spreadsheet`
* `Verif.Dump.C123_dump`
* `Verif.Dump.C123_stops`
* `Verif.Dump.C124_clash`
* `Verif.Dump.C124_unloaded`
* `Verif.Dump.C124_none`
* `Verif.Dump.C124_row`
* `Verif.Dump.C124_fits`
* `Verif.Dump.C124_unknown`
* `Verif.Pds4Read.C125_index`
* `Verif.Pds4Read.C125_array`
* `Verif.Pds4Read.C125_bitmask`
* `Verif.Pds4Read.C126_missing`
* `Verif.Pds4Read.C126_axis`
* `Verif.Pds4Read.C126_type`
* `Verif.Pds4Read.C126_file`
* `Verif.Pds4Read.C126_root`
* `Verif.Pds4Read.C127_table`
* `Verif.Pds4Read.C128_delimiters`
* `Verif.Pds4Read.C128_missing`
* `Verif.Pds4Read.C128_record`
* `Verif.Pds4Read.C128_field`
* `Verif.Pds4Read.C129_table`
* `Verif.Pds4Read.C130_header`
* `Verif.Pds4Read.C131_empty`
* `Verif.Pds4Read.C131_missing`
* `Verif.DesktopXml.C132_shown`
* `Verif.DesktopXml.C132_silent`
* `Verif.DesktopXml.C132_complete`
* `Verif.DesktopXml.C133_mixed`
* `Verif.DesktopXml.C133_namespaces`
* `Verif.McsTable.C134_rows`
* `Verif.McsTable.C135_wrong`
* `Verif.McsTable.C135_missing`
* `Verif.Prettify.C136_printed`
* `Verif.Prettify.C137_deep_fails`
* `Verif.Fuzzy.C138_closest`
* `Verif.Fuzzy.C138_exact`
* `Verif.Fuzzy.C138_none`
* `Verif.RowText.C139_rows`
* `Verif.RowText.C140_rows`
* `Verif.LooseText.C141_words`
* `Verif.LooseText.C141_shifted`
* `Verif.LooseText.C141_same_names`
* `Verif.MissionCsv.C144_names`
* `Verif.MissionCsv.C144_own_names`
* `Verif.NamedText.C147_summary`
* `Verif.NamedText.C147_raw`
