# Axioms of the theorems in the manifest (`#print axioms`)

| theorem | axioms |
|---|---|
| `KC.C01_escape_exact` | propext, Classical.choice, Quot.sound |
| `KC.C01_escape_roundtrip_iff` | propext, Classical.choice, Quot.sound |
| `KC.C01_escape_roundtrip_partial` | propext, Classical.choice, Quot.sound |
| `KC.C01_escape_roundtrip_false` | propext |
| `KC.C01_escape_roundtrip_no_backslash_partial` | propext, Classical.choice, Quot.sound |
| `KC.C01_escaped_is_single_line` | propext, Quot.sound |
| `KC.C02_split_join_partial` | propext |
| `KC.C02_split_join_exact` | propext |
| `KC.C02_split_join_iff` | propext, Quot.sound |
| `KC.C02_split_join_false` | propext |
| `KC.C02_split_nonempty` | propext |
| `KC.C02_join_split_no_backslash` | propext |
| `KC.C03_fold_shape` | propext, Classical.choice, Quot.sound |
| `KC.C03_fold_unfold` | propext, Classical.choice, Quot.sound |
| `KC.C04_width_text` | propext, Classical.choice, Quot.sound |
| `KC.C04_width_bytes_partial` | propext, Classical.choice, Quot.sound |
| `KC.C04_width_bytes_false` | propext, Quot.sound |
| `KC.C04_lines_terminated` | propext, Classical.choice, Quot.sound |
| `KC.C05_no_torn_char_partial` | propext, Quot.sound |
| `KC.C05_no_torn_char_false` | propext, Quot.sound |
| `KC.C05_torn_iff` | propext, Classical.choice, Quot.sound |
| `KC.C06_cards_roundtrip` | propext, Classical.choice, Quot.sound |
| `KC.C06_line_roundtrip` | propext, Classical.choice, Quot.sound |
| `KC.C07_terminates_partial` | propext, Classical.choice, Quot.sound |
| `KC.C07_terminates_without_soft_breaks_partial` | propext, Classical.choice, Quot.sound |
| `KC.C07_terminates_false` | propext, Classical.choice, Quot.sound |
| `KC.C08_line_endings` | propext, Classical.choice, Quot.sound |
| `KC.C09_concatenation` | propext, Classical.choice, Quot.sound |
| `KC.C09_written_cards` | propext, Classical.choice, Quot.sound |
| `KC.C10_base64_roundtrip` | propext, Quot.sound |
| `KC.C10_base64_alphabet` | propext, Quot.sound |
| `KC.C10_base64_ignores_noise` | propext |
| `KC.C11_toUtf8_is_utf8` | propext, Classical.choice, Quot.sound |
| `KC.C11_utf8_roundtrip_partial` | propext, Classical.choice, Quot.sound |
| `KC.C11_decode_roundtrip` | propext, Classical.choice, Quot.sound |
| `KC.C11_utf8_roundtrip_false` | propext |
| `KC.C11_toUtf8_injective` | propext, Classical.choice, Quot.sound |
| `KC.C12_lookup` | propext, Quot.sound |
| `KC.C12_first_value` | propext, Quot.sound |
| `KC.C12_names` | propext, Classical.choice, Quot.sound |
| `KC.C12_names_order_independent` | propext, Classical.choice, Quot.sound |
| `KC.C13_lines` | propext, Classical.choice, Quot.sound |
| `KC.C13_first_line` | propext, Classical.choice, Quot.sound |
| `KC.C13_names` | propext, Classical.choice, Quot.sound |
| `KC.C14_order` | propext, Classical.choice, Quot.sound |
| `KC.C14_cards` | propext, Quot.sound |
| `KC.C14_text_line_written` | propext, Classical.choice, Quot.sound |
| `KC.C14_empty_line_omitted` | propext, Quot.sound |
| `KC.C14_version` | propext, Classical.choice, Quot.sound |
| `KC.C14_set_version_false` | propext, Classical.choice, Quot.sound |
| `KC.C15_datetime` | propext, Classical.choice, Quot.sound |
| `KC.C15_date` | propext, Classical.choice, Quot.sound |
| `KC.C15_none` | none |
| `KC.C15_milliseconds_false` | none |
| `KC.C15_offset_seconds_false` | none |
| `KC.C15_year_false` | propext |
| `KC.C15_card` | propext, Classical.choice, Quot.sound |
| `KC.C15_anniversary` | propext, Classical.choice, Quot.sound |
| `KC.C15_death_v3_false` | propext, Classical.choice, Quot.sound |
| `KC.C15_anniversary_text_false` | propext, Classical.choice, Quot.sound |
| `KC.C16_value` | propext, Classical.choice, Quot.sound |
| `KC.C16_card_partial` | propext, Classical.choice, Quot.sound |
| `KC.C16_false` | propext, Classical.choice, Quot.sound |
| `KC.C17_value` | propext |
| `KC.C17_written` | propext |
| `KC.C17_card_partial` | propext, Classical.choice, Quot.sound |
| `KC.C17_false` | propext, Classical.choice, Quot.sound |
| `KC.C18_card_partial` | propext, Classical.choice, Quot.sound |
| `KC.C18_flags` | propext, Classical.choice, Quot.sound |
| `KC.C18_false` | propext, Classical.choice, Quot.sound |
| `KC.C18_params_false` | propext, Classical.choice, Quot.sound |
| `KC.C19_flags` | propext, Classical.choice, Quot.sound |
| `KC.C20_partial` | propext, Classical.choice, Quot.sound |
| `KC.C20_merged` | propext, Classical.choice, Quot.sound |
| `KC.C20_texts` | propext, Classical.choice, Quot.sound |
| `KC.C20_iff` | propext, Classical.choice, Quot.sound |
| `KC.C20_false` | propext, Classical.choice, Quot.sound |
| `KC.C20_newline_false` | propext, Classical.choice, Quot.sound |
| `KC.C20_empty_address_false` | propext, Classical.choice, Quot.sound |
| `KC.C21_partial` | propext, Classical.choice, Quot.sound |
| `KC.C21_anniversary` | propext, Classical.choice, Quot.sound |
| `KC.C21_anniversary_other` | propext, Classical.choice, Quot.sound |
| `KC.C21_anniversary_date_false` | propext, Quot.sound |
| `KC.C21_dot_false` | propext, Classical.choice, Quot.sound |
| `KC.C21_spouse_false` | propext, Classical.choice, Quot.sound |
| `KC.C21_renamed_false` | propext, Classical.choice, Quot.sound |
| `KC.C21_dash` | propext, Classical.choice, Quot.sound |
| `KC.C22_card_partial` | propext, Classical.choice, Quot.sound |
| `KC.C22_reads_outside` | propext, Classical.choice, Quot.sound |
| `KC.C22_reads_outside_false` | propext |
| `KC.C22_binary_2_1_false` | propext, Classical.choice, Quot.sound |
| `KC.C22_raw_2_1_false` | propext, Quot.sound |
| `KC.C22_type_4_0_false` | propext, Classical.choice, Quot.sound |
| `KC.C22_data_4_0_false` | propext, Classical.choice, Quot.sound |
| `KC.C22_sound_4_0_false` | propext, Classical.choice, Quot.sound |
| `KC.C23_card` | propext, Classical.choice, Quot.sound |
| `KC.C23_text` | propext |
| `KC.C24_contacts` | propext, Classical.choice, Quot.sound |
| `KC.C24_contact` | propext, Classical.choice, Quot.sound |
| `KC.C24_content` | propext, Classical.choice, Quot.sound |
| `KC.C24_sample_readable` | propext, Classical.choice, Quot.sound |
| `KC.C24_sample_uid` | propext |
| `KC.C24_merged` | propext, Classical.choice, Quot.sound |
| `KC.C24_ending_carriable` | propext, Classical.choice, Quot.sound |
| `KC.C24_all_contacts_false` | propext, Classical.choice, Quot.sound |
| `KC.C24_empty_uid` | propext, Classical.choice, Quot.sound |
| `KC.C24_categories` | propext, Classical.choice, Quot.sound |
| `KC.C24_sort_string` | propext, Classical.choice, Quot.sound |
| `KC.C24_preferred_email` | propext, Classical.choice, Quot.sound |
| `KC.C24_same_email` | propext, Classical.choice, Quot.sound |
| `KC.C24_group_order` | propext, Classical.choice, Quot.sound |
| `KC.C24_group_address` | propext, Classical.choice, Quot.sound |
| `KC.C24_calendar_order` | propext, Classical.choice, Quot.sound |
| `KC.C24_title_2_1` | propext, Classical.choice, Quot.sound |
| `KC.C24_empty_parameter` | propext, Classical.choice, Quot.sound |
| `KC.C24_empty_organisation` | propext, Classical.choice, Quot.sound |
| `KC.C24_label` | propext, Classical.choice, Quot.sound |
| `KC.C25_no_duplicates` | propext, Quot.sound |
| `KC.C25_preferred_first` | propext, Quot.sound |
| `KC.C25_added_is_stored` | propext, Classical.choice, Quot.sound |
| `KC.C25_others_keep_order` | propext, Quot.sound |
| `KC.C26_others_kept` | propext, Quot.sound |
| `KC.C26_survives_iff` | propext, Quot.sound |
| `KC.C26_removed_partial` | propext, Quot.sound |
| `KC.C26_false` | propext |
| `KC.C27_lookup` | propext, Quot.sound |
| `KC.C27_listing` | propext, Quot.sound |
| `KC.C27_others_untouched` | propext, Quot.sound |
| `KC.C28_lookup` | propext, Quot.sound |
| `KC.C28_listing` | propext, Quot.sound |
| `KC.C28_others_untouched` | propext, Quot.sound |
| `KC.C28_empty_iff_untouched` | propext |
| `KC.C29_lookup` | propext, Quot.sound |
| `KC.C29_listing` | propext, Quot.sound |
| `KC.C29_others_untouched` | propext, Quot.sound |
| `KC.C29_removed` | propext |
| `KC.C30_present_iff` | propext, Quot.sound |
| `KC.C30_no_duplicates` | propext, Quot.sound |
| `KC.C30_order` | propext, Quot.sound |
| `KC.C31_read_joined_name` | propext, Quot.sound |
| `KC.C31_read_last_partial` | propext, Quot.sound |
| `KC.C31_false` | propext |
| `KC.C31_listing_sorted` | propext, Quot.sound |
| `KC.C31_restore_iff` | propext, Classical.choice, Quot.sound |
| `KC.C31_restore_false` | none |
| `KC.C32_phone` | propext, Classical.choice, Quot.sound |
| `KC.C32_address` | propext, Classical.choice, Quot.sound |
| `KC.C32_phone_first` | propext, Quot.sound |
| `KC.C32_listings` | propext, Quot.sound |
| `KC.C32_keys` | propext, Quot.sound |
| `KC.C33_others_unchanged` | propext, Classical.choice, Quot.sound |
| `KC.C33_changed` | propext, Classical.choice, Quot.sound |
| `KC.C33_values_partial` | propext, Classical.choice, Quot.sound |
| `KC.C33_complete_copy` | propext, Classical.choice, Quot.sound |
| `KC.C33_contact_partial` | propext, Classical.choice, Quot.sound |
| `KC.C33_other_partial` | propext, Classical.choice, Quot.sound |
| `KC.C33_contact_false` | propext |
| `KC.C33_address_false` | propext |
| `KC.C33_phone_false` | propext |
| `KC.C33_impp_false` | propext |
| `KC.C33_reference_false` | propext |
| `KC.C33_picture_false` | propext |
| `KC.C34_equal_iff_partial` | propext, Quot.sound |
| `KC.C34_equivalence_partial` | propext, Quot.sound |
| `KC.C34_reflexive_partial` | propext, Quot.sound |
| `KC.C34_reflexive_false` | propext |
| `KC.C34_symmetric_false` | propext, Quot.sound |
| `KC.C34_same_data_false` | propext, Quot.sound |
| `KC.C34_transitive_false` | propext, Quot.sound |
| `KC.C35_parameters` | propext, Quot.sound |
| `KC.C35_text` | propext, Quot.sound |
| `KC.C35_email` | propext, Quot.sound |
| `KC.C35_fieldGroup` | propext, Quot.sound |
| `KC.C35_urls_partial` | propext, Quot.sound |
| `KC.C35_gender` | propext |
| `KC.C35_geo` | propext |
| `KC.C35_key` | propext |
| `KC.C35_sound` | propext |
| `KC.C35_timeZone` | propext |
| `KC.C35_secrecy` | propext |
| `KC.C35_address` | propext |
| `KC.C35_phone` | propext, Quot.sound |
| `KC.C35_picture` | propext |
| `KC.C35_picture_equal_iff` | propext |
| `KC.C35_contact` | propext, Quot.sound |
| `KC.C35_contact_partial` | propext, Classical.choice, Quot.sound |
| `KC.C35_picture_false` | propext |
| `KC.C35_customs_false` | propext, Quot.sound |
| `KC.C35_stale_false` | propext |
| `KC.C36_noComma_partial` | propext, Quot.sound |
| `KC.C36_comma_partial` | propext, Quot.sound |
| `KC.C36_comma_words_partial` | propext, Quot.sound |
| `KC.C36_crash` | propext, Classical.choice, Quot.sound |
| `KC.C36_false` | propext, Classical.choice, Quot.sound |
| `KC.C36_lost_false` | propext, Quot.sound |
| `KC.C36_given_false` | propext, Quot.sound |
| `KC.C36_given_partial` | propext, Classical.choice, Quot.sound |
| `KC.C37_total` | propext, Quot.sound |
| `KC.C37_escaped_partial` | propext, Classical.choice, Quot.sound |
| `KC.C37_roundtrip_partial` | propext, Classical.choice, Quot.sound |
| `KC.C37_backslashes_iff` | propext, Classical.choice, Quot.sound |
| `KC.C37_unnamed_partial` | propext, Classical.choice, Quot.sound |
| `KC.C37_false` | propext, Classical.choice, Quot.sound |
| `KC.C37_backslash_false` | propext, Quot.sound |
| `KC.C37_case_false` | propext, Quot.sound |
| `KC.C38_line` | propext, Classical.choice, Quot.sound |
| `KC.C38_split` | propext, Classical.choice, Quot.sound |
| `KC.C39_split` | propext, Classical.choice, Quot.sound |
| `KC.C39_false` | propext, Classical.choice, Quot.sound |
| `KC.C39_partial` | propext, Classical.choice, Quot.sound |
| `KC.C40_pieces` | propext, Quot.sound |
| `KC.C40_terminates` | propext, Quot.sound |
| `KC.C40_deterministic` | propext, Quot.sound |
| `KC.C41_crlf_false` | propext, Quot.sound |
| `KC.C41_comment_false` | propext, Quot.sound |
| `KC.C41_first_comment_false` | propext, Quot.sound |
| `KC.C41_lfcr_partial` | propext, Quot.sound |
| `KC.C41_crlf_exact` | propext, Quot.sound |
| `KC.C41_comment_partial` | propext, Quot.sound |
| `KC.C42_partial` | propext, Classical.choice, Quot.sound |
| `KC.C42_readable` | propext, Quot.sound |
| `KC.C42_empty_false` | propext, Classical.choice, Quot.sound |
| `KC.C42_keyword_false` | propext, Classical.choice, Quot.sound |
| `KC.C43_total` | propext, Quot.sound |
| `KC.C43_partial` | propext, Classical.choice, Quot.sound |
| `KC.C43_fields_partial` | propext, Classical.choice, Quot.sound |
| `KC.C43_exact` | propext, Classical.choice, Quot.sound |
| `KC.C43_false` | propext, Classical.choice, Quot.sound |
| `KC.C44_partial` | propext, Classical.choice, Quot.sound |
| `KC.C44_one_partial` | propext, Classical.choice, Quot.sound |
| `KC.C44_false` | propext |
| `KC.C44_list_false` | propext, Quot.sound |
| `KC.C44_street_false` | propext |
| `KC.C44_cell_false` | propext |
| `KC.C44_country_false` | propext |
| `KC.C44_revision_false` | propext |
| `KC.C44_box_false` | propext |
| `KC.C45_order` | propext |
| `KC.C45_members_partial` | propext, Quot.sound |
| `KC.C45_false` | propext |
| `KC.C45_counts` | propext, Quot.sound |
| `KC.C45_member_customs` | propext, Quot.sound |
| `KC.C46_group` | propext, Quot.sound |
| `KC.C46_group_partial` | propext, Quot.sound |
| `KC.C46_list` | propext, Quot.sound |
| `KC.C46_list_partial` | propext, Quot.sound |
| `KC.C46_customs_false` | propext, Quot.sound |
| `KC.C46_unreadable_false` | propext |
| `KC.C46_nested_group` | propext, Quot.sound |
| `KC.C46_nested_list` | propext, Quot.sound |
| `KC.C47_accepted_iff` | propext, Quot.sound |
| `KC.C47_list_rejects` | propext, Quot.sound |
| `KC.C47_list_document` | propext, Quot.sound |
| `KC.C47_document_iff` | propext, Classical.choice, Quot.sound |
| `KC.C47_list_document_iff` | propext, Classical.choice, Quot.sound |
| `KC.C47_list_syntax` | propext, Quot.sound |
| `KC.C47_reported_false` | propext, Quot.sound |
| `KC.C47_syntax_false` | propext |
| `KC.C48_lines` | propext, Classical.choice, Quot.sound |
| `KC.C48_fields_printed` | propext, Classical.choice, Quot.sound |
| `KC.C48_extended_printed` | propext, Classical.choice, Quot.sound |
| `KC.C48_country_printed` | propext, Classical.choice, Quot.sound |
| `KC.C48_country_lines` | propext, Classical.choice, Quot.sound |
| `KC.C48_postal_country` | propext, Classical.choice, Quot.sound |
| `KC.C48_absent_fields_partial` | propext, Classical.choice, Quot.sound |
| `KC.C48_absent_field_partial` | propext, Classical.choice, Quot.sound |
| `KC.C48_no_empty_line` | propext, Classical.choice, Quot.sound |
| `KC.C48_no_blank_line_partial` | propext, Classical.choice, Quot.sound |
| `KC.C48_unknown_country` | propext, Classical.choice, Quot.sound |
| `KC.C48_wrong_country_false` | propext |
| `KC.C48_separators` | propext |
| `KC.C48_business` | propext |
| `KC.C48_blank_line_false` | propext |
| `KC.C48_geo_extended_false` | propext |
| `KC.C49_print_parse` | propext, Classical.choice, Quot.sound |
| `KC.C49_parse_print` | propext |
| `KC.C49_canonical` | propext, Quot.sound |
| `KC.C49_used_fields` | propext, Classical.choice, Quot.sound |
| `KC.C49_field_list` | propext, Classical.choice, Quot.sound |
| `KC.C50_valid_in_range` | propext, Quot.sound |
| `KC.C50_setter` | propext, Quot.sound |
| `KC.C50_cleared` | propext |
| `KC.C50_equal_iff` | propext, Quot.sound |
| `KC.C50_equality_equivalence` | propext, Quot.sound |
| `KC.C50_made` | propext, Quot.sound |
| `KC.C51_email_type_iff` | propext, Classical.choice, Quot.sound |
| `KC.C51_email_type_partial` | propext, Classical.choice, Quot.sound |
| `KC.C51_email_type_false` | propext |
| `KC.C51_url_type` | propext, Classical.choice, Quot.sound |
| `KC.C51_type_keeps_rest` | propext, Classical.choice, Quot.sound |
| `KC.C51_prefer_iff` | propext, Quot.sound |
| `KC.C51_unprefer_iff` | propext, Classical.choice, Quot.sound |
| `KC.C51_preferred_partial` | propext, Classical.choice, Quot.sound |
| `KC.C51_preferred_false` | propext, Quot.sound |
| `KC.C51_preferred_keeps_rest` | propext, Classical.choice, Quot.sound |
| `KC.C51_type_keeps_preference` | propext, Classical.choice, Quot.sound |
| `KC.C51_impp_preferred` | propext, Quot.sound |
| `KC.C51_impp_is_preferred` | propext, Quot.sound |
| `KC.C51_words` | propext, Classical.choice, Quot.sound |
| `KC.C51_is_preferred` | propext, Quot.sound |
| `KC.C51_prefer_object` | propext, Classical.choice, Quot.sound |
| `KC.C52_digits_and_plus` | propext, Classical.choice, Quot.sound |
| `KC.C52_ascii` | propext, Classical.choice, Quot.sound |
| `KC.C52_idempotent` | propext, Classical.choice, Quot.sound |
| `KC.C52_set_normalized` | propext, Classical.choice, Quot.sound |
| `KC.C53_idempotent` | propext |
| `KC.C53_unknown` | none |
| `KC.C53_known` | none |
| `KC.C53_card_partial` | propext, Classical.choice, Quot.sound |
| `KC.C53_gadu_false` | propext, Classical.choice, Quot.sound |
| `KC.C53_gadu_modern` | propext, Classical.choice, Quot.sound |
| `KC.C53_adapt` | propext, Classical.choice, Quot.sound |
| `KC.C53_adapt_every` | propext, Classical.choice, Quot.sound |
| `KC.C53_adapt_twitter_false` | propext |
| `KC.C54_empty_has_no_data` | propext, Quot.sound |
| `KC.C54_stored_stays_nonempty` | propext, Quot.sound |
| `KC.C54_iff` | propext, Quot.sound |
| `KC.C55_no_content_without_begin_partial` | propext, Classical.choice, Quot.sound |
| `KC.C55_no_card_without_end_partial` | propext, Classical.choice, Quot.sound |
| `KC.C55_no_cards_without_begin_false` | propext |
| `KC.C56_no_card` | propext, Quot.sound |
| `KC.C56_first` | propext, Classical.choice, Quot.sound |
| `KC.C56_first_of_all` | propext, Quot.sound |
| `KC.C56_empty` | propext, Quot.sound |
| `KC.C56_drag` | propext, Quot.sound |
| `KC.C56_format` | propext, Quot.sound |
| `KC.C56_drag_no_card` | propext, Quot.sound |
| `KC.C56_drag_roundtrip` | propext, Classical.choice, Quot.sound |
| `KC.C56_put` | propext, Quot.sound |
| `KC.C56_put_text` | propext, Quot.sound |
| `KC.C56_text` | propext, Quot.sound |
| `KC.C56_text_roundtrip` | propext, Quot.sound |
| `KC.C56_stray_end` | propext, Classical.choice, Quot.sound |
| `KC.C57_choice` | propext |
| `KC.C57_words` | propext, Quot.sound |
| `KC.C57_empty` | propext, Quot.sound |
| `KC.C58_exact` | propext, Classical.choice, Quot.sound |
| `KC.C58_soft_breaks_partial` | propext, Classical.choice, Quot.sound |
| `KC.C58_value_exact` | propext, Classical.choice, Quot.sound |
| `KC.C58_value_partial` | propext, Classical.choice, Quot.sound |
| `KC.C58_escapes_false` | propext, Classical.choice, Quot.sound |
| `KC.C58_leading_space_false` | propext, Classical.choice, Quot.sound |
| `KC.C59_plain_fields` | propext |
| `KC.C59_compared_fields` | propext |
| `KC.C59_birthday` | propext |
| `KC.C59_first_texts` | propext |
| `KC.C59_named_customs` | propext, Quot.sound |
| `KC.C59_url_false` | propext |
| `KC.C59_object_overload_false` | none |
| `KC.C59_object_overload_partial` | propext |
| `KC.C59_whole_lists` | none |
| `KC.C59_emails` | propext, Quot.sound |
| `KC.C59_additions` | propext, Quot.sound |
| `KC.C60_partial` | propext, Quot.sound |
| `KC.C60_false` | propext |
| `KC.C61_partial` | propext, Classical.choice, Quot.sound |
| `KC.C61_false` | propext, Quot.sound |
| `KC.C62_format_string` | propext, Quot.sound |
| `KC.C62_default` | propext, Quot.sound |
| `KC.C62_required_upper` | propext, Classical.choice, Quot.sound |
| `KC.C62_country` | propext |
| `KC.C62_script` | propext, Quot.sound |
| `KC.C62_address` | propext, Quot.sound |
| `KC.C62_script_class` | propext, Quot.sound |
| `KC.C63_no_drift_partial` | propext, Classical.choice, Quot.sound |
| `KC.C63_again_partial` | propext, Classical.choice, Quot.sound |
| `KC.C63_custom_key_false` | propext, Classical.choice, Quot.sound |
| `KC.C64_picture` | propext, Quot.sound |
| `KC.C64_sound` | propext |
| `KC.C64_key` | propext |
| `KC.C64_sound_history` | propext |
| `KC.C64_reading_is_harmless` | propext |
| `KC.C64_same_export` | propext |
| `KC.C64_comparison_after_reading_false` | propext |
| `KC.C64_comparison_lost_false` | propext |
| `KC.C64_comparison_after_reading_partial` | propext, Quot.sound |
| `KC.C65_order` | propext, Classical.choice, Quot.sound |
| `KC.C65_order_contacts` | propext, Classical.choice, Quot.sound |
| `KC.C65_unknown` | propext, Classical.choice, Quot.sound |
| `KC.C66_phone` | propext, Quot.sound |
| `KC.C66_phone_distinct` | propext, Quot.sound |
| `KC.C66_address` | propext |
| `KC.C66_address_distinct` | propext, Quot.sound |
| `KC.C66_address_object_false` | propext |
| `KC.C66_address_object_partial` | propext, Quot.sound |
| `KC.C66_phone_words` | propext |
| `KC.C66_address_words` | propext |
| `KC.C66_phone_is` | propext, Quot.sound |
| `KC.C66_url` | propext, Classical.choice, Quot.sound |
| `KC.C66_url_false` | propext, Classical.choice, Quot.sound |
| `KC.C67_sorted` | propext, Quot.sound |
| `KC.C67_exact` | propext, Quot.sound |
| `KC.C67_order` | propext, Classical.choice, Quot.sound |
| `KC.C67_label` | propext, Classical.choice, Quot.sound |
| `KC.C67_lookup_false` | propext |
| `KC.C67_lookup_partial` | propext, Quot.sound |
| `KC.C67_shipped` | propext, Classical.choice, Quot.sound |
| `KC.C67_user` | propext, Classical.choice, Quot.sound |
| `KC.C67_distinct` | propext, Classical.choice, Quot.sound |
| `KC.C67_shown` | propext |
| `KC.C67_icon_false` | propext |
| `KC.C68_partial` | propext, Classical.choice, Quot.sound |
| `KC.C68_member_iff` | propext, Classical.choice, Quot.sound |
| `KC.C68_false` | propext, Classical.choice, Quot.sound |
| `KC.C68_references_false` | propext |
| `KC.C68_comma_false` | none |
| `KC.C69_iff` | propext |
| `KC.C69_equivalence` | propext |
| `KC.C69_congruence` | propext |
| `KC.C69_false` | propext |
| `KC.C69_partial` | propext, Quot.sound |
| `KC.C70_fields` | propext, Quot.sound |
| `KC.C70_order` | propext, Quot.sound |
| `KC.C70_swap` | propext, Quot.sound |
| `KC.C70_last` | propext, Quot.sound |
| `KC.C70_lists` | propext, Quot.sound |
| `KC.C70_compared` | propext, Classical.choice, Quot.sound |
| `KC.C70_birthday` | propext, Classical.choice, Quot.sound |
| `KC.C70_birthday_false` | propext, Classical.choice, Quot.sound |
| `KC.C71_distinct` | propext, Quot.sound |
| `KC.C71_same_data` | propext, Quot.sound |
| `KC.C72_insert` | propext, Quot.sound |
| `KC.C72_remove_iff` | propext, Quot.sound |
| `KC.C72_false` | none |
| `KC.C72_langs_partial` | propext, Quot.sound |
| `KC.C72_members` | propext, Classical.choice, Quot.sound |
| `KC.C72_relationships` | propext, Classical.choice, Quot.sound |
| `KC.C73_partial` | propext, Classical.choice, Quot.sound |
| `KC.C73_date` | propext, Classical.choice, Quot.sound |
| `KC.C73_false` | none |
| `KC.C73_truncated_false` | none |
| `KC.C73_real` | propext, Classical.choice, Quot.sound |
| `KC.C73_real_ldif` | propext, Classical.choice, Quot.sound |
| `KC.C73_ldif_partial` | propext, Classical.choice, Quot.sound |
| `KC.C73_ldif_midnight` | propext, Classical.choice, Quot.sound |
| `KC.C73_ldif_zone_false` | propext |
| `KC.C73_ldif_seconds_false` | propext |
| `KC.C74_mentions` | propext, Quot.sound |
| `KC.C74_shown_partial` | propext, Classical.choice, Quot.sound |
| `KC.C74_required` | propext, Quot.sound |
| `KC.C74_once` | propext, Quot.sound |
| `KC.C74_locality` | propext, Quot.sound |
| `KC.C74_postal_code` | propext, Quot.sound |
| `KC.C74_false` | propext |
| `KC.C75_partial` | propext, Classical.choice, Quot.sound |
| `KC.C75_false` | propext, Quot.sound |
| `KC.C76` | propext, Classical.choice, Quot.sound |
| `KC.C76_unnamed` | propext, Classical.choice, Quot.sound |
| `KC.C76_group` | propext, Classical.choice, Quot.sound |
| `KC.C76_given_false` | propext, Classical.choice, Quot.sound |
| `KC.C77_contact` | propext |
| `KC.C77_group` | propext, Quot.sound |
| `KC.C77_contacts` | propext |
| `KC.C77_groups` | propext, Quot.sound |
| `KC.C77` | propext, Quot.sound |
| `KC.C77_empty_false` | propext |
| `KC.C78` | propext, Classical.choice, Quot.sound |
| `KC.C78_every` | propext, Quot.sound |
| `KC.C78_first` | propext, Classical.choice, Quot.sound |
| `KC.C79` | propext, Classical.choice, Quot.sound |
| `KC.C80_names_partial` | propext, Classical.choice, Quot.sound |
| `KC.C80_names_v4` | propext, Classical.choice, Quot.sound |
| `KC.C80_once` | propext, Classical.choice, Quot.sound |
| `KC.C80_version` | propext, Classical.choice, Quot.sound |
| `KC.C80_n` | propext, Classical.choice, Quot.sound |
| `KC.C80_cards` | propext, Quot.sound |
| `KC.C80_later_false` | propext, Quot.sound |
| `KC.C80_fn_false` | propext, Quot.sound |
| `KC.C81_layout` | propext, Quot.sound |
| `KC.C81_shows` | propext, Classical.choice, Quot.sound |
| `KC.C81_values` | propext, Quot.sound |
| `KC.C81_items` | propext, Quot.sound |
| `KC.C81_words` | propext, Quot.sound |
| `KC.C81_same` | propext, Quot.sound |
| `KC.C81_hidden` | propext |
| `KC.C81_phone` | propext |
| `KC.C81_phone_false` | none |
| `KC.C81_breaks_false` | propext |
| `KC.C81_group_partial` | propext |
| `KC.C81_group_false` | none |
| `KC.C82_words` | propext, Quot.sound |
| `KC.C82_split` | propext, Quot.sound |
| `KC.C82_divided` | propext, Quot.sound |
| `KC.C82_comma` | propext, Quot.sound |
| `KC.C82_comma_blank` | propext, Quot.sound |
| `KC.C82_comma_false` | propext |
| `KC.C82_local` | propext, Quot.sound |
| `KC.C82_unused` | propext, Quot.sound |
| `KC.C82_inclusion` | propext, Classical.choice, Quot.sound |
| `KC.C82_inclusion_false` | propext |
| `KC.C83_lines_partial` | propext, Classical.choice, Quot.sound |
| `KC.C83_read_partial` | propext, Classical.choice, Quot.sound |
| `KC.C83_lines_false` | propext, Quot.sound |
| `KC.C83_read_false` | propext, Quot.sound |
| `KC.C84_partial` | propext, Classical.choice, Quot.sound |
| `KC.C84_one_spelling` | propext, Classical.choice, Quot.sound |
| `KC.C84_parameters` | propext, Classical.choice, Quot.sound |
| `KC.C84_small` | propext, Classical.choice, Quot.sound |
| `KC.C84_order_false` | propext, Classical.choice, Quot.sound |
| `KC.C84_label_false` | propext, Classical.choice, Quot.sound |
| `KC.C84_own_false` | propext, Classical.choice, Quot.sound |
| `KC.C85` | propext, Classical.choice, Quot.sound |
| `KC.C85_respelled` | propext |
| `KC.C85_unknown` | propext |
| `KC.C85_swapped` | propext |
| `KC.C86_vcard` | propext, Quot.sound |
| `KC.C86_reread` | propext, Quot.sound |
| `KC.C86_ldif` | propext |
| `KC.C87_declared` | propext, Quot.sound |
| `KC.C87_last_partial` | propext, Classical.choice, Quot.sound |
| `KC.C87_others` | propext, Quot.sound |
| `KC.C87_url` | propext, Quot.sound |
| `KC.C87_url_false` | propext |
| `KC.C87_anniversary_false` | propext |
| `KC.C88_position` | propext |
| `KC.C88_coordinates_partial` | propext, Classical.choice, Quot.sound |
| `KC.C88_number_iff` | propext, Classical.choice, Quot.sound |
| `KC.C88_exponent_false` | propext, Classical.choice, Quot.sound |
| `KC.C88_search_partial` | propext, Classical.choice, Quot.sound |
| `KC.C88_nothing` | propext |
| `KC.C88_private` | propext |
| `KC.C89_contacts` | propext, Classical.choice, Quot.sound |
| `KC.C89_contact` | propext, Classical.choice, Quot.sound |
| `KC.C89_content` | propext, Classical.choice, Quot.sound |
| `KC.C89_unchanged` | propext, Classical.choice, Quot.sound |
| `KC.C89_stable` | propext, Classical.choice, Quot.sound |
| `KC.C89_sample_read` | propext |
| `KC.C89_sample_readable` | propext, Classical.choice, Quot.sound |
| `KC.C89_sample_merged` | propext |
| `KC.C89_false` | propext |
| `KC.C90_content_partial` | propext, Classical.choice, Quot.sound |
| `KC.C90_again_partial` | propext, Classical.choice, Quot.sound |
| `KC.C90_order_partial` | propext, Classical.choice, Quot.sound |
| `KC.C90_kept_partial` | propext, Classical.choice, Quot.sound |
| `KC.C90_sample` | propext, Classical.choice, Quot.sound |
| `KC.C91_text_partial` | propext, Classical.choice, Quot.sound |
| `KC.C91_rounds_partial` | propext, Classical.choice, Quot.sound |
| `KC.C91_settles` | propext, Classical.choice, Quot.sound |
| `KC.C91_custom_key_false` | propext, Classical.choice, Quot.sound |
| `KC.C91_settles_false` | propext, Classical.choice, Quot.sound |
| `KC.C92` | propext, Classical.choice, Quot.sound |
| `KC.C92_any` | propext, Classical.choice, Quot.sound |
| `KC.C93` | propext, Classical.choice, Quot.sound |
| `KC.C93_read` | propext, Classical.choice, Quot.sound |
| `KC.C93_any` | propext, Classical.choice, Quot.sound |
| `KC.C94` | propext, Classical.choice, Quot.sound |
| `KC.C94_piece` | propext, Classical.choice, Quot.sound |
| `KC.C94_silent` | propext, Classical.choice, Quot.sound |
| `KC.C94_call` | propext, Classical.choice, Quot.sound |
| `KC.C95_cards` | propext, Classical.choice, Quot.sound |
| `KC.C95` | propext, Classical.choice, Quot.sound |
| `KC.C95_every_cut` | propext, Quot.sound |
| `KC.C95_soft_break_false` | propext, Classical.choice, Quot.sound |
| `KC.C95_one_line_false` | propext, Classical.choice, Quot.sound |
| `KC.C95_any` | propext, Classical.choice, Quot.sound |
| `KC.C96` | propext, Quot.sound |
| `KC.C96_exported` | propext, Quot.sound |
| `KC.C96_contacts` | propext, Classical.choice, Quot.sound |
| `KC.C96_folded_false` | propext, Quot.sound |
| `KC.C97` | propext, Classical.choice, Quot.sound |
| `KC.C97_field` | propext, Classical.choice, Quot.sound |
| `KC.C97_silent` | propext, Classical.choice, Quot.sound |
| `KC.C97_call` | propext, Classical.choice, Quot.sound |
| `KC.C97_call_silent` | propext, Classical.choice, Quot.sound |
| `KC.C98_distinct` | propext, Classical.choice, Quot.sound |
| `KC.C98_partial` | propext, Classical.choice, Quot.sound |
| `KC.C98_export_partial` | propext, Classical.choice, Quot.sound |
| `KC.C98_custom_key_false` | propext, Quot.sound |
| `KC.C98_fields` | propext, Classical.choice, Quot.sound |
| `KC.C99_any` | propext, Classical.choice, Quot.sound |
| `KC.C99` | propext, Classical.choice, Quot.sound |
| `KC.C99_contacts` | propext, Classical.choice, Quot.sound |
| `KC.C99_glued` | propext, Classical.choice, Quot.sound |
| `KC.C99_glued_before` | propext, Classical.choice, Quot.sound |
| `KC.C99_mixed_false` | propext, Classical.choice, Quot.sound |
| `KC.C100` | propext, Classical.choice, Quot.sound |
| `KC.C100_contacts` | propext, Classical.choice, Quot.sound |
| `KC.C100_empty_line` | propext, Classical.choice, Quot.sound |
| `KC.C100_marker_false` | propext, Classical.choice, Quot.sound |
| `KC.C101` | propext, Classical.choice, Quot.sound |
| `KC.C101_birthday` | propext, Classical.choice, Quot.sound |
| `KC.C101_cut` | propext, Classical.choice, Quot.sound |
| `KC.C101_glued_false` | propext, Classical.choice, Quot.sound |
| `KC.C101_birthday_false` | propext, Classical.choice, Quot.sound |
| `KC.C102` | propext, Classical.choice, Quot.sound |
| `KC.C102_change_false` | propext, Quot.sound |
| `KC.C103` | propext, Quot.sound |
| `KC.C103_import` | propext, Quot.sound |
| `KC.C103_empty_false` | propext, Quot.sound |
| `KC.C103_crlf_false` | propext, Quot.sound |
| `KC.C104` | propext, Classical.choice, Quot.sound |
| `KC.C104_import` | propext, Classical.choice, Quot.sound |
| `KC.C104_folded` | propext, Classical.choice, Quot.sound |
| `KC.C104_space` | propext, Classical.choice, Quot.sound |
| `KC.C104_space_false` | propext |
| `KC.C105_partial` | propext, Classical.choice, Quot.sound |
| `KC.C105_values` | propext, Quot.sound |
| `KC.C105_quoted_list_false` | propext, Classical.choice, Quot.sound |
| `KC.C106_partial` | propext, Classical.choice, Quot.sound |
| `KC.C106_text` | propext, Classical.choice, Quot.sound |
| `KC.C106_kept_false` | propext, Classical.choice, Quot.sound |
| `KC.C107_partial` | propext, Classical.choice, Quot.sound |
| `KC.C107_lookup` | propext, Classical.choice, Quot.sound |
| `KC.C107_nick_false` | propext, Classical.choice, Quot.sound |
| `KC.C107_department_false` | propext, Classical.choice, Quot.sound |
| `KC.C108_partial` | propext, Classical.choice, Quot.sound |
| `KC.C108_ids_false` | propext, Classical.choice, Quot.sound |
| `KC.C109_partial` | propext, Classical.choice, Quot.sound |
| `KC.C109_picture_false` | propext, Quot.sound |
| `KC.C109_url_false` | propext, Quot.sound |
| `KC.C110_partial` | propext, Classical.choice, Quot.sound |
| `KC.C110_same_partial` | propext, Classical.choice, Quot.sound |
| `KC.C110_stamp_false` | propext, Quot.sound |
| `KC.C110_list_false` | propext |
| `KC.C110_street_false` | propext |
| `KC.C111` | propext, Classical.choice, Quot.sound |
| `KC.C111_content` | propext, Classical.choice, Quot.sound |
| `KC.C111_book` | propext, Classical.choice, Quot.sound |
| `KC.C111_preferred_false` | propext, Classical.choice, Quot.sound |
| `KC.C111_title_false` | propext, Quot.sound |
| `KC.C112` | propext, Classical.choice, Quot.sound |
| `KC.C112_text` | propext, Classical.choice, Quot.sound |
| `KC.C112_uid_false` | propext, Quot.sound |
| `KC.C112_service_false` | propext, Quot.sound |
| `KC.C113` | propext, Classical.choice, Quot.sound |
| `KC.C113_text` | propext, Classical.choice, Quot.sound |
| `KC.C113_ldif` | propext, Classical.choice, Quot.sound |
| `KC.C113_uid_false` | propext, Quot.sound |
| `KC.C113_department_false` | propext, Quot.sound |
| `KC.C113_year_false` | propext, Quot.sound |
| `KC.C114` | propext, Classical.choice, Quot.sound |
| `KC.C114_absent` | propext, Classical.choice, Quot.sound |
| `KC.C114_added` | propext, Classical.choice, Quot.sound |
| `KC.C115` | propext, Classical.choice, Quot.sound |
| `KC.C115_text` | propext, Classical.choice, Quot.sound |
| `KC.C115_added` | propext, Classical.choice, Quot.sound |
| `KC.C115_restored` | propext, Classical.choice, Quot.sound |
| `KC.C116` | propext, Classical.choice, Quot.sound |
| `KC.C116_absent` | propext, Classical.choice, Quot.sound |
| `KC.C116_added` | propext, Classical.choice, Quot.sound |
| `KC.C117` | propext, Classical.choice, Quot.sound |
| `KC.C117_edited` | propext, Classical.choice, Quot.sound |
| `KC.C118` | propext, Classical.choice, Quot.sound |
| `KC.C118_group` | propext, Quot.sound |
| `KC.C119` | propext |
| `KC.C119_accepted` | propext |
| `KC.C119_untouched` | propext |
| `KC.C119_cut` | propext, Classical.choice, Quot.sound |
| `KC.C119_list` | propext, Quot.sound |
| `KC.C119_unchanged_false` | propext |
| `KC.C120` | propext, Classical.choice, Quot.sound |
| `KC.C120_after` | propext, Classical.choice, Quot.sound |
| `KC.C120_members` | propext, Classical.choice, Quot.sound |
| `KC.C120_same_kind_false` | propext |
| `KC.C121` | propext, Classical.choice, Quot.sound |
| `KC.C121_fields` | propext, Quot.sound |
| `KC.C121_gid_partial` | propext, Quot.sound |
| `KC.C121_gid_false` | propext |
| `KC.C122` | propext, Quot.sound |
| `KC.C122_domestic` | propext, Quot.sound |
| `KC.C122_hidden` | propext, Quot.sound |
| `KC.C122_given_false` | propext |
| `KC.C123` | propext, Classical.choice, Quot.sound |
| `KC.C123_file` | propext, Classical.choice, Quot.sound |
| `KC.C123_own` | propext, Classical.choice, Quot.sound |
| `KC.C123_type` | propext, Classical.choice, Quot.sound |
| `KC.C123_own_false` | propext, Classical.choice, Quot.sound |
