{
 "claims": [
  {
   "property": "C01",
   "status": "partial",
   "theorems": [
    "KC.C01_escape_exact",
    "KC.C01_escape_roundtrip_iff",
    "KC.C01_escape_roundtrip_partial",
    "KC.C01_escape_roundtrip_false",
    "KC.C01_escape_roundtrip_no_backslash_partial",
    "KC.C01_escaped_is_single_line"
   ],
   "note": "False of the code as stated (backslash followed by n, N or r is damaged; witness C01_escape_roundtrip_false). Exact behaviour for every value and the exact set of surviving values are proved."
  },
  {
   "property": "C02",
   "status": "partial",
   "theorems": [
    "KC.C02_split_join_partial",
    "KC.C02_split_join_exact",
    "KC.C02_split_join_iff",
    "KC.C02_split_join_false",
    "KC.C02_split_nonempty",
    "KC.C02_join_split_no_backslash"
   ],
   "note": "False of the code for components ending in a backslash (witness); proved as an if-and-only-if, and C02_split_join_exact gives the components found for any components."
  },
  {
   "property": "C03",
   "status": "proved",
   "theorems": [
    "KC.C03_fold_shape",
    "KC.C03_fold_unfold"
   ],
   "note": "Both folding modes, every line without LF."
  },
  {
   "property": "C04",
   "status": "partial",
   "theorems": [
    "KC.C04_width_text",
    "KC.C04_width_bytes_partial",
    "KC.C04_width_bytes_false",
    "KC.C04_lines_terminated"
   ],
   "note": "Proved for text mode (75 bytes). In byte mode continuation lines have 76 bytes: witness, bound 76 proved."
  },
  {
   "property": "C05",
   "status": "partial",
   "theorems": [
    "KC.C05_no_torn_char_partial",
    "KC.C05_no_torn_char_false",
    "KC.C05_torn_iff"
   ],
   "note": "Proved for characters below U+10000; 4-byte characters can be torn: witness. C05_torn_iff: a character is torn exactly when one above U+FFFF starts at column 72 of a line."
  },
  {
   "property": "C06",
   "status": "proved",
   "theorems": [
    "KC.C06_cards_roundtrip",
    "KC.C06_line_roundtrip"
   ],
   "note": "Whole texts of any number of cards with any number of lines: name, group, parameters, text, binary data, quoted-printable and charset values (for codecs that restore what they encode). LineOK (Spec/Writable) says which lines can be written; it excludes lines the format has no way to represent."
  },
  {
   "property": "C07",
   "status": "partial",
   "theorems": [
    "KC.C07_terminates_partial",
    "KC.C07_terminates_without_soft_breaks_partial",
    "KC.C07_terminates_false"
   ],
   "note": "False of the code: a text ending inside a quoted-printable soft line break is read for ever (witness, no fuel suffices). Proved: termination with a linear bound for every text whose last two terminated lines do not end in '=' and for every text without soft breaks."
  },
  {
   "property": "C08",
   "status": "proved",
   "theorems": [
    "KC.C08_line_endings"
   ],
   "note": "Every LF text, equal result for every number of loop rounds."
  },
  {
   "property": "C09",
   "status": "proved",
   "theorems": [
    "KC.C09_concatenation",
    "KC.C09_written_cards"
   ],
   "note": "Any list of complete texts, including junk, any case, soft line breaks and blank lines; complete = the end marker is not swallowed by a soft break. Also for texts written from cards."
  },
  {
   "property": "C10",
   "status": "proved",
   "theorems": [
    "KC.C10_base64_roundtrip",
    "KC.C10_base64_alphabet",
    "KC.C10_base64_ignores_noise"
   ],
   "note": "Byte level for every byte string; noise tolerance of the decoder."
  },
  {
   "property": "C11",
   "status": "partial",
   "theorems": [
    "KC.C11_toUtf8_is_utf8",
    "KC.C11_utf8_roundtrip_partial",
    "KC.C11_decode_roundtrip",
    "KC.C11_utf8_roundtrip_false",
    "KC.C11_toUtf8_injective"
   ],
   "note": "Proved for every well-formed text not starting with U+FEFF; the decoder drops a leading U+FEFF: witness."
  },
  {
   "property": "C12",
   "status": "proved",
   "theorems": [
    "KC.C12_lookup",
    "KC.C12_first_value",
    "KC.C12_names",
    "KC.C12_names_order_independent"
   ],
   "note": "For every history of additions: lookup, first value, names ascending and independent of the order of additions."
  },
  {
   "property": "C13",
   "status": "proved",
   "theorems": [
    "KC.C13_lines",
    "KC.C13_first_line",
    "KC.C13_names"
   ],
   "note": "For every history of added lines."
  },
  {
   "property": "C14",
   "status": "proved",
   "theorems": [
    "KC.C14_order",
    "KC.C14_cards",
    "KC.C14_text_line_written",
    "KC.C14_empty_line_omitted",
    "KC.C14_version",
    "KC.C14_set_version_false"
   ],
   "note": "For every history of lines. A line whose value is empty is not written (C14_empty_line_omitted). The setter of the version, which nothing in the library calls, stores the number in the wrong place (C14_set_version_false)."
  },
  {
   "property": "C15",
   "status": "proved",
   "theorems": [
    "KC.C15_datetime",
    "KC.C15_date",
    "KC.C15_none",
    "KC.C15_milliseconds_false",
    "KC.C15_offset_seconds_false",
    "KC.C15_year_false",
    "KC.C15_card",
    "KC.C15_anniversary",
    "KC.C15_death_v3_false",
    "KC.C15_anniversary_text_false"
   ],
   "note": "Text of dates, times and zones (C15_datetime, C15_date); birthday, revision, death date (version 4) and anniversary in whole cards (C15_card, C15_anniversary) for contacts a version can carry. Counterexamples outside the range (milliseconds, seconds of an offset, other years, death date before version 4) are stated as _false theorems."
  },
  {
   "property": "C16",
   "status": "partial",
   "theorems": [
    "KC.C16_value",
    "KC.C16_card_partial",
    "KC.C16_false"
   ],
   "note": "False for offsets of 100 hours and more (C16_false). C16_value is exact (iff) for the text of every integer offset; C16_card_partial is the whole-card form."
  },
  {
   "property": "C17",
   "status": "partial",
   "theorems": [
    "KC.C17_value",
    "KC.C17_written",
    "KC.C17_card_partial",
    "KC.C17_false"
   ],
   "note": "False for a gender of more than one code unit and for ';' (C17_false). C17_value is exact (iff) for every gender and comment; C17_card_partial is the whole-card form."
  },
  {
   "property": "C18",
   "status": "partial",
   "theorems": [
    "KC.C18_card_partial",
    "KC.C18_flags",
    "KC.C18_false",
    "KC.C18_params_false"
   ],
   "note": "False for no flags (read as Undefined) and for Undefined together with others (C18_false). C18_flags is exact (iff) over all sets of the 15 flags in every version, in whole cards."
  },
  {
   "property": "C19",
   "status": "proved",
   "theorems": [
    "KC.C19_flags"
   ],
   "note": "All 2^7 sets in every version, in whole cards."
  },
  {
   "property": "C20",
   "status": "partial",
   "theorems": [
    "KC.C20_partial",
    "KC.C20_merged",
    "KC.C20_texts",
    "KC.C20_iff",
    "KC.C20_false",
    "KC.C20_newline_false",
    "KC.C20_empty_address_false"
   ],
   "note": "False for components ending in a backslash or with a backslash before n, N or r, and for addresses without components (witnesses). C20_merged (all versions) and C20_texts (3.0 and 4.0, any texts) give what is read; C20_iff says exactly for which names and addresses the components come back in 3.0 and 4.0; C20_partial: components that can be carried come back."
  },
  {
   "property": "C21",
   "status": "partial",
   "theorems": [
    "KC.C21_partial",
    "KC.C21_anniversary",
    "KC.C21_anniversary_other",
    "KC.C21_anniversary_date_false",
    "KC.C21_dot_false",
    "KC.C21_spouse_false",
    "KC.C21_renamed_false",
    "KC.C21_dash"
   ],
   "note": "False for names with a dot, for names of other programs and for the spouse's name in version 4 (witnesses). Proved in whole cards for the names described by CustomOK."
  },
  {
   "property": "C22",
   "status": "partial",
   "theorems": [
    "KC.C22_card_partial",
    "KC.C22_reads_outside",
    "KC.C22_reads_outside_false",
    "KC.C22_binary_2_1_false",
    "KC.C22_raw_2_1_false",
    "KC.C22_type_4_0_false",
    "KC.C22_data_4_0_false",
    "KC.C22_sound_4_0_false"
   ],
   "note": "False for embedded data in version 2.1, for the type (and with unusual type names the data) of embedded pictures in version 4, for sounds in version 4 (witnesses). Proved for the rest in whole cards. 'Never reads outside the value' is false; C22_reads_outside says exactly (iff) for which files."
  },
  {
   "property": "C23",
   "status": "proved",
   "theorems": [
    "KC.C23_card",
    "KC.C23_text"
   ],
   "note": "Whole cards of version 3.0, and exact reading of every class text."
  },
  {
   "property": "C24",
   "status": "proved",
   "theorems": [
    "KC.C24_contacts",
    "KC.C24_contact",
    "KC.C24_content",
    "KC.C24_sample_readable",
    "KC.C24_sample_uid",
    "KC.C24_merged",
    "KC.C24_ending_carriable",
    "KC.C24_all_contacts_false",
    "KC.C24_empty_uid",
    "KC.C24_categories",
    "KC.C24_sort_string",
    "KC.C24_preferred_email",
    "KC.C24_same_email",
    "KC.C24_group_order",
    "KC.C24_group_address",
    "KC.C24_calendar_order",
    "KC.C24_title_2_1",
    "KC.C24_empty_parameter",
    "KC.C24_empty_organisation",
    "KC.C24_label"
   ],
   "note": "C24_contacts: any number of contacts in the class Readable, each version; the result is the contact described by Contact.restored, field by field. C24_content: the fields named in the property. C24Limits.lean: contacts outside the class that come back different. C24_merged: the same with components that end in backslashes and addresses for which nothing is written, and what becomes of them."
  },
  {
   "property": "C25",
   "status": "proved",
   "theorems": [
    "KC.C25_no_duplicates",
    "KC.C25_preferred_first",
    "KC.C25_added_is_stored",
    "KC.C25_others_keep_order"
   ],
   "note": "Every list of addresses built from any history of operations."
  },
  {
   "property": "C26",
   "status": "partial",
   "theorems": [
    "KC.C26_others_kept",
    "KC.C26_survives_iff",
    "KC.C26_removed_partial",
    "KC.C26_false"
   ],
   "note": "False of the code: of two adjacent equal addresses only one is removed (witness). Exact condition for an address to survive a removal proved; removal complete when no address occurs twice."
  },
  {
   "property": "C27",
   "status": "proved",
   "theorems": [
    "KC.C27_lookup",
    "KC.C27_listing",
    "KC.C27_others_untouched"
   ],
   "note": "Every history of insertions and removals, refined by a finite map from ids."
  },
  {
   "property": "C28",
   "status": "proved",
   "theorems": [
    "KC.C28_lookup",
    "KC.C28_listing",
    "KC.C28_others_untouched",
    "KC.C28_empty_iff_untouched"
   ],
   "note": "Every history of insertions and removals."
  },
  {
   "property": "C29",
   "status": "proved",
   "theorems": [
    "KC.C29_lookup",
    "KC.C29_listing",
    "KC.C29_others_untouched",
    "KC.C29_removed"
   ],
   "note": "Every history of insertions and removals."
  },
  {
   "property": "C30",
   "status": "proved",
   "theorems": [
    "KC.C30_present_iff",
    "KC.C30_no_duplicates",
    "KC.C30_order"
   ],
   "note": "Every history of insertions and removals."
  },
  {
   "property": "C31",
   "status": "partial",
   "theorems": [
    "KC.C31_read_joined_name",
    "KC.C31_read_last_partial",
    "KC.C31_false",
    "KC.C31_listing_sorted",
    "KC.C31_restore_iff",
    "KC.C31_restore_false"
   ],
   "note": "False of the code: app 'a-b' name 'c' and app 'a' name 'b-c' share one entry, and names with ':' or '-' are not restored from customs() (witnesses). Exact behaviour proved."
  },
  {
   "property": "C32",
   "status": "proved",
   "theorems": [
    "KC.C32_phone",
    "KC.C32_address",
    "KC.C32_phone_first",
    "KC.C32_listings",
    "KC.C32_keys"
   ],
   "note": "Every list of entries and every requested set of flags."
  },
  {
   "property": "C33",
   "status": "partial",
   "theorems": [
    "KC.C33_others_unchanged",
    "KC.C33_changed",
    "KC.C33_values_partial",
    "KC.C33_complete_copy",
    "KC.C33_contact_partial",
    "KC.C33_other_partial",
    "KC.C33_contact_false",
    "KC.C33_address_false",
    "KC.C33_phone_false",
    "KC.C33_impp_false",
    "KC.C33_reference_false",
    "KC.C33_picture_false"
   ],
   "note": "False of the code: the copy constructors of contact, address, phone number, IM address, group reference and picture drop fields on detach (witness each: C33_*_false). Proved: every other object is unchanged by any history, the field set has its new value, and objects whose copy constructor is complete behave as values."
  },
  {
   "property": "C34",
   "status": "partial",
   "theorems": [
    "KC.C34_equal_iff_partial",
    "KC.C34_equivalence_partial",
    "KC.C34_reflexive_partial",
    "KC.C34_reflexive_false",
    "KC.C34_symmetric_false",
    "KC.C34_same_data_false",
    "KC.C34_transitive_false"
   ],
   "note": "False of the code: not reflexive (empty embedded picture), not symmetric and not data-preserving (repeated list entries), not transitive (file content and decoded pictures). Proved: on contacts without repeated entries and with readable pictures comparison is exactly having the same data, hence an equivalence."
  },
  {
   "property": "C35",
   "status": "partial",
   "theorems": [
    "KC.C35_parameters",
    "KC.C35_text",
    "KC.C35_email",
    "KC.C35_fieldGroup",
    "KC.C35_urls_partial",
    "KC.C35_gender",
    "KC.C35_geo",
    "KC.C35_key",
    "KC.C35_sound",
    "KC.C35_timeZone",
    "KC.C35_secrecy",
    "KC.C35_address",
    "KC.C35_phone",
    "KC.C35_picture",
    "KC.C35_picture_equal_iff",
    "KC.C35_contact",
    "KC.C35_contact_partial",
    "KC.C35_picture_false",
    "KC.C35_customs_false",
    "KC.C35_stale_false"
   ],
   "note": "Proved for every part; for pictures and whole contacts the exact value read back is proved. False for undecodable embedded pictures, custom fields with ':' in the name, invalid URLs and stale picture data of the object read into. QDataStream's encoding of primitive types is trusted."
  },
  {
   "property": "C36",
   "status": "partial",
   "theorems": [
    "KC.C36_noComma_partial",
    "KC.C36_comma_partial",
    "KC.C36_comma_words_partial",
    "KC.C36_crash",
    "KC.C36_false",
    "KC.C36_lost_false",
    "KC.C36_given_false",
    "KC.C36_given_partial"
   ],
   "note": "Proved: without a comma every word goes to exactly one part, in order, for every configuration with TreatAsFamilyName; with a comma the exact split, including the words that are lost; the exact condition for undefined behaviour. False as stated: 'Jr., Ann' reads a list at -1, 'van der Berg, Jan' loses words, and without TreatAsFamilyName the last word is lost (witnesses). C36_given_partial gives the exact outcome without TreatAsFamilyName, so every configuration is characterised."
  },
  {
   "property": "C37",
   "status": "partial",
   "theorems": [
    "KC.C37_total",
    "KC.C37_escaped_partial",
    "KC.C37_roundtrip_partial",
    "KC.C37_backslashes_iff",
    "KC.C37_unnamed_partial",
    "KC.C37_false",
    "KC.C37_backslash_false",
    "KC.C37_case_false"
   ],
   "note": "Proved: parsing never reads past the end and terminates, for every text; the round trip for names in which every backslash is followed by a character other than a quote (quotes come back with a backslash) and addresses without quotes, backslash and '>', up to lower case. C37_backslashes_iff: for names with backslashes and without quotes this is exact, otherwise the address is not found. False as stated: witnesses C37_false, C37_backslash_false, C37_case_false."
  },
  {
   "property": "C38",
   "status": "proved",
   "theorems": [
    "KC.C38_line",
    "KC.C38_split"
   ],
   "note": "For every writable name, every value and line length; through the parser and for a single line."
  },
  {
   "property": "C39",
   "status": "partial",
   "theorems": [
    "KC.C39_split",
    "KC.C39_false",
    "KC.C39_partial"
   ],
   "note": "False of the code: URL values are decoded as base64, so no non-empty URL survives (proved for every URL); the name and the URL flag survive."
  },
  {
   "property": "C40",
   "status": "proved",
   "theorems": [
    "KC.C40_pieces",
    "KC.C40_terminates",
    "KC.C40_deterministic"
   ],
   "note": "Every state, every cut; with termination and determinism."
  },
  {
   "property": "C41",
   "status": "partial",
   "theorems": [
    "KC.C41_crlf_false",
    "KC.C41_comment_false",
    "KC.C41_first_comment_false",
    "KC.C41_lfcr_partial",
    "KC.C41_crlf_exact",
    "KC.C41_comment_partial"
   ],
   "note": "False for CR LF (an entry ends after each attribute), for comments after an empty line and in the first line; proved: comments after visible lines, LF CR line ends, and what CR LF line ends do exactly."
  },
  {
   "property": "C42",
   "status": "partial",
   "theorems": [
    "KC.C42_partial",
    "KC.C42_readable",
    "KC.C42_empty_false",
    "KC.C42_keyword_false"
   ],
   "note": "Any number of records; the first attribute must not be empty nor be called like a keyword, with witnesses that the code fails otherwise."
  },
  {
   "property": "C43",
   "status": "partial",
   "theorems": [
    "KC.C43_total",
    "KC.C43_partial",
    "KC.C43_fields_partial",
    "KC.C43_exact",
    "KC.C43_false"
   ],
   "note": "The claim is false of the code: a birth date read in one entry is kept for the next (C43_false). Proved: every text is read (C43_total); entries are read independently when no entry without the birth attributes it needs follows one with them (C43_partial); and for every document everything but the birthday of a contact depends on its own entry only (C43_fields_partial). C43_exact says what happens for every document: each entry is read as if all that earlier entries say about birth dates stood in front of its own attributes."
  },
  {
   "property": "C44",
   "status": "partial",
   "theorems": [
    "KC.C44_partial",
    "KC.C44_one_partial",
    "KC.C44_false",
    "KC.C44_list_false",
    "KC.C44_street_false",
    "KC.C44_cell_false",
    "KC.C44_country_false",
    "KC.C44_revision_false",
    "KC.C44_box_false"
   ],
   "note": "Proved for one contact and for lists of contacts that can be expressed (LdifReadable), with all supported fields. False as stated: unnamed contacts are not imported, birthdays leak to later contacts in a list, streets of three lines, home post office boxes, country codes and UTC revisions change, mobile numbers are doubled (witnesses C44_..._false)."
  },
  {
   "property": "C45",
   "status": "partial",
   "theorems": [
    "KC.C45_order",
    "KC.C45_members_partial",
    "KC.C45_false",
    "KC.C45_counts",
    "KC.C45_member_customs"
   ],
   "note": "False of the code for contact references differing only in their gid (witness): removing one removes the first that compares equal. Exact order and counts proved for every history."
  },
  {
   "property": "C46",
   "status": "partial",
   "theorems": [
    "KC.C46_group",
    "KC.C46_group_partial",
    "KC.C46_list",
    "KC.C46_list_partial",
    "KC.C46_customs_false",
    "KC.C46_unreadable_false",
    "KC.C46_nested_group",
    "KC.C46_nested_list"
   ],
   "note": "False of the code: custom fields of members are not written, and a group without a name (or a member address that is empty) is written but not read back (witnesses). Exact behaviour proved at the level of XML tokens; readable groups without custom fields come back exactly."
  },
  {
   "property": "C47",
   "status": "partial",
   "theorems": [
    "KC.C47_accepted_iff",
    "KC.C47_list_rejects",
    "KC.C47_list_document",
    "KC.C47_document_iff",
    "KC.C47_list_document_iff",
    "KC.C47_list_syntax",
    "KC.C47_reported_false",
    "KC.C47_syntax_false"
   ],
   "note": "Rejection is proved exactly (element trees, single groups and lists). False of the code: earlier groups of a rejected list have already been appended, and syntax errors after the end of a single group are not noticed (witnesses)."
  },
  {
   "property": "C48",
   "status": "partial",
   "theorems": [
    "KC.C48_lines",
    "KC.C48_fields_printed",
    "KC.C48_extended_printed",
    "KC.C48_country_printed",
    "KC.C48_country_lines",
    "KC.C48_postal_country",
    "KC.C48_absent_fields_partial",
    "KC.C48_absent_field_partial",
    "KC.C48_no_empty_line",
    "KC.C48_no_blank_line_partial",
    "KC.C48_unknown_country",
    "KC.C48_wrong_country_false",
    "KC.C48_separators",
    "KC.C48_business",
    "KC.C48_blank_line_false",
    "KC.C48_geo_extended_false"
   ],
   "note": "Refinement of the formatter to a line-by-line specification for every address, format and style; every printed field is in the text; absent fields and lines print nothing; no empty lines unless asked for. False as stated for unknown countries (own country or an empty line is printed) and for the extended address in geo queries (witnesses)."
  },
  {
   "property": "C49",
   "status": "proved",
   "theorems": [
    "KC.C49_print_parse",
    "KC.C49_parse_print",
    "KC.C49_canonical",
    "KC.C49_used_fields",
    "KC.C49_field_list"
   ],
   "note": "Exact: printing the parsed elements gives the string back iff it has no invalid placeholder; used fields are the mentioned ones for every string."
  },
  {
   "property": "C50",
   "status": "proved",
   "theorems": [
    "KC.C50_valid_in_range",
    "KC.C50_setter",
    "KC.C50_cleared",
    "KC.C50_equal_iff",
    "KC.C50_equality_equivalence",
    "KC.C50_made"
   ],
   "note": "Every sequence of setter calls, floats including infinities and NaN; exact description of equality. The constructor from two numbers: C50_made."
  },
  {
   "property": "C51",
   "status": "partial",
   "theorems": [
    "KC.C51_email_type_iff",
    "KC.C51_email_type_partial",
    "KC.C51_email_type_false",
    "KC.C51_url_type",
    "KC.C51_type_keeps_rest",
    "KC.C51_prefer_iff",
    "KC.C51_unprefer_iff",
    "KC.C51_preferred_partial",
    "KC.C51_preferred_false",
    "KC.C51_preferred_keeps_rest",
    "KC.C51_type_keeps_preference",
    "KC.C51_impp_preferred",
    "KC.C51_impp_is_preferred",
    "KC.C51_words",
    "KC.C51_is_preferred",
    "KC.C51_prefer_object"
   ],
   "note": "False of the code for email types in lower case, for PREF=2 addresses made preferred and for TYPE=pref addresses (witnesses). Exact conditions proved; URLs and IMPP without restriction. C51_words ties the words to the flags."
  },
  {
   "property": "C52",
   "status": "proved",
   "theorems": [
    "KC.C52_digits_and_plus",
    "KC.C52_ascii",
    "KC.C52_idempotent",
    "KC.C52_set_normalized"
   ],
   "note": "Every text and every digit classification of the Qt environment."
  },
  {
   "property": "C53",
   "status": "partial",
   "theorems": [
    "KC.C53_idempotent",
    "KC.C53_unknown",
    "KC.C53_known",
    "KC.C53_card_partial",
    "KC.C53_gadu_false",
    "KC.C53_gadu_modern",
    "KC.C53_adapt",
    "KC.C53_adapt_every",
    "KC.C53_adapt_twitter_false"
   ],
   "note": "Normalisation proved in full; whole exported cards for every service but Gadu-Gadu, for which the property is false (C53_gadu_false: imported with scheme 'gadu', no known service; a modern line gives 'gg'). Renaming the fields in finished vCards (adaptIMAttributes): exactly the old names of twelve services are replaced, in any text (C53_adapt, C53_adapt_every); Twitter, which the export of contacts renames, is left out (C53_adapt_twitter_false)."
  },
  {
   "property": "C54",
   "status": "proved",
   "theorems": [
    "KC.C54_empty_has_no_data",
    "KC.C54_stored_stays_nonempty",
    "KC.C54_iff"
   ],
   "note": "Every history of modifying calls."
  },
  {
   "property": "C55",
   "status": "partial",
   "theorems": [
    "KC.C55_no_content_without_begin_partial",
    "KC.C55_no_card_without_end_partial",
    "KC.C55_no_cards_without_begin_false"
   ],
   "note": "False of the code: a lone END:VCARD yields an empty card (witness). Proved: without BEGIN no card has content; without END no card at all."
  },
  {
   "property": "C56",
   "status": "proved",
   "theorems": [
    "KC.C56_no_card",
    "KC.C56_first",
    "KC.C56_first_of_all",
    "KC.C56_empty",
    "KC.C56_drag",
    "KC.C56_format",
    "KC.C56_drag_no_card",
    "KC.C56_drag_roundtrip",
    "KC.C56_put",
    "KC.C56_put_text",
    "KC.C56_text",
    "KC.C56_text_roundtrip",
    "KC.C56_stray_end"
   ],
   "note": "First contact, empty contact when there is none, drag data accepted exactly when it holds a contact; the end of a card that never began counts as one (C56_stray_end). C56_put, C56_put_text, C56_text, C56_text_roundtrip: the format that is written and the same for plain vCard text."
  },
  {
   "property": "C57",
   "status": "proved",
   "theorems": [
    "KC.C57_choice",
    "KC.C57_words",
    "KC.C57_empty"
   ],
   "note": "Choice, emptiness and words of the assembled name, for every contact."
  },
  {
   "property": "C58",
   "status": "partial",
   "theorems": [
    "KC.C58_exact",
    "KC.C58_soft_breaks_partial",
    "KC.C58_value_exact",
    "KC.C58_value_partial",
    "KC.C58_escapes_false",
    "KC.C58_leading_space_false"
   ],
   "note": "Every card around the value, every number of pieces, contents whose later pieces have no backslash, second piece not beginning with white space. Not true as stated: escapes are only removed in the first piece (C58_escapes_false) and a second piece beginning with a space is taken for a folded line (C58_leading_space_false). C58_exact and C58_value_exact say for all contents which bytes the pieces amount to."
  },
  {
   "property": "C59",
   "status": "partial",
   "theorems": [
    "KC.C59_plain_fields",
    "KC.C59_compared_fields",
    "KC.C59_birthday",
    "KC.C59_first_texts",
    "KC.C59_named_customs",
    "KC.C59_url_false",
    "KC.C59_object_overload_false",
    "KC.C59_object_overload_partial",
    "KC.C59_whole_lists",
    "KC.C59_emails",
    "KC.C59_additions"
   ],
   "note": "False of the code for setUrl and for the object overloads (setTitle(Title) etc.) on a non-empty list (witnesses). Proved for the other fields."
  },
  {
   "property": "C60",
   "status": "partial",
   "theorems": [
    "KC.C60_partial",
    "KC.C60_false"
   ],
   "note": "False of the code by one byte for continuation lines; exact bound proved."
  },
  {
   "property": "C61",
   "status": "partial",
   "theorems": [
    "KC.C61_partial",
    "KC.C61_false"
   ],
   "note": "False of the code for version lines; proved for documents of records after any history."
  },
  {
   "property": "C62",
   "status": "proved",
   "theorems": [
    "KC.C62_format_string",
    "KC.C62_default",
    "KC.C62_required_upper",
    "KC.C62_country",
    "KC.C62_script",
    "KC.C62_address",
    "KC.C62_script_class"
   ],
   "note": "Configuration, KCountry and script classes are arbitrary parameters."
  },
  {
   "property": "C63",
   "status": "partial",
   "theorems": [
    "KC.C63_no_drift_partial",
    "KC.C63_again_partial",
    "KC.C63_custom_key_false"
   ],
   "note": "Every contact in the class Readable of C24, every version and number of rounds, and every round can be repeated. Keys with a type of their own are excluded in version 4, for which the property is false: their type alternates between empty and MEDIATYPE (C63_custom_key_false)."
  },
  {
   "property": "C64",
   "status": "partial",
   "theorems": [
    "KC.C64_picture",
    "KC.C64_sound",
    "KC.C64_key",
    "KC.C64_sound_history",
    "KC.C64_reading_is_harmless",
    "KC.C64_same_export",
    "KC.C64_comparison_after_reading_false",
    "KC.C64_comparison_lost_false",
    "KC.C64_comparison_after_reading_partial"
   ],
   "note": "What is shown, exported and empty is proved for all histories of pictures, sounds and keys, and that readers do not matter. The comparison part is false: two witnesses show that looking at the images can make different pictures compare equal and equal ones different; the exact condition is proved."
  },
  {
   "property": "C65",
   "status": "proved",
   "theorems": [
    "KC.C65_order",
    "KC.C65_order_contacts",
    "KC.C65_unknown"
   ],
   "note": "C65_order (cards), C65_order_contacts (contacts), C65_unknown. Texts of one card with CR LF line ends; C08 and C09 carry this over to other line ends and to several cards. An example shows that the order within one name does matter."
  },
  {
   "property": "C66",
   "status": "partial",
   "theorems": [
    "KC.C66_phone",
    "KC.C66_phone_distinct",
    "KC.C66_address",
    "KC.C66_address_distinct",
    "KC.C66_address_object_false",
    "KC.C66_address_object_partial",
    "KC.C66_phone_words",
    "KC.C66_address_words",
    "KC.C66_phone_is",
    "KC.C66_url",
    "KC.C66_url_false"
   ],
   "note": "Phones (C66_phone, C66_phone_distinct) and address type sets (C66_address, C66_address_distinct) proved. False for the label of an address object: it leaves out \"preferred\" (C66_address_object_false); exactly what it shows is C66_address_object_partial. Web addresses: C66_url says exactly what is shown; two types are shown like none (C66_url_false)."
  },
  {
   "property": "C67",
   "status": "partial",
   "theorems": [
    "KC.C67_sorted",
    "KC.C67_exact",
    "KC.C67_order",
    "KC.C67_label",
    "KC.C67_lookup_false",
    "KC.C67_lookup_partial",
    "KC.C67_shipped",
    "KC.C67_user",
    "KC.C67_distinct",
    "KC.C67_shown",
    "KC.C67_icon_false"
   ],
   "note": "Order, content, labels and the shipped services proved (C67_sorted, C67_exact, C67_order, C67_label, C67_shipped, C67_user, C67_distinct). Looking up is false for files with two dots in their names (C67_lookup_false), true otherwise (C67_lookup_partial). Five shipped services have no icon (C67_icon_false)."
  },
  {
   "property": "C68",
   "status": "partial",
   "theorems": [
    "KC.C68_partial",
    "KC.C68_member_iff",
    "KC.C68_false",
    "KC.C68_references_false",
    "KC.C68_comma_false"
   ],
   "note": "FALSE as stated: a member with both a name and an e-mail address comes back with \" <address>\" as its address; a comma cuts a name; a group that has only references to contacts is not written; name, id and references of a group are lost. Proved: exactly what comes back (C68_partial) and when a member is unchanged (C68_member_iff)."
  },
  {
   "property": "C69",
   "status": "partial",
   "theorems": [
    "KC.C69_iff",
    "KC.C69_equivalence",
    "KC.C69_congruence",
    "KC.C69_false",
    "KC.C69_partial"
   ],
   "note": "FALSE in one point: the global id (gid) of references to contacts is not compared, so equal groups can differ (C69_false). Proved: exactly what is compared (C69_iff), equivalence, congruence, and that groups without global ids are equal exactly if they are the same (C69_partial)."
  },
  {
   "property": "C70",
   "status": "partial",
   "theorems": [
    "KC.C70_fields",
    "KC.C70_order",
    "KC.C70_swap",
    "KC.C70_last",
    "KC.C70_lists",
    "KC.C70_compared",
    "KC.C70_birthday",
    "KC.C70_birthday_false"
   ],
   "note": "C70_fields, C70_order, C70_swap hold of every history. The last value set is read for texts (C70_last), lists (C70_lists) and, as far as the library's comparisons tell values apart, time zones, places, sounds, pictures and time stamps (C70_compared). False for a date of birth set without its time while the contact has the same moment in another time zone as its day: the old day stays (C70_birthday_false; C70_birthday says exactly what is stored). Together with C25-C31 and C59 this gives the data of each field after any interleaving of calls."
  },
  {
   "property": "C71",
   "status": "proved",
   "theorems": [
    "KC.C71_distinct",
    "KC.C71_same_data"
   ],
   "note": "The mark whether a contact is empty is left out of the comparison: setUid with the text that was just made up as uid does not clear it."
  },
  {
   "property": "C72",
   "status": "partial",
   "theorems": [
    "KC.C72_insert",
    "KC.C72_remove_iff",
    "KC.C72_false",
    "KC.C72_langs_partial",
    "KC.C72_members",
    "KC.C72_relationships"
   ],
   "note": "False as stated: a language that setLangs lists twice in a row is still listed after removeLang (C72_false; C72_remove_iff is the exact condition). C72_langs_partial: proved for every history whose setLangs lists name no language twice. Members and relationships: proved."
  },
  {
   "property": "C73",
   "status": "partial",
   "theorems": [
    "KC.C73_partial",
    "KC.C73_date",
    "KC.C73_false",
    "KC.C73_truncated_false",
    "KC.C73_real",
    "KC.C73_real_ldif",
    "KC.C73_ldif_partial",
    "KC.C73_ldif_midnight",
    "KC.C73_ldif_zone_false",
    "KC.C73_ldif_seconds_false"
   ],
   "note": "C73_partial covers every listed form; C73_false and C73_truncated_false prove the gaps (fractions of a second, truncated dates). C73_date: a date alone. C73_real: whatever the text, only days of the calendar and times of day are read (C73_real_ldif: the same for LDIF). C73_ldif_partial: day and time of stamps in LDIF; the zone is lost there (C73_ldif_zone_false), and without seconds a western zone is read as seconds (C73_ldif_seconds_false)."
  },
  {
   "property": "C74",
   "status": "partial",
   "theorems": [
    "KC.C74_mentions",
    "KC.C74_shown_partial",
    "KC.C74_required",
    "KC.C74_once",
    "KC.C74_locality",
    "KC.C74_postal_code",
    "KC.C74_false"
   ],
   "note": "Holds for name, organization, street and extended address in every country and every style but geo queries (C74_mentions, C74_shown_partial); required fields always have a place in the format (C74_required) and no field has two (C74_once). The full claim is false (C74_false): the formats of six countries have no place for the locality (C74_locality, exact list), fifteen have none for the postal code (C74_postal_code, exact list), and many none for the post office box; those parts are dropped without notice."
  },
  {
   "property": "C75",
   "status": "partial",
   "theorems": [
    "KC.C75_partial",
    "KC.C75_false"
   ],
   "note": "C75_partial: for every document of proper records (dn not empty, object identifiers of digits and dots, attribute names that can be written). C75_false: a change record for the entry with the empty dn (the root of a directory) is misread."
  },
  {
   "property": "C76",
   "status": "proved",
   "theorems": [
    "KC.C76",
    "KC.C76_unnamed",
    "KC.C76_group",
    "KC.C76_given_false"
   ],
   "note": "The URL is compared under the assumption that valid URLs are not empty, and UUIDs are assumed distinct. An entry with a given name and e-mail address but neither common name nor surname gives no contact (C76_given_false)."
  },
  {
   "property": "C77",
   "status": "proved",
   "theorems": [
    "KC.C77_contact",
    "KC.C77_group",
    "KC.C77_contacts",
    "KC.C77_groups",
    "KC.C77",
    "KC.C77_empty_false"
   ],
   "note": "For a list of empty contacts the export reports success although nothing is written (C77_empty_false)."
  },
  {
   "property": "C78",
   "status": "proved",
   "theorems": [
    "KC.C78",
    "KC.C78_every",
    "KC.C78_first"
   ],
   "note": "C78 gives the result for every decomposition, C78_every that there is one for every text, C78_first that what follows a comma does not count. Characters are UTF-8 bytes, as in the code."
  },
  {
   "property": "C79",
   "status": "proved",
   "theorems": [
    "KC.C79"
   ],
   "note": "C79: every field of every contact read, by one equation per field (Spec.CardSays). Dates are stated up to the equality of QDateTime and a position up to the equality of Geo, because the setters keep the old value when the new one is equal. What a picture line means is left to parsePicture, which C22 and C64 describe. The properties of a card come grouped by name (C12); how they are read from the text is the subject of C09, C15 and C65."
  },
  {
   "property": "C80",
   "status": "partial",
   "theorems": [
    "KC.C80_names_partial",
    "KC.C80_names_v4",
    "KC.C80_once",
    "KC.C80_version",
    "KC.C80_n",
    "KC.C80_cards",
    "KC.C80_later_false",
    "KC.C80_fn_false"
   ],
   "note": "Names: `C80_names_partial` (all versions, with the list `laterNames` of exceptions; nothing missing for 4.0: `C80_names_v4`). `C80_later_false` and `C80_fn_false` show that the exceptions and the missing FN are real."
  },
  {
   "property": "C81",
   "status": "partial",
   "theorems": [
    "KC.C81_layout",
    "KC.C81_shows",
    "KC.C81_values",
    "KC.C81_items",
    "KC.C81_words",
    "KC.C81_same",
    "KC.C81_hidden",
    "KC.C81_phone",
    "KC.C81_phone_false",
    "KC.C81_breaks_false",
    "KC.C81_group_partial",
    "KC.C81_group_false"
   ],
   "note": "Proved: layout, every shown text on its line, same representation iff same shown content (texts without line breaks), nothing else has an influence. False of the code: PhoneNumber::toString drops its heading, id and type (the third statement assigns instead of appending), so a mobile and a fax number look the same; FieldGroup::toString chains two arg calls, so a name with %1 gets the value put into it (proved exact for names without a per cent sign); with line breaks in texts different contacts can look the same."
  },
  {
   "property": "C82",
   "status": "partial",
   "theorems": [
    "KC.C82_words",
    "KC.C82_split",
    "KC.C82_divided",
    "KC.C82_comma",
    "KC.C82_comma_blank",
    "KC.C82_comma_false",
    "KC.C82_local",
    "KC.C82_unused",
    "KC.C82_inclusion",
    "KC.C82_inclusion_false"
   ],
   "note": "Proved exactly for names without a comma and names with a comma directly followed by a word. False of the code: with a blank after the comma ('Berg, Ada') the given name stays empty and 'Ada' becomes the additional name (C82_comma_blank says exactly what happens), and a configured family name prefix with a capital letter is never found, because the word is looked up in lower case (C82_inclusion)."
  },
  {
   "property": "C83",
   "status": "partial",
   "theorems": [
    "KC.C83_lines_partial",
    "KC.C83_read_partial",
    "KC.C83_lines_false",
    "KC.C83_read_false"
   ],
   "note": "The values - everything after the colon of a line - can be anything. The claim is false for what is written in front of the colon: parameters, names of custom fields, labels of addresses (4.0), names of field groups are written unescaped (C83_lines_false, C83_read_false). The theorems hold when those texts have no line breaks (and for reading: no quotation marks, no mention of quoted-printable). Reading may be undefined for embedded pictures in 4.0 (C17)."
  },
  {
   "property": "C84",
   "status": "partial",
   "theorems": [
    "KC.C84_partial",
    "KC.C84_one_spelling",
    "KC.C84_parameters",
    "KC.C84_small",
    "KC.C84_order_false",
    "KC.C84_label_false",
    "KC.C84_own_false"
   ],
   "note": "The statement is false in general: lines are read in the order of the character codes of their names, so mixed spellings of names change the order of phone numbers (C84_order_false) or separate a label from its address (C84_label_false), and custom fields keep their spelling (C84_own_false). Proved for all respellings that keep the order of the names of properties about the same thing (C84_partial), in particular when each text spells every name in one way and properties with different names are about different things (C84_one_spelling), for any respelling of parameter names (C84_parameters) and for a card in capitals written in small letters (C84_small). Respelled properties have no group prefix and no parameters without '='."
  },
  {
   "property": "C85",
   "status": "proved",
   "theorems": [
    "KC.C85",
    "KC.C85_respelled",
    "KC.C85_unknown",
    "KC.C85_swapped"
   ],
   "note": "C85; what it means for single changes: C85_respelled, C85_unknown, C85_swapped. The same contact: but for the new ids of phone numbers and the way the time of revision is given (the moment is the same)."
  },
  {
   "property": "C86",
   "status": "proved",
   "theorems": [
    "KC.C86_vcard",
    "KC.C86_reread",
    "KC.C86_ldif"
   ],
   "note": "C86_vcard, C86_reread, C86_ldif."
  },
  {
   "property": "C87",
   "status": "partial",
   "theorems": [
    "KC.C87_declared",
    "KC.C87_last_partial",
    "KC.C87_others",
    "KC.C87_url",
    "KC.C87_url_false",
    "KC.C87_anniversary_false"
   ],
   "note": "False for url (C87_url_false: a second write is accepted and the first address stays shown; C87_url says exactly what happens) and for anniversaries outside the years 1 to 9999 (C87_anniversary_false); proved for every other value, with blog addresses that Qt reads back to themselves (C87_last_partial, hypothesis Kept)."
  },
  {
   "property": "C88",
   "status": "partial",
   "theorems": [
    "KC.C88_position",
    "KC.C88_coordinates_partial",
    "KC.C88_number_iff",
    "KC.C88_exponent_false",
    "KC.C88_search_partial",
    "KC.C88_nothing",
    "KC.C88_private"
   ],
   "note": "False for tiny coordinates: latitudes and longitudes that are not zero but (rounded) below 0.0001 degrees are written with an exponent, which geo: links (RFC 5870) do not allow (C88_exponent_false; C88_number_iff says exactly which). The search leaves out locality or postal code for the countries whose shipped format has none."
  },
  {
   "property": "C89",
   "status": "proved",
   "theorems": [
    "KC.C89_contacts",
    "KC.C89_contact",
    "KC.C89_content",
    "KC.C89_unchanged",
    "KC.C89_stable",
    "KC.C89_sample_read",
    "KC.C89_sample_readable",
    "KC.C89_sample_merged",
    "KC.C89_false"
   ],
   "note": "C89_contacts: any contacts; C89_contact, C89_content: one contact and its fields; C89_unchanged: exactly the unchanged texts; C89_stable: a second trip changes nothing; C89_false: the claim that every text survives is false of the code (witness: a path with \\n in it). The contact with the carried texts must be Carriable: the class of C24 without its conditions on backslashes at the end of components. For texts this only excludes a value that starts with a byte order mark; the conditions on parameters, dates and names of C24 stay."
  },
  {
   "property": "C90",
   "status": "partial",
   "theorems": [
    "KC.C90_content_partial",
    "KC.C90_again_partial",
    "KC.C90_order_partial",
    "KC.C90_kept_partial",
    "KC.C90_sample"
   ],
   "note": "For the contacts that each of the versions can carry (Readable, the class of C24). Keys with a type of their own may go through version 4.0 only as the last step (C63_custom_key_false shows what happens otherwise)."
  },
  {
   "property": "C91",
   "status": "partial",
   "theorems": [
    "KC.C91_text_partial",
    "KC.C91_rounds_partial",
    "KC.C91_settles",
    "KC.C91_custom_key_false",
    "KC.C91_settles_false"
   ],
   "note": "For the contacts a version can carry (Readable, the class of C24). Keys with a type of their own are excluded in version 4: C91_custom_key_false shows that the second text differs. C91_settles: in 3.0 and 4.0 contacts with any texts settle with the first import, the bytes are the same from the second export on; C91_settles_false: not when merged components end in a backslash again."
  },
  {
   "property": "C92",
   "status": "proved",
   "theorems": [
    "KC.C92",
    "KC.C92_any"
   ],
   "note": "For the contacts each version can carry (Readable, the class of C24). C92_any: contacts with any texts (Carries, the class of C89), versions 3.0 and 4.0; each is read as what its version carries of it."
  },
  {
   "property": "C93",
   "status": "proved",
   "theorems": [
    "KC.C93",
    "KC.C93_read",
    "KC.C93_any"
   ],
   "note": "Assumes that encoding an empty text gives no bytes (NothingFromNothing: Qt's encoders and KCodecs' quoted-printable). C93_read: for contacts a version can carry but for such entries. C93_any: with any texts, in 3.0 and 4.0."
  },
  {
   "property": "C94",
   "status": "proved",
   "theorems": [
    "KC.C94",
    "KC.C94_piece",
    "KC.C94_silent",
    "KC.C94_call"
   ],
   "note": "C94 (lines), C94_piece (bytes before and after are the same), C94_silent, C94_call (every call of the API). Spec: propertiesFor lists the properties of each field per version."
  },
  {
   "property": "C95",
   "status": "proved",
   "theorems": [
    "KC.C95_cards",
    "KC.C95",
    "KC.C95_every_cut",
    "KC.C95_soft_break_false",
    "KC.C95_one_line_false",
    "KC.C95_any"
   ],
   "note": "C95_any: contacts with any texts (Carries, the class of C89), versions 3.0 and 4.0. C95_soft_break_false: for texts from elsewhere with a quoted-printable soft line break the claim fails, reading a text cut within the line after the break never ends. C95_one_line_false: a text of one line is read twice, hence the side condition of C95_cards."
  },
  {
   "property": "C96",
   "status": "proved",
   "theorems": [
    "KC.C96",
    "KC.C96_exported",
    "KC.C96_contacts",
    "KC.C96_folded_false"
   ],
   "note": "C96: any text; C96_exported, C96_contacts: exported lists; C96_folded_false: why the hypothesis on the next character is needed."
  },
  {
   "property": "C97",
   "status": "proved",
   "theorems": [
    "KC.C97",
    "KC.C97_field",
    "KC.C97_silent",
    "KC.C97_call",
    "KC.C97_call_silent"
   ],
   "note": "C97 (any set of attributes), C97_field, C97_silent (nothing else is given away), C97_call, C97_call_silent. A contact that was never given content is not exported at all, therefore the hypothesis that both have content."
  },
  {
   "property": "C98",
   "status": "partial",
   "theorems": [
    "KC.C98_distinct",
    "KC.C98_partial",
    "KC.C98_export_partial",
    "KC.C98_custom_key_false",
    "KC.C98_fields"
   ],
   "note": "C98_distinct and C98_fields: every Readable contact. C98_partial (the if-and-only-if) excludes keys with a type of their own in version 4.0, where the claim is false: the type's name is written but not read (C98_custom_key_false)."
  },
  {
   "property": "C99",
   "status": "proved",
   "theorems": [
    "KC.C99_any",
    "KC.C99",
    "KC.C99_contacts",
    "KC.C99_glued",
    "KC.C99_glued_before",
    "KC.C99_mixed_false"
   ],
   "note": "C99 (any texts), C99_contacts (exported files), C99_any (exported files of contacts with any texts, versions 3.0 and 4.0), C99_glued and C99_glued_before (no line end at the joint), C99_mixed_false (there the next card is mixed with the broken one). Hypothesis: no quoted-printable soft line break in the broken text (there reading need not end, see C07 and C95)."
  },
  {
   "property": "C100",
   "status": "proved",
   "theorems": [
    "KC.C100",
    "KC.C100_contacts",
    "KC.C100_empty_line",
    "KC.C100_marker_false"
   ],
   "note": "C100, C100_contacts, C100_empty_line. C100_marker_false: a folded end marker is not seen, so the hypothesis that markers are not folded is needed. Soft line breaks are the subject of C58."
  },
  {
   "property": "C101",
   "status": "proved",
   "theorems": [
    "KC.C101",
    "KC.C101_birthday",
    "KC.C101_cut",
    "KC.C101_glued_false",
    "KC.C101_birthday_false"
   ],
   "note": "C101 up to birthdays, C101_birthday with them if the entries state them, C101_cut for texts cut off anywhere; C101_birthday_false and C101_glued_false show that the two restrictions (birth values of earlier entries leak; without an empty line the next entry becomes part of the one before) are in the code."
  },
  {
   "property": "C102",
   "status": "proved",
   "theorems": [
    "KC.C102",
    "KC.C102_change_false"
   ],
   "note": "C102 holds although the parser's items differ (C41_comment_false, C41_first_comment_false); C102_change_false: for change records a comment does change the import (an entry to be deleted is imported)."
  },
  {
   "property": "C103",
   "status": "proved",
   "theorems": [
    "KC.C103",
    "KC.C103_import",
    "KC.C103_empty_false",
    "KC.C103_crlf_false"
   ],
   "note": "C103 (items), C103_import (contacts and groups). C103_empty_false and C103_crlf_false show that the restrictions are needed: behind an empty line, or with CR LF line ends, a fold followed by # is no comment."
  },
  {
   "property": "C104",
   "status": "partial",
   "theorems": [
    "KC.C104",
    "KC.C104_import",
    "KC.C104_folded",
    "KC.C104_space",
    "KC.C104_space_false"
   ],
   "note": "Proved for values as they are, in base64 and left out, white space before the colon, folding and empty lines (C104, C104_import, C104_folded), with exactly one space after the colon. False otherwise: without a space the value loses its first character, with two it begins with a space (C104_space, C104_space_false)."
  },
  {
   "property": "C105",
   "status": "partial",
   "theorems": [
    "KC.C105_partial",
    "KC.C105_values",
    "KC.C105_quoted_list_false"
   ],
   "note": "Proved for all spellings except a list in which a value with its own quotes is followed by a comma and another value (TYPE=\"a\",\"b\"): after the closing quote the scanner takes no comma, so what follows up to the next ; or : is lost (C105_quoted_list_false)."
  },
  {
   "property": "C106",
   "status": "partial",
   "theorems": [
    "KC.C106_partial",
    "KC.C106_text",
    "KC.C106_kept_false"
   ],
   "note": "For the properties of which the contact keeps only the text (textProperties). C106_text: the text read is right for every property; but email addresses, phone numbers, titles and other entries keep the parameters of their line, among them ENCODING and CHARSET, so the contact is another one (C106_kept_false). Texts without a backslash and not beginning with U+FEFF (C01, C11); a quoted-printable value on several lines is C58."
  },
  {
   "property": "C107",
   "status": "partial",
   "theorems": [
    "KC.C107_partial",
    "KC.C107_lookup",
    "KC.C107_nick_false",
    "KC.C107_department_false"
   ],
   "note": "False as stated for a nick name in version 2.1 (C107_nick_false) and for a department without organization in every version (C107_department_false); C107_partial covers all other contacts that the format can carry, C107_lookup the lookups by type."
  },
  {
   "property": "C108",
   "status": "partial",
   "theorems": [
    "KC.C108_partial",
    "KC.C108_ids_false"
   ],
   "note": "False as stated: phone numbers, addresses and keys get new ids when they are read and ids are compared, so no contact with one of them ever compares equal with what is read back (C108_ids_false). C108_partial says exactly (iff, both orders) which contacts compare equal, for contacts whose pictures and sounds are written as they are kept (MediaAsKept)."
  },
  {
   "property": "C109",
   "status": "partial",
   "theorems": [
    "KC.C109_partial",
    "KC.C109_picture_false",
    "KC.C109_url_false"
   ],
   "note": "False as stated for embedded pictures whose file is not what Qt makes of its image, because the stream carries the decoded image (C109_picture_false), and for web addresses that are not valid (C109_url_false). C109_partial covers all contacts without those and without ':' in the name of a custom field (StreamSafe)."
  },
  {
   "property": "C110",
   "status": "partial",
   "theorems": [
    "KC.C110_partial",
    "KC.C110_same_partial",
    "KC.C110_stamp_false",
    "KC.C110_list_false",
    "KC.C110_street_false"
   ],
   "note": "Missing: contacts LDIF cannot express (see C44) and an import at the very moment of a change that is written differently. False as the plain claim without the time of import (C110_stamp_false), for birthdays behind each other (C110_list_false) and streets of three lines (C110_street_false)."
  },
  {
   "property": "C111",
   "status": "proved",
   "theorems": [
    "KC.C111",
    "KC.C111_content",
    "KC.C111_book",
    "KC.C111_preferred_false",
    "KC.C111_title_false"
   ],
   "note": "C111 (whole contact: `Contact.restored`), C111_content (field by field), C111_book (many contacts). The conditions of `CallFits` on more than the argument itself are needed: C111_preferred_false, C111_title_false."
  },
  {
   "property": "C112",
   "status": "proved",
   "theorems": [
    "KC.C112",
    "KC.C112_text",
    "KC.C112_uid_false",
    "KC.C112_service_false"
   ],
   "note": "CardFits is a condition on each property (and on labels and preferred e-mails). C112_uid_false and C112_service_false show two things that are lost without it."
  },
  {
   "property": "C113",
   "status": "proved",
   "theorems": [
    "KC.C113",
    "KC.C113_text",
    "KC.C113_ldif",
    "KC.C113_uid_false",
    "KC.C113_department_false",
    "KC.C113_year_false"
   ],
   "note": "RecordFits lists, attribute by attribute, what a vCard can carry (no empty uid, title or e-mail address, texts as in C01 and C24, years of birth up to 9999). Of these a condition that is not met really loses something: C113_uid_false, C113_year_false; a department without an organization does not come back (C113_department_false; `Contact.restored` says so in C113, and C113_ldif excludes it). Entries are those of C43: none leaves parts of a birth date to a later one."
  },
  {
   "property": "C114",
   "status": "proved",
   "theorems": [
    "KC.C114",
    "KC.C114_absent",
    "KC.C114_added"
   ],
   "note": "One card per text; several cards in a text are C79 and C99. The spec table `readFrom` names the properties of every field. `Good` is the well-formedness of C65 (no soft line break at the end of a property, no marker lines)."
  },
  {
   "property": "C115",
   "status": "proved",
   "theorems": [
    "KC.C115",
    "KC.C115_text",
    "KC.C115_added",
    "KC.C115_restored"
   ],
   "note": "C115: any edit of the list of properties; C115_text: the text of every carriable contact is such a list (unless a line that mentions quoted-printable ends in '='); C115_added: properties inserted at any line end not followed by a continuation; C115_restored: compared with the contact that was exported. Cases where the edited text leads the library out of its defined behaviour are left out (the theorems speak of texts that are read)."
  },
  {
   "property": "C116",
   "status": "proved",
   "theorems": [
    "KC.C116",
    "KC.C116_absent",
    "KC.C116_added"
   ],
   "note": "C116: two entries; C116_absent: fields without attributes; C116_added: one more attribute. Ids of phone numbers (made up on import) and the way a time of revision is given do not count (SameImported)."
  },
  {
   "property": "C117",
   "status": "proved",
   "theorems": [
    "KC.C117",
    "KC.C117_edited"
   ],
   "note": "C117 (any edited entry), C117_edited (some lines replaced by others). For contacts LDIF can express (LdifReadable, the class of C44)."
  },
  {
   "property": "C118",
   "status": "proved",
   "theorems": [
    "KC.C118",
    "KC.C118_group"
   ],
   "note": "At the level of XML tokens; that a cut file ends in a syntax error is Qt's reader and is the hypothesis wellFormed = false."
  },
  {
   "property": "C119",
   "status": "proved",
   "theorems": [
    "KC.C119",
    "KC.C119_accepted",
    "KC.C119_untouched",
    "KC.C119_cut",
    "KC.C119_list",
    "KC.C119_unchanged_false"
   ],
   "note": "That a failed call leaves the group unchanged is false (C119_unchanged_false): identifier, name and members are set as they are read."
  },
  {
   "property": "C120",
   "status": "proved",
   "theorems": [
    "KC.C120",
    "KC.C120_after",
    "KC.C120_members",
    "KC.C120_same_kind_false"
   ],
   "note": "At the level of XML tokens. The order of members of the same kind does matter (C120_same_kind_false), as it is the order in the group."
  },
  {
   "property": "C121",
   "status": "partial",
   "theorems": [
    "KC.C121",
    "KC.C121_fields",
    "KC.C121_gid_partial",
    "KC.C121_gid_false"
   ],
   "note": "FALSE in one point: the copy constructor of the private object does not copy the global id, so a setter called on a member whose object is shared (for example with the object that was appended) loses it (C121_gid_false). Proved: everything else, and exactly when the global id is kept (C121_gid_partial)."
  },
  {
   "property": "C122",
   "status": "proved",
   "theorems": [
    "KC.C122",
    "KC.C122_domestic",
    "KC.C122_hidden",
    "KC.C122_given_false"
   ],
   "note": "C122 (every style), C122_domestic, C122_hidden. In the other styles it does matter whether the country is given (C122_given_false)."
  },
  {
   "property": "C123",
   "status": "proved",
   "theorems": [
    "KC.C123",
    "KC.C123_file",
    "KC.C123_own",
    "KC.C123_type",
    "KC.C123_own_false"
   ],
   "note": "C123, C123_file (several contacts), C123_own, C123_type; the exception in version 4.0 is real (C123_own_false)."
  }
 ]
}