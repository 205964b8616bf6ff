{
"C01": {
"status": "partial",
"note": "False of the code as stated (backslash followed by n, N or r is damaged; witness C01_escape_roundtrip_false). Exact behaviour for every value and the exact set of surviving values are proved."
},
"C02": {
"status": "partial",
"note": "False of the code for components ending in a backslash (witness); proved as an if-and-only-if, and C02_split_join_exact gives the components found for any components."
},
"C03": {
"status": "proved",
"note": "Both folding modes, every line without LF."
},
"C04": {
"status": "partial",
"note": "Proved for text mode (75 bytes). In byte mode continuation lines have 76 bytes: witness, bound 76 proved."
},
"C05": {
"status": "partial",
"note": "Proved for characters below U+10000; 4-byte characters can be torn: witness. C05_torn_iff: a character is torn exactly when one above U+FFFF starts at column 72 of a line."
},
"C06": {
"status": "proved",
"note": "Whole texts of any number of cards with any number of lines: name, group, parameters, text, binary data, quoted-printable and charset values (for codecs that restore what they encode). LineOK (Spec/Writable) says which lines can be written; it excludes lines the format has no way to represent."
},
"C07": {
"status": "partial",
"note": "False of the code: a text ending inside a quoted-printable soft line break is read for ever (witness, no fuel suffices). Proved: termination with a linear bound for every text whose last two terminated lines do not end in '=' and for every text without soft breaks."
},
"C08": {
"status": "proved",
"note": "Every LF text, equal result for every number of loop rounds."
},
"C09": {
"status": "proved",
"note": "Any list of complete texts, including junk, any case, soft line breaks and blank lines; complete = the end marker is not swallowed by a soft break. Also for texts written from cards."
},
"C10": {
"status": "proved",
"note": "Byte level for every byte string; noise tolerance of the decoder."
},
"C100": {
"status": "proved",
"note": "C100, C100_contacts, C100_empty_line. C100_marker_false: a folded end marker is not seen, so the hypothesis that markers are not folded is needed. Soft line breaks are the subject of C58."
},
"C101": {
"status": "proved",
"note": "C101 up to birthdays, C101_birthday with them if the entries state them, C101_cut for texts cut off anywhere; C101_birthday_false and C101_glued_false show that the two restrictions (birth values of earlier entries leak; without an empty line the next entry becomes part of the one before) are in the code."
},
"C102": {
"status": "proved",
"note": "C102 holds although the parser's items differ (C41_comment_false, C41_first_comment_false); C102_change_false: for change records a comment does change the import (an entry to be deleted is imported)."
},
"C103": {
"status": "proved",
"note": "C103 (items), C103_import (contacts and groups). C103_empty_false and C103_crlf_false show that the restrictions are needed: behind an empty line, or with CR LF line ends, a fold followed by # is no comment."
},
"C104": {
"status": "partial",
"note": "Proved for values as they are, in base64 and left out, white space before the colon, folding and empty lines (C104, C104_import, C104_folded), with exactly one space after the colon. False otherwise: without a space the value loses its first character, with two it begins with a space (C104_space, C104_space_false)."
},
"C105": {
"status": "partial",
"note": "Proved for all spellings except a list in which a value with its own quotes is followed by a comma and another value (TYPE=\"a\",\"b\"): after the closing quote the scanner takes no comma, so what follows up to the next ; or : is lost (C105_quoted_list_false)."
},
"C106": {
"status": "partial",
"note": "For the properties of which the contact keeps only the text (textProperties). C106_text: the text read is right for every property; but email addresses, phone numbers, titles and other entries keep the parameters of their line, among them ENCODING and CHARSET, so the contact is another one (C106_kept_false). Texts without a backslash and not beginning with U+FEFF (C01, C11); a quoted-printable value on several lines is C58."
},
"C107": {
"status": "partial",
"note": "False as stated for a nick name in version 2.1 (C107_nick_false) and for a department without organization in every version (C107_department_false); C107_partial covers all other contacts that the format can carry, C107_lookup the lookups by type."
},
"C108": {
"status": "partial",
"note": "False as stated: phone numbers, addresses and keys get new ids when they are read and ids are compared, so no contact with one of them ever compares equal with what is read back (C108_ids_false). C108_partial says exactly (iff, both orders) which contacts compare equal, for contacts whose pictures and sounds are written as they are kept (MediaAsKept)."
},
"C109": {
"status": "partial",
"note": "False as stated for embedded pictures whose file is not what Qt makes of its image, because the stream carries the decoded image (C109_picture_false), and for web addresses that are not valid (C109_url_false). C109_partial covers all contacts without those and without ':' in the name of a custom field (StreamSafe)."
},
"C11": {
"status": "partial",
"note": "Proved for every well-formed text not starting with U+FEFF; the decoder drops a leading U+FEFF: witness."
},
"C110": {
"status": "partial",
"note": "Missing: contacts LDIF cannot express (see C44) and an import at the very moment of a change that is written differently. False as the plain claim without the time of import (C110_stamp_false), for birthdays behind each other (C110_list_false) and streets of three lines (C110_street_false)."
},
"C111": {
"status": "proved",
"note": "C111 (whole contact: `Contact.restored`), C111_content (field by field), C111_book (many contacts). The conditions of `CallFits` on more than the argument itself are needed: C111_preferred_false, C111_title_false."
},
"C112": {
"status": "proved",
"note": "CardFits is a condition on each property (and on labels and preferred e-mails). C112_uid_false and C112_service_false show two things that are lost without it."
},
"C113": {
"status": "proved",
"note": "RecordFits lists, attribute by attribute, what a vCard can carry (no empty uid, title or e-mail address, texts as in C01 and C24, years of birth up to 9999). Of these a condition that is not met really loses something: C113_uid_false, C113_year_false; a department without an organization does not come back (C113_department_false; `Contact.restored` says so in C113, and C113_ldif excludes it). Entries are those of C43: none leaves parts of a birth date to a later one."
},
"C114": {
"status": "proved",
"note": "One card per text; several cards in a text are C79 and C99. The spec table `readFrom` names the properties of every field. `Good` is the well-formedness of C65 (no soft line break at the end of a property, no marker lines)."
},
"C115": {
"status": "proved",
"note": "C115: any edit of the list of properties; C115_text: the text of every carriable contact is such a list (unless a line that mentions quoted-printable ends in '='); C115_added: properties inserted at any line end not followed by a continuation; C115_restored: compared with the contact that was exported. Cases where the edited text leads the library out of its defined behaviour are left out (the theorems speak of texts that are read)."
},
"C116": {
"status": "proved",
"note": "C116: two entries; C116_absent: fields without attributes; C116_added: one more attribute. Ids of phone numbers (made up on import) and the way a time of revision is given do not count (SameImported)."
},
"C117": {
"status": "proved",
"note": "C117 (any edited entry), C117_edited (some lines replaced by others). For contacts LDIF can express (LdifReadable, the class of C44)."
},
"C118": {
"status": "proved",
"note": "At the level of XML tokens; that a cut file ends in a syntax error is Qt's reader and is the hypothesis wellFormed = false."
},
"C119": {
"status": "proved",
"note": "That a failed call leaves the group unchanged is false (C119_unchanged_false): identifier, name and members are set as they are read."
},
"C12": {
"status": "proved",
"note": "For every history of additions: lookup, first value, names ascending and independent of the order of additions."
},
"C120": {
"status": "proved",
"note": "At the level of XML tokens. The order of members of the same kind does matter (C120_same_kind_false), as it is the order in the group."
},
"C121": {
"status": "partial",
"note": "FALSE in one point: the copy constructor of the private object does not copy the global id, so a setter called on a member whose object is shared (for example with the object that was appended) loses it (C121_gid_false). Proved: everything else, and exactly when the global id is kept (C121_gid_partial)."
},
"C122": {
"status": "proved",
"note": "C122 (every style), C122_domestic, C122_hidden. In the other styles it does matter whether the country is given (C122_given_false)."
},
"C123": {
"status": "proved",
"note": "C123, C123_file (several contacts), C123_own, C123_type; the exception in version 4.0 is real (C123_own_false)."
},
"C13": {
"status": "proved",
"note": "For every history of added lines."
},
"C14": {
"status": "proved",
"note": "For every history of lines. A line whose value is empty is not written (C14_empty_line_omitted). The setter of the version, which nothing in the library calls, stores the number in the wrong place (C14_set_version_false)."
},
"C15": {
"status": "proved",
"note": "Text of dates, times and zones (C15_datetime, C15_date); birthday, revision, death date (version 4) and anniversary in whole cards (C15_card, C15_anniversary) for contacts a version can carry. Counterexamples outside the range (milliseconds, seconds of an offset, other years, death date before version 4) are stated as _false theorems."
},
"C16": {
"status": "partial",
"note": "False for offsets of 100 hours and more (C16_false). C16_value is exact (iff) for the text of every integer offset; C16_card_partial is the whole-card form."
},
"C17": {
"status": "partial",
"note": "False for a gender of more than one code unit and for ';' (C17_false). C17_value is exact (iff) for every gender and comment; C17_card_partial is the whole-card form."
},
"C18": {
"status": "partial",
"note": "False for no flags (read as Undefined) and for Undefined together with others (C18_false). C18_flags is exact (iff) over all sets of the 15 flags in every version, in whole cards."
},
"C19": {
"status": "proved",
"note": "All 2^7 sets in every version, in whole cards."
},
"C20": {
"status": "partial",
"note": "False for components ending in a backslash or with a backslash before n, N or r, and for addresses without components (witnesses). C20_merged (all versions) and C20_texts (3.0 and 4.0, any texts) give what is read; C20_iff says exactly for which names and addresses the components come back in 3.0 and 4.0; C20_partial: components that can be carried come back."
},
"C21": {
"status": "partial",
"note": "False for names with a dot, for names of other programs and for the spouse's name in version 4 (witnesses). Proved in whole cards for the names described by CustomOK."
},
"C22": {
"status": "partial",
"note": "False for embedded data in version 2.1, for the type (and with unusual type names the data) of embedded pictures in version 4, for sounds in version 4 (witnesses). Proved for the rest in whole cards. 'Never reads outside the value' is false; C22_reads_outside says exactly (iff) for which files."
},
"C23": {
"status": "proved",
"note": "Whole cards of version 3.0, and exact reading of every class text."
},
"C24": {
"status": "proved",
"note": "C24_contacts: any number of contacts in the class Readable, each version; the result is the contact described by Contact.restored, field by field. C24_content: the fields named in the property. C24Limits.lean: contacts outside the class that come back different. C24_merged: the same with components that end in backslashes and addresses for which nothing is written, and what becomes of them."
},
"C25": {
"status": "proved",
"note": "Every list of addresses built from any history of operations."
},
"C26": {
"status": "partial",
"note": "False of the code: of two adjacent equal addresses only one is removed (witness). Exact condition for an address to survive a removal proved; removal complete when no address occurs twice."
},
"C27": {
"status": "proved",
"note": "Every history of insertions and removals, refined by a finite map from ids."
},
"C28": {
"status": "proved",
"note": "Every history of insertions and removals."
},
"C29": {
"status": "proved",
"note": "Every history of insertions and removals."
},
"C30": {
"status": "proved",
"note": "Every history of insertions and removals."
},
"C31": {
"status": "partial",
"note": "False of the code: app 'a-b' name 'c' and app 'a' name 'b-c' share one entry, and names with ':' or '-' are not restored from customs() (witnesses). Exact behaviour proved."
},
"C32": {
"status": "proved",
"note": "Every list of entries and every requested set of flags."
},
"C33": {
"status": "partial",
"note": "False of the code: the copy constructors of contact, address, phone number, IM address, group reference and picture drop fields on detach (witness each: C33_*_false). Proved: every other object is unchanged by any history, the field set has its new value, and objects whose copy constructor is complete behave as values."
},
"C34": {
"status": "partial",
"note": "False of the code: not reflexive (empty embedded picture), not symmetric and not data-preserving (repeated list entries), not transitive (file content and decoded pictures). Proved: on contacts without repeated entries and with readable pictures comparison is exactly having the same data, hence an equivalence."
},
"C35": {
"status": "partial",
"note": "Proved for every part; for pictures and whole contacts the exact value read back is proved. False for undecodable embedded pictures, custom fields with ':' in the name, invalid URLs and stale picture data of the object read into. QDataStream's encoding of primitive types is trusted."
},
"C36": {
"status": "partial",
"note": "Proved: without a comma every word goes to exactly one part, in order, for every configuration with TreatAsFamilyName; with a comma the exact split, including the words that are lost; the exact condition for undefined behaviour. False as stated: 'Jr., Ann' reads a list at -1, 'van der Berg, Jan' loses words, and without TreatAsFamilyName the last word is lost (witnesses). C36_given_partial gives the exact outcome without TreatAsFamilyName, so every configuration is characterised."
},
"C37": {
"status": "partial",
"note": "Proved: parsing never reads past the end and terminates, for every text; the round trip for names in which every backslash is followed by a character other than a quote (quotes come back with a backslash) and addresses without quotes, backslash and '>', up to lower case. C37_backslashes_iff: for names with backslashes and without quotes this is exact, otherwise the address is not found. False as stated: witnesses C37_false, C37_backslash_false, C37_case_false."
},
"C38": {
"status": "proved",
"note": "For every writable name, every value and line length; through the parser and for a single line."
},
"C39": {
"status": "partial",
"note": "False of the code: URL values are decoded as base64, so no non-empty URL survives (proved for every URL); the name and the URL flag survive."
},
"C40": {
"status": "proved",
"note": "Every state, every cut; with termination and determinism."
},
"C41": {
"status": "partial",
"note": "False for CR LF (an entry ends after each attribute), for comments after an empty line and in the first line; proved: comments after visible lines, LF CR line ends, and what CR LF line ends do exactly."
},
"C42": {
"status": "partial",
"note": "Any number of records; the first attribute must not be empty nor be called like a keyword, with witnesses that the code fails otherwise."
},
"C43": {
"status": "partial",
"note": "The claim is false of the code: a birth date read in one entry is kept for the next (C43_false). Proved: every text is read (C43_total); entries are read independently when no entry without the birth attributes it needs follows one with them (C43_partial); and for every document everything but the birthday of a contact depends on its own entry only (C43_fields_partial). C43_exact says what happens for every document: each entry is read as if all that earlier entries say about birth dates stood in front of its own attributes."
},
"C44": {
"status": "partial",
"note": "Proved for one contact and for lists of contacts that can be expressed (LdifReadable), with all supported fields. False as stated: unnamed contacts are not imported, birthdays leak to later contacts in a list, streets of three lines, home post office boxes, country codes and UTC revisions change, mobile numbers are doubled (witnesses C44_..._false)."
},
"C45": {
"status": "partial",
"note": "False of the code for contact references differing only in their gid (witness): removing one removes the first that compares equal. Exact order and counts proved for every history."
},
"C46": {
"status": "partial",
"note": "False of the code: custom fields of members are not written, and a group without a name (or a member address that is empty) is written but not read back (witnesses). Exact behaviour proved at the level of XML tokens; readable groups without custom fields come back exactly."
},
"C47": {
"status": "partial",
"note": "Rejection is proved exactly (element trees, single groups and lists). False of the code: earlier groups of a rejected list have already been appended, and syntax errors after the end of a single group are not noticed (witnesses)."
},
"C48": {
"status": "partial",
"note": "Refinement of the formatter to a line-by-line specification for every address, format and style; every printed field is in the text; absent fields and lines print nothing; no empty lines unless asked for. False as stated for unknown countries (own country or an empty line is printed) and for the extended address in geo queries (witnesses)."
},
"C49": {
"status": "proved",
"note": "Exact: printing the parsed elements gives the string back iff it has no invalid placeholder; used fields are the mentioned ones for every string."
},
"C50": {
"status": "proved",
"note": "Every sequence of setter calls, floats including infinities and NaN; exact description of equality. The constructor from two numbers: C50_made."
},
"C51": {
"status": "partial",
"note": "False of the code for email types in lower case, for PREF=2 addresses made preferred and for TYPE=pref addresses (witnesses). Exact conditions proved; URLs and IMPP without restriction. C51_words ties the words to the flags."
},
"C52": {
"status": "proved",
"note": "Every text and every digit classification of the Qt environment."
},
"C53": {
"status": "partial",
"note": "Normalisation proved in full; whole exported cards for every service but Gadu-Gadu, for which the property is false (C53_gadu_false: imported with scheme 'gadu', no known service; a modern line gives 'gg'). Renaming the fields in finished vCards (adaptIMAttributes): exactly the old names of twelve services are replaced, in any text (C53_adapt, C53_adapt_every); Twitter, which the export of contacts renames, is left out (C53_adapt_twitter_false)."
},
"C54": {
"status": "proved",
"note": "Every history of modifying calls."
},
"C55": {
"status": "partial",
"note": "False of the code: a lone END:VCARD yields an empty card (witness). Proved: without BEGIN no card has content; without END no card at all."
},
"C56": {
"status": "proved",
"note": "First contact, empty contact when there is none, drag data accepted exactly when it holds a contact; the end of a card that never began counts as one (C56_stray_end). C56_put, C56_put_text, C56_text, C56_text_roundtrip: the format that is written and the same for plain vCard text."
},
"C57": {
"status": "proved",
"note": "Choice, emptiness and words of the assembled name, for every contact."
},
"C58": {
"status": "partial",
"note": "Every card around the value, every number of pieces, contents whose later pieces have no backslash, second piece not beginning with white space. Not true as stated: escapes are only removed in the first piece (C58_escapes_false) and a second piece beginning with a space is taken for a folded line (C58_leading_space_false). C58_exact and C58_value_exact say for all contents which bytes the pieces amount to."
},
"C59": {
"status": "partial",
"note": "False of the code for setUrl and for the object overloads (setTitle(Title) etc.) on a non-empty list (witnesses). Proved for the other fields."
},
"C60": {
"status": "partial",
"note": "False of the code by one byte for continuation lines; exact bound proved."
},
"C61": {
"status": "partial",
"note": "False of the code for version lines; proved for documents of records after any history."
},
"C62": {
"status": "proved",
"note": "Configuration, KCountry and script classes are arbitrary parameters."
},
"C63": {
"status": "partial",
"note": "Every contact in the class Readable of C24, every version and number of rounds, and every round can be repeated. Keys with a type of their own are excluded in version 4, for which the property is false: their type alternates between empty and MEDIATYPE (C63_custom_key_false)."
},
"C64": {
"status": "partial",
"note": "What is shown, exported and empty is proved for all histories of pictures, sounds and keys, and that readers do not matter. The comparison part is false: two witnesses show that looking at the images can make different pictures compare equal and equal ones different; the exact condition is proved."
},
"C65": {
"status": "proved",
"note": "C65_order (cards), C65_order_contacts (contacts), C65_unknown. Texts of one card with CR LF line ends; C08 and C09 carry this over to other line ends and to several cards. An example shows that the order within one name does matter."
},
"C66": {
"status": "partial",
"note": "Phones (C66_phone, C66_phone_distinct) and address type sets (C66_address, C66_address_distinct) proved. False for the label of an address object: it leaves out \"preferred\" (C66_address_object_false); exactly what it shows is C66_address_object_partial. Web addresses: C66_url says exactly what is shown; two types are shown like none (C66_url_false)."
},
"C67": {
"status": "partial",
"note": "Order, content, labels and the shipped services proved (C67_sorted, C67_exact, C67_order, C67_label, C67_shipped, C67_user, C67_distinct). Looking up is false for files with two dots in their names (C67_lookup_false), true otherwise (C67_lookup_partial). Five shipped services have no icon (C67_icon_false)."
},
"C68": {
"status": "partial",
"note": "FALSE as stated: a member with both a name and an e-mail address comes back with \" <address>\" as its address; a comma cuts a name; a group that has only references to contacts is not written; name, id and references of a group are lost. Proved: exactly what comes back (C68_partial) and when a member is unchanged (C68_member_iff)."
},
"C69": {
"status": "partial",
"note": "FALSE in one point: the global id (gid) of references to contacts is not compared, so equal groups can differ (C69_false). Proved: exactly what is compared (C69_iff), equivalence, congruence, and that groups without global ids are equal exactly if they are the same (C69_partial)."
},
"C70": {
"status": "partial",
"note": "C70_fields, C70_order, C70_swap hold of every history. The last value set is read for texts (C70_last), lists (C70_lists) and, as far as the library's comparisons tell values apart, time zones, places, sounds, pictures and time stamps (C70_compared). False for a date of birth set without its time while the contact has the same moment in another time zone as its day: the old day stays (C70_birthday_false; C70_birthday says exactly what is stored). Together with C25-C31 and C59 this gives the data of each field after any interleaving of calls."
},
"C71": {
"status": "proved",
"note": "The mark whether a contact is empty is left out of the comparison: setUid with the text that was just made up as uid does not clear it."
},
"C72": {
"status": "partial",
"note": "False as stated: a language that setLangs lists twice in a row is still listed after removeLang (C72_false; C72_remove_iff is the exact condition). C72_langs_partial: proved for every history whose setLangs lists name no language twice. Members and relationships: proved."
},
"C73": {
"status": "partial",
"note": "C73_partial covers every listed form; C73_false and C73_truncated_false prove the gaps (fractions of a second, truncated dates). C73_date: a date alone. C73_real: whatever the text, only days of the calendar and times of day are read (C73_real_ldif: the same for LDIF). C73_ldif_partial: day and time of stamps in LDIF; the zone is lost there (C73_ldif_zone_false), and without seconds a western zone is read as seconds (C73_ldif_seconds_false)."
},
"C74": {
"status": "partial",
"note": "Holds for name, organization, street and extended address in every country and every style but geo queries (C74_mentions, C74_shown_partial); required fields always have a place in the format (C74_required) and no field has two (C74_once). The full claim is false (C74_false): the formats of six countries have no place for the locality (C74_locality, exact list), fifteen have none for the postal code (C74_postal_code, exact list), and many none for the post office box; those parts are dropped without notice."
},
"C75": {
"status": "partial",
"note": "C75_partial: for every document of proper records (dn not empty, object identifiers of digits and dots, attribute names that can be written). C75_false: a change record for the entry with the empty dn (the root of a directory) is misread."
},
"C76": {
"status": "proved",
"note": "The URL is compared under the assumption that valid URLs are not empty, and UUIDs are assumed distinct. An entry with a given name and e-mail address but neither common name nor surname gives no contact (C76_given_false)."
},
"C77": {
"status": "proved",
"note": "For a list of empty contacts the export reports success although nothing is written (C77_empty_false)."
},
"C78": {
"status": "proved",
"note": "C78 gives the result for every decomposition, C78_every that there is one for every text, C78_first that what follows a comma does not count. Characters are UTF-8 bytes, as in the code."
},
"C79": {
"status": "proved",
"note": "C79: every field of every contact read, by one equation per field (Spec.CardSays). Dates are stated up to the equality of QDateTime and a position up to the equality of Geo, because the setters keep the old value when the new one is equal. What a picture line means is left to parsePicture, which C22 and C64 describe. The properties of a card come grouped by name (C12); how they are read from the text is the subject of C09, C15 and C65."
},
"C80": {
"status": "partial",
"note": "Names: `C80_names_partial` (all versions, with the list `laterNames` of exceptions; nothing missing for 4.0: `C80_names_v4`). `C80_later_false` and `C80_fn_false` show that the exceptions and the missing FN are real."
},
"C81": {
"status": "partial",
"note": "Proved: layout, every shown text on its line, same representation iff same shown content (texts without line breaks), nothing else has an influence. False of the code: PhoneNumber::toString drops its heading, id and type (the third statement assigns instead of appending), so a mobile and a fax number look the same; FieldGroup::toString chains two arg calls, so a name with %1 gets the value put into it (proved exact for names without a per cent sign); with line breaks in texts different contacts can look the same."
},
"C82": {
"status": "partial",
"note": "Proved exactly for names without a comma and names with a comma directly followed by a word. False of the code: with a blank after the comma ('Berg, Ada') the given name stays empty and 'Ada' becomes the additional name (C82_comma_blank says exactly what happens), and a configured family name prefix with a capital letter is never found, because the word is looked up in lower case (C82_inclusion)."
},
"C83": {
"status": "partial",
"note": "The values - everything after the colon of a line - can be anything. The claim is false for what is written in front of the colon: parameters, names of custom fields, labels of addresses (4.0), names of field groups are written unescaped (C83_lines_false, C83_read_false). The theorems hold when those texts have no line breaks (and for reading: no quotation marks, no mention of quoted-printable). Reading may be undefined for embedded pictures in 4.0 (C17)."
},
"C84": {
"status": "partial",
"note": "The statement is false in general: lines are read in the order of the character codes of their names, so mixed spellings of names change the order of phone numbers (C84_order_false) or separate a label from its address (C84_label_false), and custom fields keep their spelling (C84_own_false). Proved for all respellings that keep the order of the names of properties about the same thing (C84_partial), in particular when each text spells every name in one way and properties with different names are about different things (C84_one_spelling), for any respelling of parameter names (C84_parameters) and for a card in capitals written in small letters (C84_small). Respelled properties have no group prefix and no parameters without '='."
},
"C85": {
"status": "proved",
"note": "C85; what it means for single changes: C85_respelled, C85_unknown, C85_swapped. The same contact: but for the new ids of phone numbers and the way the time of revision is given (the moment is the same)."
},
"C86": {
"status": "proved",
"note": "C86_vcard, C86_reread, C86_ldif."
},
"C87": {
"status": "partial",
"note": "False for url (C87_url_false: a second write is accepted and the first address stays shown; C87_url says exactly what happens) and for anniversaries outside the years 1 to 9999 (C87_anniversary_false); proved for every other value, with blog addresses that Qt reads back to themselves (C87_last_partial, hypothesis Kept)."
},
"C88": {
"status": "partial",
"note": "False for tiny coordinates: latitudes and longitudes that are not zero but (rounded) below 0.0001 degrees are written with an exponent, which geo: links (RFC 5870) do not allow (C88_exponent_false; C88_number_iff says exactly which). The search leaves out locality or postal code for the countries whose shipped format has none."
},
"C89": {
"status": "proved",
"note": "C89_contacts: any contacts; C89_contact, C89_content: one contact and its fields; C89_unchanged: exactly the unchanged texts; C89_stable: a second trip changes nothing; C89_false: the claim that every text survives is false of the code (witness: a path with \\n in it). The contact with the carried texts must be Carriable: the class of C24 without its conditions on backslashes at the end of components. For texts this only excludes a value that starts with a byte order mark; the conditions on parameters, dates and names of C24 stay."
},
"C90": {
"status": "partial",
"note": "For the contacts that each of the versions can carry (Readable, the class of C24). Keys with a type of their own may go through version 4.0 only as the last step (C63_custom_key_false shows what happens otherwise)."
},
"C91": {
"status": "partial",
"note": "For the contacts a version can carry (Readable, the class of C24). Keys with a type of their own are excluded in version 4: C91_custom_key_false shows that the second text differs. C91_settles: in 3.0 and 4.0 contacts with any texts settle with the first import, the bytes are the same from the second export on; C91_settles_false: not when merged components end in a backslash again."
},
"C92": {
"status": "proved",
"note": "For the contacts each version can carry (Readable, the class of C24). C92_any: contacts with any texts (Carries, the class of C89), versions 3.0 and 4.0; each is read as what its version carries of it."
},
"C93": {
"status": "proved",
"note": "Assumes that encoding an empty text gives no bytes (NothingFromNothing: Qt's encoders and KCodecs' quoted-printable). C93_read: for contacts a version can carry but for such entries. C93_any: with any texts, in 3.0 and 4.0."
},
"C94": {
"status": "proved",
"note": "C94 (lines), C94_piece (bytes before and after are the same), C94_silent, C94_call (every call of the API). Spec: propertiesFor lists the properties of each field per version."
},
"C95": {
"status": "proved",
"note": "C95_any: contacts with any texts (Carries, the class of C89), versions 3.0 and 4.0. C95_soft_break_false: for texts from elsewhere with a quoted-printable soft line break the claim fails, reading a text cut within the line after the break never ends. C95_one_line_false: a text of one line is read twice, hence the side condition of C95_cards."
},
"C96": {
"status": "proved",
"note": "C96: any text; C96_exported, C96_contacts: exported lists; C96_folded_false: why the hypothesis on the next character is needed."
},
"C97": {
"status": "proved",
"note": "C97 (any set of attributes), C97_field, C97_silent (nothing else is given away), C97_call, C97_call_silent. A contact that was never given content is not exported at all, therefore the hypothesis that both have content."
},
"C98": {
"status": "partial",
"note": "C98_distinct and C98_fields: every Readable contact. C98_partial (the if-and-only-if) excludes keys with a type of their own in version 4.0, where the claim is false: the type's name is written but not read (C98_custom_key_false)."
},
"C99": {
"status": "proved",
"note": "C99 (any texts), C99_contacts (exported files), C99_any (exported files of contacts with any texts, versions 3.0 and 4.0), C99_glued and C99_glued_before (no line end at the joint), C99_mixed_false (there the next card is mixed with the broken one). Hypothesis: no quoted-printable soft line break in the broken text (there reading need not end, see C07 and C95)."
}
}