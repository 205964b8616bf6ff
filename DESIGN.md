# Formal model of KDE/kcontacts in Lean 4: design

The source under study is /repo (C++/Qt). It was read as text only; nothing was built or run.
The model lives in `lean/Verif/`:

| directory | content |
|---|---|
| `Verif/Qt/` | the parts of Qt the code calls: byte arrays, UTF-16 strings, search and replace, base64, UTF-8 |
| `Verif/Model/` | the code of kcontacts, function by function, each definition citing file and lines |
| `Verif/Spec/` | short specifications, independent of the helpers of the model, used to state the properties |
| `Verif/Lemmas/` | helper lemmas and inductions |
| `Verif/Props/` | the property theorems `Cnn_…`, each with `example`s that meet its hypotheses |
| `Verif/Conformance/` | the data of the project's own tests, run on the model (tests of the model, not proofs; see below) |

Naming: `Cnn_…` proves (a part of) property Cnn. `…_false` proves with a witness that the property, as stated in English, is false
of the code. `…_partial` is what holds of the code instead; wherever possible it is an exact condition (if and only if).

## Trusted base

1. **Lean's kernel** (4.33.0). No axiom was added; there is no `sorry`, `admit`, `native_decide`, `bv_decide`, `implemented_by`,
   `unsafe` or `partial` definition. Every theorem depends on a subset of `propext`, `Classical.choice`, `Quot.sound`; the
   file `AXIOMS.md` lists the axioms of each theorem named in the manifest.
2. **The model of Qt** in `Verif/Qt` and in the parameter structures below: that it describes what Qt documents.
3. **The reading of the C++**: that each definition in `Verif/Model` agrees with the lines it cites. Simplifications are stated in
   the comment of the definition.

### Parameters: parts outside the repository, for which every theorem holds whatever they do

| structure | stands for |
|---|---|
| `QtEnv` | `QUrl::isValid`, `QUrl::scheme`, `QChar::isDigit` outside ASCII, decoding of images, the instant of a local time |
| `Codecs` | quoted-printable (KCodecs) and character set codecs |
| `ToolEnv` | `QtEnv` and `Codecs`, number formatting and reading of floats, `QUrl` construction and display, encoding of images, `QChar::isPunct` outside ASCII |
| `LdifEnv` | what the LDIF converter calls in Qt and in the country tables |
| `FormatEnv` | configuration file, country tables (KCountry), script class of a text, upper-casing |

Theorems that need a law of one of these (for instance "the codec restores what it encodes") have it as a hypothesis.

### What is trusted of Qt inside the model

* `QByteArray` is `List UInt8`; `QString` is `List UInt16` (UTF-16 code units, unpaired surrogates included). Null and empty
  strings are identified except where the code asks `isNull`.
* `toLower`/`toUpper` on QString are exact on Latin-1 letters and the identity on other code units.
* `QXmlStreamReader`/`Writer` are modelled on the level of tokens: the text form of XML is trusted.
* `QDataStream` is modelled on the level of written items (string, flag, number, bytes, image …): their byte form is trusted.
* `QSharedDataPointer` is modelled as a heap with reference counts and detach-on-write (`Model/Shared`).
* `QMultiMap`/`QMap` as sorted association lists with Qt's insertion order for equal keys.
* The mime database, regular expression matching (the pattern of the converter is written out as a function), translations (i18n)
  and the global configuration are trusted or parameters.
* C++ `char` is signed. Sizes do not overflow `int`.

### Representation choices

* In-place mutation becomes a function returning the new value. Loops over indices become recursion; loops that may not
  terminate take fuel and return `none` when it runs out, so that "terminates" is a provable or refutable statement.
* Undefined behaviour (access out of range, `last(n)` with negative `n`) is a distinct outcome (`none`), never a default value.
* Generated ids (`KRandom::randomString`, `QUuid`) are an arbitrary function of a counter; where distinctness matters it is a hypothesis.

## Which parts of the code are modelled

| source | model | not modelled |
|---|---|---|
| vcardparser/vcardparser.cpp | `Escape`, `SplitString`, `Fold`, `Parser` (reader and writer, complete) | the cache of shared strings (no observable effect), debug output |
| vcardparser/vcard.cpp, vcardline.cpp, parametermap_p.h | `VCard` (complete) | |
| vcardtool.cpp | `VCardTool`, `DateTime` (complete) | |
| addressee.cpp | `Contact`, `Setters`, `ContactEq`, `Shared`, `Stream`, `Names`, `ToText`, `Properties` (the `Q_PROPERTY` declarations of addressee.h) | field labels (`…Label()`, translated constants) |
| address.cpp, phonenumber.cpp, email.cpp, key.cpp, sound.cpp, picture.cpp, geo.cpp, timezone.cpp, gender.cpp, secrecy.cpp, impp.cpp, resourcelocatorurl.cpp, calendarurl.cpp, related.cpp, lang.cpp, title.cpp, role.cpp, org.cpp, note.cpp, nickname.cpp, clientpidmap.cpp, fieldgroup.cpp | `Values`, `Media`, `Stream`, `Shared`, `Labels` (type labels, service lists), `ToText`, `GeoLink` (`Address::geoUri`) | translated constants, `Impp::serviceIcon` |
| addresseehelper.cpp | `NameWords` (the word sets from built-in, translated and configured words), `Names` (parameter `NameHelper`) | the parsing of the configuration file (`NameConfig` holds its entries) |
| addressformat.cpp, addressformatparser.cpp, addressformatter.cpp | `AddressFormat`; the shipped file addressformatrc is `ShippedFormats` (generated by tools/gen_formats.py) | parsing of the configuration file (KConfig), the script of a single character (parameter) |
| contactgroup.cpp, contactgrouptool.cpp | `Group`, `GroupMembers`, `GroupXml` | XML text level |
| ldif.cpp, converter/ldifconverter.cpp | `Ldif`, `LdifConverter` | debug output |
| converter/vcardconverter.cpp, vcarddrag.cpp | `Converter` | mime type negotiation of Qt |
| improtocols/ | `ShippedServices` (names and icons of the shipped services) | translations of the names |
| qml/, namespace.cpp | | no logic |

## How the theorems were tested

Every round of `seeded/LOG.jsonl` edits one definition of the model in a scratch copy the way a realistic bug would, and rebuilds. If
everything still proves although an English claim is now false, the theorems are tightened and the entry says how.
A build stops at the first theorems that fail. Where these belong to a lemma that several claims share, the newer entries also name what failed next, with the
shared lemma left unproved in the scratch copy.

## How the model was compared with the code

The code could not be run here. The expected outputs in the project's own tests (autotests/) were recorded from the code, so the model was
run on the same inputs. `Verif/Conformance` holds these runs as `example`s evaluated by the kernel; the model agrees with every one of them:

* `Roundtrip`: testroundtrip.cpp and importexportvcardtest.cpp (whole vCards read and written again in versions 2.1, 3.0 and 4.0). Only
  vcard5.vcf, which holds a large picture, is left out of the build; it was compared outside with the interpreter and agrees.
* `Formats`: addressformattest.cpp, with the shipped addressformatrc.
* `Ldif`: ldifconvertertest.cpp.
* `Small`: datetimetest.cpp, and the tests of names, addresses of mail and custom fields in addresseetest.cpp. (The time of day of an invalid
  date, which one of these tests looks at, is not in the model.)

These are tests. They support item 3 of the trusted base (that the model is the code), and no property rests on them.
## Properties: what is modelled, how it is proved, what the code does

### C01 vCard text escaping is reversible (partial)

*Model and proof.* `addEscapes`/`removeEscapes` as the source's sequence of global replacements. The sequence is reduced to one left-to-right pass; the round trip is then an induction over the text.

*Result.* False of the code as stated (backslash followed by n, N or r is damaged; witness C01_escape_roundtrip_false). Exact behaviour for every value and the exact set of surviving values are proved.

*Theorems.* `C01_escape_exact`, `C01_escape_roundtrip_iff`, `C01_escape_roundtrip_partial`, `C01_escape_roundtrip_false`, `C01_escape_roundtrip_no_backslash_partial`, `C01_escaped_is_single_line`

### C02 Structured values keep their components (partial)

*Model and proof.* `splitString` with its in-place rewriting, on texts joined from escaped components; induction over the components. The result for any components is `merged` in Spec/Merge.

*Result.* False of the code for components ending in a backslash (witness); proved as an if-and-only-if, and C02_split_join_exact gives the components found for any components.

*Theorems.* `C02_split_join_partial`, `C02_split_join_exact`, `C02_split_join_iff`, `C02_split_join_false`, `C02_split_nonempty`, `C02_join_split_no_backslash`

### C03 Folding a long line never changes it (proved)

*Model and proof.* `fixLineSize` in both modes and the unfolding of `parseVCards`; induction over the rest of the line.

*Result.* Both folding modes, every line without LF.

*Theorems.* `C03_fold_shape`, `C03_fold_unfold`

### C04 Folded lines respect the width limit (partial)

*Model and proof.* Same functions; bound on every line produced, by the same induction.

*Result.* Proved for text mode (75 bytes). In byte mode continuation lines have 76 bytes: witness, bound 76 proved.

*Theorems.* `C04_width_text`, `C04_width_bytes_partial`, `C04_width_bytes_false`, `C04_lines_terminated`

### C05 Folding never tears a character apart (partial)

*Model and proof.* Multi-byte branch of `fixLineSize` on UTF-8 encodings of scalar values.

*Result.* Proved for characters below U+10000; 4-byte characters can be torn: witness. C05_torn_iff: a character is torn exactly when one above U+FFFF starts at column 72 of a line.

*Theorems.* `C05_no_torn_char_partial`, `C05_no_torn_char_false`, `C05_torn_iff`

### C06 A content line survives writing and reading (proved)

*Model and proof.* `parseLine`'s character loop as a fold over a state (`Lemmas/Reader`), the writer line by line (`Lemmas/LineForm`); induction over parameters, lines and cards.

*Result.* Whole texts of any number of cards with any number of lines: name, group, parameters, text, binary data, quoted-printable and charset values (for codecs that restore what they encode). LineOK (Spec/Writable) says which lines can be written; it excludes lines the format has no way to represent.

*Theorems.* `C06_cards_roundtrip`, `C06_line_roundtrip`

### C07 Reading a vCard always terminates (partial)

*Model and proof.* The outer loop of `parseVCards` with its index variables and fuel; invariant: the index grows in every round unless a soft break swallows the end.

*Result.* False of the code: a text ending inside a quoted-printable soft line break is read for ever (witness, no fuel suffices). Proved: termination with a linear bound for every text whose last two terminated lines do not end in '=' and for every text without soft breaks.

*Theorems.* `C07_terminates_partial`, `C07_terminates_without_soft_breaks_partial`, `C07_terminates_false`

### C08 Line-ending style does not matter for vCards (proved)

*Model and proof.* Reader loop on physical lines that differ only by the carriage return that is chopped; simulation for every number of rounds.

*Result.* Every LF text, equal result for every number of loop rounds.

*Theorems.* `C08_line_endings`

### C09 Concatenated vCard files are read as the concatenation (proved)

*Model and proof.* The reader loop is a fold over logical lines (`Lemmas/ReadJoin`); after a complete text the state is the initial state plus the emitted cards.

*Result.* Any list of complete texts, including junk, any case, soft line breaks and blank lines; complete = the end marker is not swallowed by a soft break. Also for texts written from cards.

*Theorems.* `C09_concatenation`, `C09_written_cards`

### C10 Binary data survives base64 (proved)

*Model and proof.* Base64 encoder and decoder of Qt; induction in steps of three bytes.

*Result.* Byte level for every byte string; noise tolerance of the decoder.

*Theorems.* `C10_base64_roundtrip`, `C10_base64_alphabet`, `C10_base64_ignores_noise`

### C11 Text survives the UTF-8 byte layer (partial)

*Model and proof.* UTF-16, code points, UTF-8; induction over scalar values, arithmetic on bit groups.

*Result.* Proved for every well-formed text not starting with U+FEFF; the decoder drops a leading U+FEFF: witness.

*Theorems.* `C11_toUtf8_is_utf8`, `C11_utf8_roundtrip_partial`, `C11_decode_roundtrip`, `C11_utf8_roundtrip_false`, `C11_toUtf8_injective`

### C12 Parameters behave like an ordered map of value sets (proved)

*Model and proof.* `ParameterMap` as sorted association list; refinement to a map from names to lists.

*Result.* For every history of additions: lookup, first value, names ascending and independent of the order of additions.

*Theorems.* `C12_lookup`, `C12_first_value`, `C12_names`, `C12_names_order_independent`

### C13 A card groups its lines by property name (proved)

*Model and proof.* `VCard` line map; refinement as in C12.

*Result.* For every history of added lines.

*Theorems.* `C13_lines`, `C13_first_line`, `C13_names`

### C14 VERSION is the first property written (proved)

*Model and proof.* Writer's order of identifiers for every history of `addLine`.

*Result.* For every history of lines. A line whose value is empty is not written (C14_empty_line_omitted). The setter of the version, which nothing in the library calls, stores the number in the wrong place (C14_set_version_false).

*Theorems.* `C14_order`, `C14_cards`, `C14_text_line_written`, `C14_empty_line_omitted`, `C14_version`, `C14_set_version_false`

### C15 Dates and times survive the vCard date format (proved)

*Model and proof.* Date and time formatter and reader with Qt's validity rules; digit arithmetic; lifted to cards by C24.

*Result.* Text of dates, times and zones (C15_datetime, C15_date); birthday, revision, death date (version 4) and anniversary in whole cards (C15_card, C15_anniversary) for contacts a version can carry. Counterexamples outside the range (milliseconds, seconds of an offset, other years, death date before version 4) are stated as _false theorems.

*Theorems.* `C15_datetime`, `C15_date`, `C15_none`, `C15_milliseconds_false`, `C15_offset_seconds_false`, `C15_year_false`, `C15_card`, `C15_anniversary`, `C15_death_v3_false`, `C15_anniversary_text_false`

### C16 Time zone offsets survive (partial)

*Model and proof.* `%c%02d:%02d` formatter and the reader; arithmetic for every integer offset.

*Result.* False for offsets of 100 hours and more (C16_false). C16_value is exact (iff) for the text of every integer offset; C16_card_partial is the whole-card form.

*Theorems.* `C16_value`, `C16_card_partial`, `C16_false`

### C17 Gender survives (partial)

*Model and proof.* Gender writer and reader of a line.

*Result.* False for a gender of more than one code unit and for ';' (C17_false). C17_value is exact (iff) for every gender and comment; C17_card_partial is the whole-card form.

*Theorems.* `C17_value`, `C17_written`, `C17_card_partial`, `C17_false`

### C18 Phone type flags survive (partial)

*Model and proof.* Flag tables as in the source; all sets of the 15 flags by kernel evaluation over the (complete) finite domain, lifted to whole cards.

*Result.* False for no flags (read as Undefined) and for Undefined together with others (C18_false). C18_flags is exact (iff) over all sets of the 15 flags in every version, in whole cards.

*Theorems.* `C18_card_partial`, `C18_flags`, `C18_false`, `C18_params_false`

### C19 Address type flags survive (proved)

*Model and proof.* As C18, for the 7 address flags.

*Result.* All 2^7 sets in every version, in whole cards.

*Theorems.* `C19_flags`

### C20 Names and addresses survive a vCard (partial)

*Model and proof.* Composition of C01, C02, C03, C06 for N and ADR lines in whole cards. Spec/Carriable says what becomes of components that end in a backslash.

*Result.* False for components ending in a backslash or with a backslash before n, N or r, and for addresses without components (witnesses). C20_merged (all versions) and C20_texts (3.0 and 4.0, any texts) give what is read; C20_iff says exactly for which names and addresses the components come back in 3.0 and 4.0; C20_partial: components that can be carried come back.

*Theorems.* `C20_partial`, `C20_merged`, `C20_texts`, `C20_iff`, `C20_false`, `C20_newline_false`, `C20_empty_address_false`

### C21 Custom fields survive a vCard (partial)

*Model and proof.* Composition for X- lines in whole cards, with the renaming tables.

*Result.* False for names with a dot, for names of other programs and for the spouse's name in version 4 (witnesses). Proved in whole cards for the names described by CustomOK.

*Theorems.* `C21_partial`, `C21_anniversary`, `C21_anniversary_other`, `C21_anniversary_date_false`, `C21_dot_false`, `C21_spouse_false`, `C21_renamed_false`, `C21_dash`

### C22 Keys, sounds and pictures survive a vCard (partial)

*Model and proof.* Writers and readers of KEY, SOUND, PHOTO, LOGO; undefined behaviour of the data URI reader as outcome `none`.

*Result.* False for embedded data in version 2.1, for the type (and with unusual type names the data) of embedded pictures in version 4, for sounds in version 4 (witnesses). Proved for the rest in whole cards. 'Never reads outside the value' is false; C22_reads_outside says exactly (iff) for which files.

*Theorems.* `C22_card_partial`, `C22_reads_outside`, `C22_reads_outside_false`, `C22_binary_2_1_false`, `C22_raw_2_1_false`, `C22_type_4_0_false`, `C22_data_4_0_false`, `C22_sound_4_0_false`

### C23 Confidentiality class survives (proved)

*Model and proof.* Finite classes and arbitrary texts.

*Result.* Whole cards of version 3.0, and exact reading of every class text.

*Theorems.* `C23_card`, `C23_text`

### C24 Whole-contact vCard round trip (proved)

*Model and proof.* Composition over the whole `createVCards`/`parseVCards` dispatch. `Spec/Readable` says which contacts a version can carry; `Contact.restored` is what is read back.

*Result.* C24_contacts: any number of contacts in the class Readable, each version; the result is the contact described by Contact.restored, field by field. C24_content: the fields named in the property. C24Limits.lean: contacts outside the class that come back different. C24_merged: the same with components that end in backslashes and addresses for which nothing is written, and what becomes of them.

*Theorems.* `C24_contacts`, `C24_contact`, `C24_content`, `C24_sample_readable`, `C24_sample_uid`, `C24_merged`, `C24_ending_carriable`, `C24_all_contacts_false`, `C24_empty_uid`, `C24_categories`, `C24_sort_string`, `C24_preferred_email`, `C24_same_email`, `C24_group_order`, `C24_group_address`, `C24_calendar_order`, `C24_title_2_1`, `C24_empty_parameter`, `C24_empty_organisation`, `C24_label`

### C25 Email list stays duplicate free, preferred first (proved)

*Model and proof.* Operation-by-operation model of the e-mail list; invariant over histories.

*Result.* Every list of addresses built from any history of operations.

*Theorems.* `C25_no_duplicates`, `C25_preferred_first`, `C25_added_is_stored`, `C25_others_keep_order`

### C26 Removing an email removes it (partial)

*Model and proof.* The index loop of `removeEmail`, which skips an element after a removal.

*Result.* False of the code: of two adjacent equal addresses only one is removed (witness). Exact condition for an address to survive a removal proved; removal complete when no address occurs twice.

*Theorems.* `C26_others_kept`, `C26_survives_iff`, `C26_removed_partial`, `C26_false`

### C27 Phone numbers behave like a map keyed by id (proved)

*Model and proof.* Insert, remove, find by id; refinement to a finite map; induction over histories.

*Result.* Every history of insertions and removals, refined by a finite map from ids.

*Theorems.* `C27_lookup`, `C27_listing`, `C27_others_untouched`

### C28 Addresses behave like a map keyed by id (proved)

*Model and proof.* As C27.

*Result.* Every history of insertions and removals.

*Theorems.* `C28_lookup`, `C28_listing`, `C28_others_untouched`, `C28_empty_iff_untouched`

### C29 Keys behave like a map keyed by id (proved)

*Model and proof.* As C27.

*Result.* Every history of insertions and removals.

*Theorems.* `C29_lookup`, `C29_listing`, `C29_others_untouched`, `C29_removed`

### C30 Categories behave like an ordered set (proved)

*Model and proof.* Insert and remove; refinement to an ordered set.

*Result.* Every history of insertions and removals.

*Theorems.* `C30_present_iff`, `C30_no_duplicates`, `C30_order`

### C31 Custom fields behave like a map (partial)

*Model and proof.* Sorted list of (qualified name, value); refinement to a map from qualified names.

*Result.* False of the code: app 'a-b' name 'c' and app 'a' name 'b-c' share one entry, and names with ':' or '-' are not restored from customs() (witnesses). Exact behaviour proved.

*Theorems.* `C31_read_joined_name`, `C31_read_last_partial`, `C31_false`, `C31_listing_sorted`, `C31_restore_iff`, `C31_restore_false`

### C32 Lookup by type picks a matching entry (proved)

*Model and proof.* The lookup loops, with the preference flag and the empty default; keys by type and custom name.

*Result.* Every list of entries and every requested set of flags.

*Theorems.* `C32_phone`, `C32_address`, `C32_phone_first`, `C32_listings`, `C32_keys`

### C33 Copies are independent values (partial)

*Model and proof.* Heap of shared private objects with the copy constructors of the source; simulation of the value semantics.

*Result.* False of the code: the copy constructors of contact, address, phone number, IM address, group reference and picture drop fields on detach (witness each: C33_*_false). Proved: every other object is unchanged by any history, the field set has its new value, and objects whose copy constructor is complete behave as values.

*Theorems.* `C33_others_unchanged`, `C33_changed`, `C33_values_partial`, `C33_complete_copy`, `C33_contact_partial`, `C33_other_partial`, `C33_contact_false`, `C33_address_false`, `C33_phone_false`, `C33_impp_false`, `C33_reference_false`, `C33_picture_false`

### C34 Contact equality is an equivalence (partial)

*Model and proof.* `listEquals` and every `operator==`.

*Result.* False of the code: not reflexive (empty embedded picture), not symmetric and not data-preserving (repeated list entries), not transitive (file content and decoded pictures). Proved: on contacts without repeated entries and with readable pictures comparison is exactly having the same data, hence an equivalence.

*Theorems.* `C34_equal_iff_partial`, `C34_equivalence_partial`, `C34_reflexive_partial`, `C34_reflexive_false`, `C34_symmetric_false`, `C34_same_data_false`, `C34_transitive_false`

### C35 Binary stream round trip (partial)

*Model and proof.* Writers and readers of every class on stream items; induction over lists; maps re-sorted on reading.

*Result.* Proved for every part; for pictures and whole contacts the exact value read back is proved. False for undecodable embedded pictures, custom fields with ':' in the name, invalid URLs and stale picture data of the object read into. QDataStream's encoding of primitive types is trusted.

*Theorems.* `C35_parameters`, `C35_text`, `C35_email`, `C35_fieldGroup`, `C35_urls_partial`, `C35_gender`, `C35_geo`, `C35_key`, `C35_sound`, `C35_timeZone`, `C35_secrecy`, `C35_address`, `C35_phone`, `C35_picture`, `C35_picture_equal_iff`, `C35_contact`, `C35_contact_partial`, `C35_picture_false`, `C35_customs_false`, `C35_stale_false`

### C36 Splitting a full name is safe and loses no word (partial)

*Model and proof.* `setNameFromString` with out-of-range access as outcome; word-by-word accounting.

*Result.* Proved: without a comma every word goes to exactly one part, in order, for every configuration with TreatAsFamilyName; with a comma the exact split, including the words that are lost; the exact condition for undefined behaviour. False as stated: 'Jr., Ann' reads a list at -1, 'van der Berg, Jan' loses words, and without TreatAsFamilyName the last word is lost (witnesses). C36_given_partial gives the exact outcome without TreatAsFamilyName, so every configuration is characterised.

*Theorems.* `C36_noComma_partial`, `C36_comma_partial`, `C36_comma_words_partial`, `C36_crash`, `C36_false`, `C36_lost_false`, `C36_given_false`, `C36_given_partial`

### C37 A full email address can be taken apart again (partial)

*Model and proof.* `parseEmailAddress` as a state machine over the text, `fullEmail`; invariants for the position and the round trip by induction.

*Result.* Proved: parsing never reads past the end and terminates, for every text; the round trip for names in which every backslash is followed by a character other than a quote (quotes come back with a backslash) and addresses without quotes, backslash and '>', up to lower case. C37_backslashes_iff: for names with backslashes and without quotes this is exact, otherwise the address is not found. False as stated: witnesses C37_false, C37_backslash_false, C37_case_false.

*Theorems.* `C37_total`, `C37_escaped_partial`, `C37_roundtrip_partial`, `C37_backslashes_iff`, `C37_unnamed_partial`, `C37_false`, `C37_backslash_false`, `C37_case_false`

### C38 An LDIF line survives writing and reading (proved)

*Model and proof.* `assembleLine`, `splitLine`, `splitControl`, the character reader; induction over folded pieces.

*Result.* For every writable name, every value and line length; through the parser and for a single line.

*Theorems.* `C38_line`, `C38_split`

### C39 LDIF URL values survive (partial)

*Model and proof.* As C38 for URL values.

*Result.* False of the code: URL values are decoded as base64, so no non-empty URL survives (proved for every URL); the name and the URL flag survive.

*Theorems.* `C39_split`, `C39_false`, `C39_partial`

### C40 Feeding LDIF in pieces gives the same items (proved)

*Model and proof.* Character-level state machine `nextItem`; cuts commute with the steps.

*Result.* Every state, every cut; with termination and determinism.

*Theorems.* `C40_pieces`, `C40_terminates`, `C40_deterministic`

### C41 LDIF line ends and comments do not matter (partial)

*Model and proof.* Simulation between two documents differing in line ends or comments.

*Result.* False for CR LF (an entry ends after each attribute), for comments after an empty line and in the first line; proved: comments after visible lines, LF CR line ends, and what CR LF line ends do exactly.

*Theorems.* `C41_crlf_false`, `C41_comment_false`, `C41_first_comment_false`, `C41_lfcr_partial`, `C41_crlf_exact`, `C41_comment_partial`

### C42 An LDIF record is read back as written (partial)

*Model and proof.* Record writer against the item reader; induction over attributes and records.

*Result.* Any number of records; the first attribute must not be empty nor be called like a keyword, with witnesses that the code fails otherwise.

*Theorems.* `C42_partial`, `C42_readable`, `C42_empty_false`, `C42_keyword_false`

### C43 LDIF import keeps entries apart (partial)

*Model and proof.* The converter's main loop with the variables that outlive an entry.

*Result.* The claim is false of the code: a birth date read in one entry is kept for the next (C43_false). Proved: every text is read (C43_total); entries are read independently when no entry without the birth attributes it needs follows one with them (C43_partial); and for every document everything but the birthday of a contact depends on its own entry only (C43_fields_partial). C43_exact says what happens for every document: each entry is read as if all that earlier entries say about birth dates stood in front of its own attributes.

*Theorems.* `C43_total`, `C43_partial`, `C43_fields_partial`, `C43_exact`, `C43_false`

### C44 LDIF export and import preserve a contact (partial)

*Model and proof.* Exporter and importer attribute by attribute; `LdifReadable` describes the contacts that can be expressed.

*Result.* Proved for one contact and for lists of contacts that can be expressed (LdifReadable), with all supported fields. False as stated: unnamed contacts are not imported, birthdays leak to later contacts in a list, streets of three lines, home post office boxes, country codes and UTC revisions change, mobile numbers are doubled (witnesses C44_..._false).

*Theorems.* `C44_partial`, `C44_one_partial`, `C44_false`, `C44_list_false`, `C44_street_false`, `C44_cell_false`, `C44_country_false`, `C44_revision_false`, `C44_box_false`

### C45 Contact group membership bookkeeping (partial)

*Model and proof.* Lists of references, groups and data; induction over histories.

*Result.* False of the code for contact references differing only in their gid (witness): removing one removes the first that compares equal. Exact order and counts proved for every history.

*Theorems.* `C45_order`, `C45_members_partial`, `C45_false`, `C45_counts`, `C45_member_customs`

### C46 Contact group XML round trip (partial)

*Model and proof.* XML writer and reader on tokens; recursion over members.

*Result.* False of the code: custom fields of members are not written, and a group without a name (or a member address that is empty) is written but not read back (witnesses). Exact behaviour proved at the level of XML tokens; readable groups without custom fields come back exactly.

*Theorems.* `C46_group`, `C46_group_partial`, `C46_list`, `C46_list_partial`, `C46_customs_false`, `C46_unreadable_false`, `C46_nested_group`, `C46_nested_list`

### C47 Malformed contact group XML is rejected (partial)

*Model and proof.* Reader on arbitrary element trees; exact acceptance condition.

*Result.* Rejection is proved exactly (element trees, single groups and lists). False of the code: earlier groups of a rejected list have already been appended, and syntax errors after the end of a single group are not noticed (witnesses).

*Theorems.* `C47_accepted_iff`, `C47_list_rejects`, `C47_list_document`, `C47_document_iff`, `C47_list_document_iff`, `C47_list_syntax`, `C47_reported_false`, `C47_syntax_false`

### C48 Address formatting shows each present field once (partial)

*Model and proof.* Formatter's loop over elements with its separators; refinement to a line-by-line specification.

*Result.* Refinement of the formatter to a line-by-line specification for every address, format and style; every printed field is in the text; absent fields and lines print nothing; no empty lines unless asked for. False as stated for unknown countries (own country or an empty line is printed) and for the extended address in geo queries (witnesses).

*Theorems.* `C48_lines`, `C48_fields_printed`, `C48_extended_printed`, `C48_country_printed`, `C48_country_lines`, `C48_postal_country`, `C48_absent_fields_partial`, `C48_absent_field_partial`, `C48_no_empty_line`, `C48_no_blank_line_partial`, `C48_unknown_country`, `C48_wrong_country_false`, `C48_separators`, `C48_business`, `C48_blank_line_false`, `C48_geo_extended_false`

### C49 Address format strings are parsed faithfully (proved)

*Model and proof.* Parser of format strings; printing as inverse.

*Result.* Exact: printing the parsed elements gives the string back iff it has no invalid placeholder; used fields are the mentioned ones for every string.

*Theorems.* `C49_print_parse`, `C49_parse_print`, `C49_canonical`, `C49_used_fields`, `C49_field_list`

### C50 Geo positions are always in range or invalid (proved)

*Model and proof.* Setters and constructor with float comparisons including infinities and NaN; induction over histories.

*Result.* Every sequence of setter calls, floats including infinities and NaN; exact description of equality. The constructor from two numbers: C50_made.

*Theorems.* `C50_valid_in_range`, `C50_setter`, `C50_cleared`, `C50_equal_iff`, `C50_equality_equivalence`, `C50_made`

### C51 Email type and preference setters (partial)

*Model and proof.* Type and preference functions of e-mail, URL and IM addresses on parameter maps.

*Result.* False of the code for email types in lower case, for PREF=2 addresses made preferred and for TYPE=pref addresses (witnesses). Exact conditions proved; URLs and IMPP without restriction. C51_words ties the words to the flags.

*Theorems.* `C51_email_type_iff`, `C51_email_type_partial`, `C51_email_type_false`, `C51_url_type`, `C51_type_keeps_rest`, `C51_prefer_iff`, `C51_unprefer_iff`, `C51_preferred_partial`, `C51_preferred_false`, `C51_preferred_keeps_rest`, `C51_type_keeps_preference`, `C51_impp_preferred`, `C51_impp_is_preferred`, `C51_words`, `C51_is_preferred`, `C51_prefer_object`

### C52 Normalised phone numbers (proved)

*Model and proof.* The character loop of `normalizedNumber`.

*Result.* Every text and every digit classification of the Qt environment.

*Theorems.* `C52_digits_and_plus`, `C52_ascii`, `C52_idempotent`, `C52_set_normalized`

### C53 Legacy messaging fields keep their meaning (partial)

*Model and proof.* The table of legacy X- messaging fields in reader, writer and normalisation.

*Result.* Normalisation proved in full; whole exported cards for every service but Gadu-Gadu, for which the property is false (C53_gadu_false: imported with scheme 'gadu', no known service; a modern line gives 'gg'). Renaming the fields in finished vCards (adaptIMAttributes): exactly the old names of twelve services are replaced, in any text (C53_adapt, C53_adapt_every); Twitter, which the export of contacts renames, is left out (C53_adapt_twitter_false).

*Theorems.* `C53_idempotent`, `C53_unknown`, `C53_known`, `C53_card_partial`, `C53_gadu_false`, `C53_gadu_modern`, `C53_adapt`, `C53_adapt_every`, `C53_adapt_twitter_false`

### C54 A contact with data is not empty (proved)

*Model and proof.* All modifying calls as an inductive type (`Op`); induction over histories.

*Result.* Every history of modifying calls.

*Theorems.* `C54_empty_has_no_data`, `C54_stored_stays_nonempty`, `C54_iff`

### C55 Reading garbage never invents contacts (partial)

*Model and proof.* The reader fold; invariant on cards emitted.

*Result.* False of the code: a lone END:VCARD yields an empty card (witness). Proved: without BEGIN no card has content; without END no card at all.

*Theorems.* `C55_no_content_without_begin_partial`, `C55_no_card_without_end_partial`, `C55_no_cards_without_begin_false`

### C56 Converter selection of single cards (proved)

*Model and proof.* `VCardConverter::parseVCard(s)`, the drag functions.

*Result.* First contact, empty contact when there is none, drag data accepted exactly when it holds a contact; the end of a card that never began counts as one (C56_stray_end). C56_put, C56_put_text, C56_text, C56_text_roundtrip: the format that is written and the same for plain vCard text.

*Theorems.* `C56_no_card`, `C56_first`, `C56_first_of_all`, `C56_empty`, `C56_drag`, `C56_format`, `C56_drag_no_card`, `C56_drag_roundtrip`, `C56_put`, `C56_put_text`, `C56_text`, `C56_text_roundtrip`, `C56_stray_end`

### C57 Real name choice (proved)

*Model and proof.* `realName` and `assembledName`.

*Result.* Choice, emptiness and words of the assembled name, for every contact.

*Theorems.* `C57_choice`, `C57_words`, `C57_empty`

### C58 Quoted-printable values over several lines (partial)

*Model and proof.* Reader on a value cut by soft line breaks at any places; induction over the pieces.

*Result.* Every card around the value, every number of pieces, contents whose later pieces have no backslash, second piece not beginning with white space. Not true as stated: escapes are only removed in the first piece (C58_escapes_false) and a second piece beginning with a space is taken for a folded line (C58_leading_space_false). C58_exact and C58_value_exact say for all contents which bytes the pieces amount to.

*Theorems.* `C58_exact`, `C58_soft_breaks_partial`, `C58_value_exact`, `C58_value_partial`, `C58_escapes_false`, `C58_leading_space_false`

### C59 Setting a field changes that field only (partial)

*Model and proof.* Every setter of `Addressee`: value read afterwards and frame condition.

*Result.* False of the code for setUrl and for the object overloads (setTitle(Title) etc.) on a non-empty list (witnesses). Proved for the other fields.

*Theorems.* `C59_plain_fields`, `C59_compared_fields`, `C59_birthday`, `C59_first_texts`, `C59_named_customs`, `C59_url_false`, `C59_object_overload_false`, `C59_object_overload_partial`, `C59_whole_lists`, `C59_emails`, `C59_additions`

### C60 LDIF lines are folded at the line length (partial)

*Model and proof.* `assembleLine`'s folding; bound on each line.

*Result.* False of the code by one byte for continuation lines; exact bound proved.

*Theorems.* `C60_partial`, `C60_false`

### C61 A restarted LDIF parser reads like a new one (partial)

*Model and proof.* State of the parser after `startParsing`; simulation with a new parser.

*Result.* False of the code for version lines; proved for documents of records after any history.

*Theorems.* `C61_partial`, `C61_false`

### C62 Choice of address format (proved)

*Model and proof.* `AddressFormatRepository::formatForAddress` and friends over arbitrary configuration.

*Result.* Configuration, KCountry and script classes are arbitrary parameters.

*Theorems.* `C62_format_string`, `C62_default`, `C62_required_upper`, `C62_country`, `C62_script`, `C62_address`, `C62_script_class`

### C63 Repeated vCard round trips do not drift (partial)

*Model and proof.* Iteration of C24; `restored` is idempotent up to ids; field groups are sorted by the first round and stay so.

*Result.* Every contact in the class Readable of C24, every version and number of rounds, and every round can be repeated. Keys with a type of their own are excluded in version 4, for which the property is false: their type alternates between empty and MEDIATYPE (C63_custom_key_false).

*Theorems.* `C63_no_drift_partial`, `C63_again_partial`, `C63_custom_key_false`

### C64 Pictures, sounds and keys show what was set last (partial)

*Model and proof.* Objects with caching readers (`Model/Media`); invariant over histories, and simulation with the history without reads.

*Result.* What is shown, exported and empty is proved for all histories of pictures, sounds and keys, and that readers do not matter. The comparison part is false: two witnesses show that looking at the images can make different pictures compare equal and equal ones different; the exact condition is proved.

*Theorems.* `C64_picture`, `C64_sound`, `C64_key`, `C64_sound_history`, `C64_reading_is_harmless`, `C64_same_export`, `C64_comparison_after_reading_false`, `C64_comparison_lost_false`, `C64_comparison_after_reading_partial`

### C65 The order of different properties in a vCard and unknown properties do not matter (proved)

*Model and proof.* `parseVCards` of the parser on a text given as physical lines: fold over the lines gives the card of the parsed lines; a card is determined by its per-name lists (`C13_lines`, extensionality of sorted maps). For unknown names: the reading fold skips lines of the kind `other`, and filtering commutes with the reading order.

*Result.* C65_order (cards), C65_order_contacts (contacts), C65_unknown. Texts of one card with CR LF line ends; C08 and C09 carry this over to other line ends and to several cards. An example shows that the order within one name does matter.

*Theorems.* `C65_order`, `C65_order_contacts`, `C65_unknown`

### C66 Type labels name exactly the types that are set (partial)

*Model and proof.* The loops over the type lists with the translation as a parameter (`Labels`); the label is the join of a list of parts, from which every flag can be read off; joining non-empty parts without '/' is injective.

*Result.* Phones (C66_phone, C66_phone_distinct) and address type sets (C66_address, C66_address_distinct) proved. False for the label of an address object: it leaves out "preferred" (C66_address_object_false); exactly what it shows is C66_address_object_partial. Web addresses: C66_url says exactly what is shown; two types are shown like none (C66_url_false).

*Theorems.* `C66_phone`, `C66_phone_distinct`, `C66_address`, `C66_address_distinct`, `C66_address_object_false`, `C66_address_object_partial`, `C66_phone_words`, `C66_address_words`, `C66_phone_is`, `C66_url`, `C66_url_false`

### C67 The list of messaging services (partial)

*Model and proof.* `serviceTypes` and `serviceLabel` with directory listings and desktop file contents as parameters (`Labels`); sorting and removal of neighbours by induction. The shipped files are a table (`ShippedServices`) evaluated by the kernel; the files of the user are a list of any length.

*Result.* Order, content, labels and the shipped services proved (C67_sorted, C67_exact, C67_order, C67_label, C67_shipped, C67_user, C67_distinct). Looking up is false for files with two dots in their names (C67_lookup_false), true otherwise (C67_lookup_partial). Five shipped services have no icon (C67_icon_false).

*Theorems.* `C67_sorted`, `C67_exact`, `C67_order`, `C67_label`, `C67_lookup_false`, `C67_lookup_partial`, `C67_shipped`, `C67_user`, `C67_distinct`, `C67_shown`, `C67_icon_false`

### C68 Contact groups through LDIF (partial)

*Model and proof.* The text of a group is one LDIF entry of the entry machinery of C44; induction over the entries and the members. An exact condition says which members come back unchanged; witnesses show the loss of e-mail addresses, of names with commas and of groups without members of their own.

*Result.* FALSE as stated: a member with both a name and an e-mail address comes back with " <address>" as its address; a comma cuts a name; a group that has only references to contacts is not written; name, id and references of a group are lost. Proved: exactly what comes back (C68_partial) and when a member is unchanged (C68_member_iff).

*Theorems.* `C68_partial`, `C68_member_iff`, `C68_false`, `C68_references_false`, `C68_comma_false`

### C69 Comparison of contact groups (partial)

*Model and proof.* The comparison is shown to be equality of the groups without the global ids of references; equivalence and congruence under all modifying calls follow by induction over the history.

*Result.* FALSE in one point: the global id (gid) of references to contacts is not compared, so equal groups can differ (C69_false). Proved: exactly what is compared (C69_iff), equivalence, congruence, and that groups without global ids are equal exactly if they are the same (C69_partial).

*Theorems.* `C69_iff`, `C69_equivalence`, `C69_congruence`, `C69_false`, `C69_partial`

### C70 Calls about different fields of a contact do not interfere (partial)

*Model and proof.* Frame lemma (a call changes only its field and the mark whether the contact is empty) and locality lemma (what it does depends on that field only) by cases over all calls; induction over the history.

*Result.* C70_fields, C70_order, C70_swap hold of every history. The last value set is read for texts (C70_last), lists (C70_lists) and, as far as the library's comparisons tell values apart, time zones, places, sounds, pictures and time stamps (C70_compared). False for a date of birth set without its time while the contact has the same moment in another time zone as its day: the old day stays (C70_birthday_false; C70_birthday says exactly what is stored). Together with C25-C31 and C59 this gives the data of each field after any interleaving of calls.

*Theorems.* `C70_fields`, `C70_order`, `C70_swap`, `C70_last`, `C70_lists`, `C70_compared`, `C70_birthday`, `C70_birthday_false`

### C71 Ids made while a vCard is read (proved)

*Model and proof.* Two readings are run side by side: a relation between their states (same fields, lists equal up to ids with the same increasing numbers) is shown to be kept by every line; ids are numbered in the order of their creation, so they are distinct.

*Result.* The mark whether a contact is empty is left out of the comparison: setUid with the text that was just made up as uid does not clear it.

*Theorems.* `C71_distinct`, `C71_same_data`

### C72 Languages, members and relationships over a history of calls (partial)

*Model and proof.* Ghost specification: what the reversed history says about a language. Induction on the history with the invariant that no language is listed twice; exact condition for a language to survive its removal.

*Result.* False as stated: a language that setLangs lists twice in a row is still listed after removeLang (C72_false; C72_remove_iff is the exact condition). C72_langs_partial: proved for every history whose setLangs lists name no language twice. Members and relationships: proved.

*Theorems.* `C72_insert`, `C72_remove_iff`, `C72_false`, `C72_langs_partial`, `C72_members`, `C72_relationships`

### C73 Time stamps written by other programs name the same moment (partial)

*Model and proof.* A separate description of a stamp (date, form of time, form of zone) with its text and its meaning; the reader is proved to return the meaning for every valid stamp, by computing the positions of the separators; the two gaps are concrete counterexamples.

*Result.* C73_partial covers every listed form; C73_false and C73_truncated_false prove the gaps (fractions of a second, truncated dates). C73_date: a date alone. C73_real: whatever the text, only days of the calendar and times of day are read (C73_real_ldif: the same for LDIF). C73_ldif_partial: day and time of stamps in LDIF; the zone is lost there (C73_ldif_zone_false), and without seconds a western zone is read as seconds (C73_ldif_seconds_false).

*Theorems.* `C73_partial`, `C73_date`, `C73_false`, `C73_truncated_false`, `C73_real`, `C73_real_ldif`, `C73_ldif_partial`, `C73_ldif_midnight`, `C73_ldif_zone_false`, `C73_ldif_seconds_false`

### C74 With the shipped formats, a printed address shows its parts (partial)

*Model and proof.* The shipped configuration file is translated entry by entry (`Model/ShippedFormats`, generated by tools/gen_formats.py). The choice of the format is reduced to membership in the country's group, the finite table is then evaluated by the kernel, and the theorems of C48 turn 'mentioned in the format' into 'shown in the text' for all addresses.

*Result.* Holds for name, organization, street and extended address in every country and every style but geo queries (C74_mentions, C74_shown_partial); required fields always have a place in the format (C74_required) and no field has two (C74_once). The full claim is false (C74_false): the formats of six countries have no place for the locality (C74_locality, exact list), fifteen have none for the postal code (C74_postal_code, exact list), and many none for the post office box; those parts are dropped without notice.

*Theorems.* `C74_mentions`, `C74_shown_partial`, `C74_required`, `C74_once`, `C74_locality`, `C74_postal_code`, `C74_false`

### C75 LDIF change records are read as the changes they describe (partial)

*Model and proof.* A separate description of change records with their text and the items they stand for; each kind of line is run through processLine once, the items of a record follow by induction over its lists, the documents by induction over the records.

*Result.* C75_partial: for every document of proper records (dn not empty, object identifiers of digits and dots, attribute names that can be written). C75_false: a change record for the entry with the empty dn (the root of a directory) is misread.

*Theorems.* `C75_partial`, `C75_false`

### C76 Each attribute of an LDIF entry is imported into the field its name stands for (proved)

*Model and proof.* The import of the entry is a fold over its attributes; each part of the state is followed through the fold on its own, and the table of names is checked against the names listed in the specification.

*Result.* The URL is compared under the assumption that valid URLs are not empty, and UUIDs are assumed distinct. An entry with a given name and e-mail address but neither common name nor surname gives no contact (C76_given_false).

*Theorems.* `C76`, `C76_unnamed`, `C76_group`, `C76_given_false`

### C77 An LDIF export only adds to the text and says whether there was something to export (proved)

*Model and proof.* Each export is the old text with something appended that does not depend on it; induction over the list.

*Result.* For a list of empty contacts the export reports success although nothing is written (C77_empty_false).

*Theorems.* `C77_contact`, `C77_group`, `C77_contacts`, `C77_groups`, `C77`, `C77_empty_false`

### C78 The name and address found in a mail text (proved)

*Model and proof.* The parts of a text are given by inductive relations (Spec/MailText.lean) that know nothing of the parser's state; induction over them shows that the loop collects exactly the parts; a separate theorem shows that every byte sequence decomposes into such parts.

*Result.* C78 gives the result for every decomposition, C78_every that there is one for every text, C78_first that what follows a comma does not count. Characters are UTF-8 bytes, as in the code.

*Theorems.* `C78`, `C78_every`, `C78_first`

### C79 Each property of a vCard is read into the field its name stands for (proved)

*Model and proof.* A separate description of a contact by the properties of its card (Spec/CardEntry.lean), one equation per field. The reading is a fold over the properties; a frame lemma says which parts of the contact a property can change, so each field is followed through the fold on its own, with an invariant where ids or keys have to be distinct; the tables of names and types are compared with the ones of the specification.

*Result.* C79: every field of every contact read, by one equation per field (Spec.CardSays). Dates are stated up to the equality of QDateTime and a position up to the equality of Geo, because the setters keep the old value when the new one is equal. What a picture line means is left to parsePicture, which C22 and C64 describe. The properties of a card come grouped by name (C12); how they are read from the text is the subject of C09, C15 and C65.

*Theorems.* `C79`

### C80 A written card keeps to the properties of its vCard version (partial)

*Model and proof.* The lines of a contact are a concatenation of 39 sections, each with one name (`Named`) except addresses, calendar addresses, pictures, field groups and custom fields, whose names are bounded separately; the written lines are a permutation of them (by `C14_order`). The names of the standards are tables in Spec/Versions.lean.

*Result.* Names: `C80_names_partial` (all versions, with the list `laterNames` of exceptions; nothing missing for 4.0: `C80_names_v4`). `C80_later_false` and `C80_fn_false` show that the exceptions and the missing FN are real.

*Theorems.* `C80_names_partial`, `C80_names_v4`, `C80_once`, `C80_version`, `C80_n`, `C80_cards`, `C80_later_false`, `C80_fn_false`

### C81 The text representation of a contact shows its fields (partial)

*Model and proof.* QString::arg is modelled as the search for the lowest place marker and the replacement of all markers with that number. The representation is equal to a table of labels and values (layout theorem), and it can be read from the front: combinators for literals, lines, nested representations and lists show that what is shown and the rest of the text are determined. Two contacts with the same text are given where the claim fails.

*Result.* Proved: layout, every shown text on its line, same representation iff same shown content (texts without line breaks), nothing else has an influence. False of the code: PhoneNumber::toString drops its heading, id and type (the third statement assigns instead of appending), so a mobile and a fax number look the same; FieldGroup::toString chains two arg calls, so a name with %1 gets the value put into it (proved exact for names without a per cent sign); with line breaks in texts different contacts can look the same.

*Theorems.* `C81_layout`, `C81_shows`, `C81_values`, `C81_items`, `C81_words`, `C81_same`, `C81_hidden`, `C81_phone`, `C81_phone_false`, `C81_breaks_false`, `C81_group_partial`, `C81_group_false`

### C82 A full name is divided by the known and the configured words (partial)

*Model and proof.* The word sets are built from the configuration as in initSettings. The loops over the words are shown to take exactly the leading titles and the trailing suffixes, so the five parts are the five segments of the list of words; every list of words with a word that is not a suffix has such segments. That only words of the text matter follows because the loops look up nothing else.

*Result.* Proved exactly for names without a comma and names with a comma directly followed by a word. False of the code: with a blank after the comma ('Berg, Ada') the given name stays empty and 'Ada' becomes the additional name (C82_comma_blank says exactly what happens), and a configured family name prefix with a capital letter is never found, because the word is looked up in lower case (C82_inclusion).

*Theorems.* `C82_words`, `C82_split`, `C82_divided`, `C82_comma`, `C82_comma_blank`, `C82_comma_false`, `C82_local`, `C82_unused`, `C82_inclusion`, `C82_inclusion_false`

### C83 No text of a contact gets out of its line in an exported vCard (partial)

*Model and proof.* Specification: Spec/Contained.lean (headTexts: the texts of a contact written in front of a colon; Contained: these are on one line and field groups are not called BEGIN/END; entries: how many lines a property may have; textLines: the lines of a text). C83_lines_partial: the lines of the text are, per contact, BEGIN:VCARD, property lines, END:VCARD, and at most as many lines of each property as entries; values are unrestricted. C83_read_partial: reading ends and gives one contact for each. C83_lines_false, C83_read_false: parameters, custom names, address labels and group names get out.

*Result.* The values - everything after the colon of a line - can be anything. The claim is false for what is written in front of the colon: parameters, names of custom fields, labels of addresses (4.0), names of field groups are written unescaped (C83_lines_false, C83_read_false). The theorems hold when those texts have no line breaks (and for reading: no quotation marks, no mention of quoted-printable). Reading may be undefined for embedded pictures in 4.0 (C17).

*Theorems.* `C83_lines_partial`, `C83_read_partial`, `C83_lines_false`, `C83_read_false`

### C84 The letter case of the names in a vCard does not matter (partial)

*Model and proof.* Relation between the lines read from the two texts (same parameters, same value, same name up to case, or the same custom name), proved by following the scanner of a content line through name, parameter names and values; the reader of a line depends on related lines alike; the cards are sorted maps, and an order isomorphism of the names carries one into the other.Lines about different things commute: a line is a list of calls on fields of the contact (Lemmas/LineSwap), calls about different fields commute (C70), and two orders that agree on lines with a common field give the same contact.

*Result.* The statement is false in general: lines are read in the order of the character codes of their names, so mixed spellings of names change the order of phone numbers (C84_order_false) or separate a label from its address (C84_label_false), and custom fields keep their spelling (C84_own_false). Proved for all respellings that keep the order of the names of properties about the same thing (C84_partial), in particular when each text spells every name in one way and properties with different names are about different things (C84_one_spelling), for any respelling of parameter names (C84_parameters) and for a card in capitals written in small letters (C84_small). Respelled properties have no group prefix and no parameters without '='.

*Theorems.* `C84_partial`, `C84_one_spelling`, `C84_parameters`, `C84_small`, `C84_order_false`, `C84_label_false`, `C84_own_false`

### C85 The order of the attributes of an LDIF entry about different things, the letter case of their names and unknown attributes do not matter (proved)

*Model and proof.* Every part of the imported contact is a function of the attributes on one topic (C76); the parts determine the contact.

*Result.* C85; what it means for single changes: C85_respelled, C85_unknown, C85_swapped. The same contact: but for the new ids of phone numbers and the way the time of revision is given (the moment is the same).

*Theorems.* `C85`, `C85_respelled`, `C85_unknown`, `C85_swapped`

### C86 Ids made up by the library do not show in exports (proved)

*Model and proof.* contacts equal apart from ids (C71) have equal lines section by section; the LDIF loops over addresses and phone numbers choose the same entry apart from its id; C86_reread combines this with C71_same_data

*Result.* C86_vcard, C86_reread, C86_ldif.

*Theorems.* `C86_vcard`, `C86_reread`, `C86_ldif`

### C87 What a script writes to a property of a contact is what it reads back (partial)

*Model and proof.* Model/Properties.lean: each declared property with its READ and WRITE functions over the existing model of the setters. Spec/Properties.lean: lists of the writable and read-only names by type, and of the properties in which a value can be seen (Touches). C87_declared proves which reads and writes are accepted; C87_last_partial and C87_others by induction over the writes, using the frame theorem C70 (every call changes one field) and that every history leaves the custom fields sorted. C87_url gives exactly what the property url does.

*Result.* False for url (C87_url_false: a second write is accepted and the first address stays shown; C87_url says exactly what happens) and for anniversaries outside the years 1 to 9999 (C87_anniversary_false); proved for every other value, with blog addresses that Qt reads back to themselves (C87_last_partial, hypothesis Kept).

*Theorems.* `C87_declared`, `C87_last_partial`, `C87_others`, `C87_url`, `C87_url_false`, `C87_anniversary_false`

### C88 The map link of an address leads to its place (partial)

*Model and proof.* `QString::number(double)` is modelled exactly for the floats that are coordinates (six digits, rounding, exponent below 0.0001). The printed digits are shown to stand for the rounded number and the rounding to be off by at most half a unit of the sixth digit; the search text is the formatter's, with the theorems of C48 and C74.

*Result.* False for tiny coordinates: latitudes and longitudes that are not zero but (rounded) below 0.0001 degrees are written with an exponent, which geo: links (RFC 5870) do not allow (C88_exponent_false; C88_number_iff says exactly which). The search leaves out locality or postal code for the countries whose shipped format has none.

*Theorems.* `C88_position`, `C88_coordinates_partial`, `C88_number_iff`, `C88_exponent_false`, `C88_search_partial`, `C88_nothing`, `C88_private`

### C89 What a round trip makes of any text (proved)

*Model and proof.* `carried` in Spec/Carried says what becomes of a text, unit by unit, and of each field of a contact. Lemmas/CarriedText shows that the UTF-8 form of `carried s` is the form of s with the bytes behind backslashes replaced, and that joining parts with separators commutes with it; Lemmas/Carried shows for every section of the writer that the line written for the contact and the line written for the carried contact are read as the same line. With C24_merged for the carried contact this gives the whole result.

*Result.* C89_contacts: any contacts; C89_contact, C89_content: one contact and its fields; C89_unchanged: exactly the unchanged texts; C89_stable: a second trip changes nothing; C89_false: the claim that every text survives is false of the code (witness: a path with \n in it). The contact with the carried texts must be Carriable: the class of C24 without its conditions on backslashes at the end of components. For texts this only excludes a value that starts with a byte order mark; the conditions on parameters, dates and names of C24 stay.

*Theorems.* `C89_contacts`, `C89_contact`, `C89_content`, `C89_unchanged`, `C89_stable`, `C89_sample_read`, `C89_sample_readable`, `C89_sample_merged`, `C89_false`

### C90 A contact converted between vCard versions, any number of times, keeps exactly what all those versions can keep (partial)

*Model and proof.* The round trip theorem of C24 for one step; `Readable` is shown to be kept for every version by a round in any other (readable_passed); the result of one more step on `Contact.passed` is `Contact.passed` of the longer list (passed_step); induction over the list of versions.

*Result.* For the contacts that each of the versions can carry (Readable, the class of C24). Keys with a type of their own may go through version 4.0 only as the last step (C63_custom_key_false shows what happens otherwise).

*Theorems.* `C90_content_partial`, `C90_again_partial`, `C90_order_partial`, `C90_kept_partial`, `C90_sample`

### C91 Importing a file this library wrote and exporting it again gives the same bytes (partial)

*Model and proof.* The text of a card is shown to depend only on the texts of the lines of each name (card_text); section by section the lines of a contact read back (C24) have the same text per name as those of the original: entries without data write nothing, field groups of one name keep their order, calendar URLs of one kind keep theirs (restored_texts).

*Result.* For the contacts a version can carry (Readable, the class of C24). Keys with a type of their own are excluded in version 4: C91_custom_key_false shows that the second text differs. C91_settles: in 3.0 and 4.0 contacts with any texts settle with the first import, the bytes are the same from the second export on; C91_settles_false: not when merged components end in a backslash again.

*Theorems.* `C91_text_partial`, `C91_rounds_partial`, `C91_settles`, `C91_custom_key_false`, `C91_settles_false`

### C92 Files exported in different versions can be joined (proved)

*Model and proof.* The joined text is the text of the joined list of cards; lines are read back card by card (reads_text) and each card gives the contact of its version (back_contact).

*Result.* For the contacts each version can carry (Readable, the class of C24). C92_any: contacts with any texts (Carries, the class of C89), versions 3.0 and 4.0; each is read as what its version carries of it.

*Theorems.* `C92`, `C92_any`

### C93 Entries without content leave no trace in an exported vCard (proved)

*Model and proof.* A contact without the empty entries (Spec/Filled) is compared with the contact itself section by section: dropped entries give lines whose text is empty, and cards whose lines of each name have the same text have the same text (lemma card_text of C91).

*Result.* Assumes that encoding an empty text gives no bytes (NothingFromNothing: Qt's encoders and KCodecs' quoted-printable). C93_read: for contacts a version can carry but for such entries. C93_any: with any texts, in 3.0 and 4.0.

*Theorems.* `C93`, `C93_read`, `C93_any`

### C94 Changing one field of a contact changes only that field's lines in the exported vCard (proved)

*Model and proof.* The lines a contact is written as are 39 sections, each a function of a few fields; for the changed field a section is either the same or all its lines have the field's names. The order of writing (VERSION, then names in order) of the names that pass a test depends on the lines that pass it only, by extensionality of sorted lists.

*Result.* C94 (lines), C94_piece (bytes before and after are the same), C94_silent, C94_call (every call of the API). Spec: propertiesFor lists the properties of each field per version.

*Theorems.* `C94`, `C94_piece`, `C94_silent`, `C94_call`

### C95 A cut-off vCard file gives exactly its complete contacts (proved)

*Model and proof.* The reader is a left fold over physical lines; a prefix of a text has the same complete lines and a prefix of the next one, which adds a card only if the whole line does; the written text is squeezed between the cut just before and just after the last byte of an end marker.

*Result.* C95_any: contacts with any texts (Carries, the class of C89), versions 3.0 and 4.0. C95_soft_break_false: for texts from elsewhere with a quoted-printable soft line break the claim fails, reading a text cut within the line after the break never ends. C95_one_line_false: a text of one line is read twice, hence the side condition of C95_cards.

*Theorems.* `C95_cards`, `C95`, `C95_every_cut`, `C95_soft_break_false`, `C95_one_line_false`, `C95_any`

### C96 A cut-off LDIF file gives its complete entries and at most one partial one (proved)

*Model and proof.* The import is a fold of the parser step over the characters, followed by the final item. After an empty line the parser is in a state that depends only on the entry type (AtBlank), so the state at the end of the first part has the same finished contacts as its import; each further character appends to the finished contacts only; the end of the text adds at most one. Exported text: each entry starts with 'd' and ends with an empty line.

*Result.* C96: any text; C96_exported, C96_contacts: exported lists; C96_folded_false: why the hypothesis on the next character is needed.

*Theorems.* `C96`, `C96_exported`, `C96_contacts`, `C96_folded_false`

### C97 An LDIF export shows each field in its own attributes and gives nothing else away (proved)

*Model and proof.* The export is a list of attributes with values (LdifPairs); each value is a function of one field, or two (dn: name and e-mail; department: department and a custom field). Positionwise comparison of the two lists; filters of lists related that way are equal.

*Result.* C97 (any set of attributes), C97_field, C97_silent (nothing else is given away), C97_call, C97_call_silent. A contact that was never given content is not exported at all, therefore the hypothesis that both have content.

*Theorems.* `C97`, `C97_field`, `C97_silent`, `C97_call`, `C97_call_silent`

### C98 Different contacts are exported as different vCards, equal contents as equal ones (partial)

*Model and proof.* Forwards: read both (equal) texts with ids longer than all uids; C24 gives the contacts read; relabelling shows that what is read determines the content. Backwards: contacts and what is read of them are written as the same text (C91), and the contacts read depend on the content only.

*Result.* C98_distinct and C98_fields: every Readable contact. C98_partial (the if-and-only-if) excludes keys with a type of their own in version 4.0, where the claim is false: the type's name is written but not read (C98_custom_key_false).

*Theorems.* `C98_distinct`, `C98_partial`, `C98_export_partial`, `C98_custom_key_false`, `C98_fields`

### C99 A broken vCard in a file does not damage the cards after it (proved)

*Model and proof.* The reader is a fold over physical lines; a begin marker resets the open card, so the state after it depends on the text before only through the finished cards (shift lemma). Exported files: with C95's cut and C92's mixed versions. Glued texts: completeness of a text is kept when anything is put before it, then C09.

*Result.* C99 (any texts), C99_contacts (exported files), C99_any (exported files of contacts with any texts, versions 3.0 and 4.0), C99_glued and C99_glued_before (no line end at the joint), C99_mixed_false (there the next card is mixed with the broken one). Hypothesis: no quoted-printable soft line break in the broken text (there reading need not end, see C07 and C95).

*Theorems.* `C99_any`, `C99`, `C99_contacts`, `C99_glued`, `C99_glued_before`, `C99_mixed_false`

### C100 How the lines of a vCard are folded, and empty lines, do not matter (proved)

*Model and proof.* The fold over physical lines is shown to be a fold over logical lines (generalised over the line being collected); the text enters only through them.

*Result.* C100, C100_contacts, C100_empty_line. C100_marker_false: a folded end marker is not seen, so the hypothesis that markers are not folded is needed. Soft line breaks are the subject of C58.

*Theorems.* `C100`, `C100_contacts`, `C100_empty_line`, `C100_marker_false`

### C101 A broken LDIF text does not damage the entries after it (proved)

*Model and proof.* Invariant over the characters read: whenever the parser is outside of an entry the import has nothing in hand (OutsideFresh); the empty line makes the parser ready (Lemmas/Ldif: ldifRun_records) and gives the first text's results; then the induction of C43 over the records from any birth values.

*Result.* C101 up to birthdays, C101_birthday with them if the entries state them, C101_cut for texts cut off anywhere; C101_birthday_false and C101_glued_false show that the two restrictions (birth values of earlier entries leak; without an empty line the next entry becomes part of the one before) are in the code.

*Theorems.* `C101`, `C101_birthday`, `C101_cut`, `C101_glued_false`, `C101_birthday_false`

### C102 Comments in an LDIF file do not change what is imported (proved)

*Model and proof.* The text is decomposed into logical lines and comments (feed_linesO); after a comment the parser may still be in the entry before, so the name line becomes an attribute, which the import ignores; simulation per record with the invariant 'in an entry of attributes or outside of any'.

*Result.* C102 holds although the parser's items differ (C41_comment_false, C41_first_comment_false); C102_change_false: for change records a comment does change the import (an entry to be deleted is imported).

*Theorems.* `C102`, `C102_change_false`

### C103 How the lines of an LDIF file are folded does not matter (proved)

*Model and proof.* Induction over the text: a fold leaves the parser's state as it was but for the line number (Alike); corollary for the import through ldifToAddressee_items.

*Result.* C103 (items), C103_import (contacts and groups). C103_empty_false and C103_crlf_false show that the restrictions are needed: behind an empty line, or with CR LF line ends, a fold followed by # is no comment.

*Theorems.* `C103`, `C103_import`, `C103_empty_false`, `C103_crlf_false`

### C104 How the value of an LDIF attribute is written does not matter (partial)

*Model and proof.* Each spelled line is split into the same name and value (split_spelled), and the parser's run over lines depends only on the split, by induction over attributes and records; folding by C103.

*Result.* Proved for values as they are, in base64 and left out, white space before the colon, folding and empty lines (C104, C104_import, C104_folded), with exactly one space after the colon. False otherwise: without a space the value loses its first character, with two it begins with a space (C104_space, C104_space_false).

*Theorems.* `C104`, `C104_import`, `C104_folded`, `C104_space`, `C104_space_false`

### C105 How the parameters of a vCard property are written does not matter (partial)

*Model and proof.* A text spelling a list of parameters is an inductive relation. Induction over it: scanning the text collects exactly that list; the parameter map, the encoding and the charset are functions of the values under each name, so the order of different names does not matter. C105_values gives the parameters read; C105_quoted_list_false is the case that fails.

*Result.* Proved for all spellings except a list in which a value with its own quotes is followed by a comma and another value (TYPE="a","b"): after the closing quote the scanner takes no comma, so what follows up to the next ; or : is lost (C105_quoted_list_false).

*Theorems.* `C105_partial`, `C105_values`, `C105_quoted_list_false`

### C106 The encoding and the character set of a text in a vCard do not matter (partial)

*Model and proof.* lineOf_says gives the line read as a function of the name, the values of the parameters and the value; case analysis over the encodings shows that its text is the one that was written (C106_text). A line of a text property is replaced by a short form with its name, text and sort key only; reading the short form is reading the line, and both spellings have the same one.

*Result.* For the properties of which the contact keeps only the text (textProperties). C106_text: the text read is right for every property; but email addresses, phone numbers, titles and other entries keep the parameters of their line, among them ENCODING and CHARSET, so the contact is another one (C106_kept_false). Texts without a backslash and not beginning with U+FEFF (C01, C11); a quoted-printable value on several lines is C58.

*Theorems.* `C106_partial`, `C106_text`, `C106_kept_false`

### C107 Going through a vCard makes no difference to an LDIF export (partial)

*Model and proof.* C24 says what is read back; the loops of phoneNumber(type) and address(type) are compared by induction over the lists (types restricted to the flags that have a name), then every field the export uses is the same; witnesses for the two losses by kernel evaluation

*Result.* False as stated for a nick name in version 2.1 (C107_nick_false) and for a department without organization in every version (C107_department_false); C107_partial covers all other contacts that the format can carry, C107_lookup the lookups by type.

*Theorems.* `C107_partial`, `C107_lookup`, `C107_nick_false`, `C107_department_false`

### C108 Comparing a contact with what is read back from its vCard (partial)

*Model and proof.* C24 says what is read back; for each compared field an if-and-only-if for both orders of the comparison (Spec/Compared.lean lists the conditions), put together for the whole contact

*Result.* False as stated: phone numbers, addresses and keys get new ids when they are read and ids are compared, so no contact with one of them ever compares equal with what is read back (C108_ids_false). C108_partial says exactly (iff, both orders) which contacts compare equal, for contacts whose pictures and sounds are written as they are kept (MediaAsKept).

*Theorems.* `C108_partial`, `C108_ids_false`

### C109 Going through the binary stream makes no difference to the exports (partial)

*Model and proof.* C35 says exactly what is read from the stream; the lines written for pictures before and after are compared case by case, everything else is the same contact; lists by induction

*Result.* False as stated for embedded pictures whose file is not what Qt makes of its image, because the stream carries the decoded image (C109_picture_false), and for web addresses that are not valid (C109_url_false). C109_partial covers all contacts without those and without ':' in the name of a custom field (StreamSafe).

*Theorems.* `C109_partial`, `C109_picture_false`, `C109_url_false`

### C110 An imported LDIF export is exported again as it was (partial)

*Model and proof.* C44 gives the supported fields of each imported contact; added to it are the mark for empty contacts, the custom fields and the text of the revision, followed through the attributes of an entry. The export is then compared line by line.

*Result.* Missing: contacts LDIF cannot express (see C44) and an import at the very moment of a change that is written differently. False as the plain claim without the time of import (C110_stamp_false), for birthdays behind each other (C110_list_false) and streets of three lines (C110_street_false).

*Theorems.* `C110_partial`, `C110_same_partial`, `C110_stamp_false`, `C110_list_false`, `C110_street_false`

### C111 What a program builds with calls a vCard can carry comes back from a vCard (proved)

*Model and proof.* Invariant: `Built` (the contact is `Readable`, and each part of its name, organisation, categories is a text that can stand anywhere in a compound value; no labels before version 4) holds for a new contact and is kept by each of the calls of `Op`, given `CallFits` of its argument; with C24.

*Result.* C111 (whole contact: `Contact.restored`), C111_content (field by field), C111_book (many contacts). The conditions of `CallFits` on more than the argument itself are needed: C111_preferred_false, C111_title_false.

*Theorems.* `C111`, `C111_content`, `C111_book`, `C111_preferred_false`, `C111_title_false`

### C112 A vCard file of another program, once imported, no longer changes (proved)

*Model and proof.* Spec/Foreign.lean: one condition for each kind of property on what C79's specification says the property stands for. Lemmas/CardFrom.lean: a contact read from such a card meets `Readable`, field by field from `CardSays`, with small lemmas that dates, positions and pictures come from a property. Then C24 and C91. Example: a 2.1 card with foreign names, exported in 3.0.

*Result.* CardFits is a condition on each property (and on labels and preferred e-mails). C112_uid_false and C112_service_false show two things that are lost without it.

*Theorems.* `C112`, `C112_text`, `C112_uid_false`, `C112_service_false`

### C113 Contacts imported from LDIF come back from a vCard (proved)

*Model and proof.* C43 splits the import into entries and C76 says, attribute by attribute, what contact each gives; record_readable derives from this that each of the contacts meets the conditions of C24 (Readable), field by field, when each attribute fits (Spec/LdifCard.lean, RecordFits). The rest is C24, C91 and C107.

*Result.* RecordFits lists, attribute by attribute, what a vCard can carry (no empty uid, title or e-mail address, texts as in C01 and C24, years of birth up to 9999). Of these a condition that is not met really loses something: C113_uid_false, C113_year_false; a department without an organization does not come back (C113_department_false; `Contact.restored` says so in C113, and C113_ldif excludes it). Entries are those of C43: none leaves parts of a birth date to a later one.

*Theorems.* `C113`, `C113_text`, `C113_ldif`, `C113_uid_false`, `C113_department_false`, `C113_year_false`

### C114 Every field of an imported contact comes from the properties about it alone (proved)

*Model and proof.* Reading a line is a list of calls on the contact (`lineCalls`), each about a field of the line's name; two states of reading that agree on a field (and on the first picture where further ones depend on it) still agree after the same line, and a line about other fields leaves it alone. By induction over the lines in reading order.

*Result.* One card per text; several cards in a text are C79 and C99. The spec table `readFrom` names the properties of every field. `Good` is the well-formedness of C65 (no soft line break at the end of a property, no marker lines).

*Theorems.* `C114`, `C114_absent`, `C114_added`

### C115 Editing one thing in an exported vCard changes only that thing (proved)

*Model and proof.* The written text is cut into physical lines; a cut where a line ends that is not continued is a cut between written lines (lines_split). Reading the text with properties put in gives the card of the lines before, the properties and the lines after (readText_inserted); cards with the same lines about a field give the same field (cards_agree, C114).

*Result.* C115: any edit of the list of properties; C115_text: the text of every carriable contact is such a list (unless a line that mentions quoted-printable ends in '='); C115_added: properties inserted at any line end not followed by a continuation; C115_restored: compared with the contact that was exported. Cases where the edited text leads the library out of its defined behaviour are left out (the theorems speak of texts that are read).

*Theorems.* `C115`, `C115_text`, `C115_added`, `C115_restored`

### C116 Every field of a contact imported from LDIF comes from the attributes about it alone (proved)

*Model and proof.* C76 says for each field from which attributes it is computed; each of these computations depends on the attributes about the field only (values_on, kinded_on).

*Result.* C116: two entries; C116_absent: fields without attributes; C116_added: one more attribute. Ids of phone numbers (made up on import) and the way a time of revision is given do not count (SameImported).

*Theorems.* `C116`, `C116_absent`, `C116_added`

### C117 Editing one thing in an exported LDIF entry changes only that thing (proved)

*Model and proof.* the export is shown to be the text of a record (C44's attribute list), and its import not to depend on the distinguished name; then C116.

*Result.* C117 (any edited entry), C117_edited (some lines replaced by others). For contacts LDIF can express (LdifReadable, the class of C44).

*Theorems.* `C117`, `C117_edited`

### C118 A contact group file that was not written to its end gives exactly its complete groups and an error (proved)

*Model and proof.* Induction over the groups: a prefix of the written tokens either contains the whole group, which C46's lemma reads, or lacks the group's closing tag, without which the member loop returns false.

*Result.* At the level of XML tokens; that a cut file ends in a syntax error is Qt's reader and is the hypothesis wellFormed = false.

*Theorems.* `C118`, `C118_group`

### C119 Reading a contact group file only adds members to the group, also when it fails (proved)

*Model and proof.* The state of the caller's group is modelled beside the return value; induction over the tokens, and over the written members for the cut file.

*Result.* That a failed call leaves the group unchanged is false (C119_unchanged_false): identifier, name and members are set as they are read.

*Theorems.* `C119`, `C119_accepted`, `C119_untouched`, `C119_cut`, `C119_list`, `C119_unchanged_false`

### C120 The order of attributes and of different kinds of members in a contact group file, and unknown attributes, do not matter (proved)

*Model and proof.* Attributes occur once in a tag, so a permutation has the same value under each name; induction over the similar token sequences, and over the members.

*Result.* At the level of XML tokens. The order of members of the same kind does matter (C120_same_kind_false), as it is the order in the group.

*Theorems.* `C120`, `C120_after`, `C120_members`, `C120_same_kind_false`

### C121 Changing a member of a contact group in its place changes that member's field only (partial)

*Model and proof.* Induction over the history of calls; the copy made when a shared object is changed is modelled with the copy constructor as it is.

*Result.* FALSE in one point: the copy constructor of the private object does not copy the global id, so a setter called on a member whose object is shared (for example with the object that was appended) loses it (C121_gid_false). Proved: everything else, and exactly when the global id is kept (C121_gid_partial).

*Theorems.* `C121`, `C121_fields`, `C121_gid_partial`, `C121_gid_false`

### C122 What an address is printed as depends only on the parts that are shown (proved)

*Model and proof.* A relation between two calls of the formatter that agree on what the elements of the format look at, kept by every step of the loop (induction over the elements); the country of an address is specified apart (meansCountry).

*Result.* C122 (every style), C122_domestic, C122_hidden. In the other styles it does matter whether the country is given (C122_given_false).

*Theorems.* `C122`, `C122_domestic`, `C122_hidden`, `C122_given_false`

### C123 Going through a vCard makes no difference to printed addresses (proved)

*Model and proof.* From the whole-contact round trip (C24), the lookup by type (C107_lookup) and C122_hidden.

*Result.* C123, C123_file (several contacts), C123_own, C123_type; the exception in version 4.0 is real (C123_own_false).

*Theorems.* `C123`, `C123_file`, `C123_own`, `C123_type`, `C123_own_false`
