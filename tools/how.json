{
"C01": "`addEscapes`/`removeEscapes` as the source's sequence of global replacements. The sequence is reduced to one left-to-right pass; the round trip is then an induction over the text.",
"C02": "`splitString` with its in-place rewriting, on texts joined from escaped components; induction over the components. The result for any components is `merged` in Spec/Merge.",
"C03": "`fixLineSize` in both modes and the unfolding of `parseVCards`; induction over the rest of the line.",
"C04": "Same functions; bound on every line produced, by the same induction.",
"C05": "Multi-byte branch of `fixLineSize` on UTF-8 encodings of scalar values.",
"C06": "`parseLine`'s character loop as a fold over a state (`Lemmas/Reader`), the writer line by line (`Lemmas/LineForm`); induction over parameters, lines and cards.",
"C07": "The outer loop of `parseVCards` with its index variables and fuel; invariant: the index grows in every round unless a soft break swallows the end.",
"C08": "Reader loop on physical lines that differ only by the carriage return that is chopped; simulation for every number of rounds.",
"C09": "The reader loop is a fold over logical lines (`Lemmas/ReadJoin`); after a complete text the state is the initial state plus the emitted cards.",
"C10": "Base64 encoder and decoder of Qt; induction in steps of three bytes.",
"C100": "The fold over physical lines is shown to be a fold over logical lines (generalised over the line being collected); the text enters only through them.",
"C101": "Invariant over the characters read: whenever the parser is outside of an entry the import has nothing in hand (OutsideFresh); the empty line makes the parser ready (Lemmas/Ldif: ldifRun_records) and gives the first text's results; then the induction of C43 over the records from any birth values.",
"C102": "The text is decomposed into logical lines and comments (feed_linesO); after a comment the parser may still be in the entry before, so the name line becomes an attribute, which the import ignores; simulation per record with the invariant 'in an entry of attributes or outside of any'.",
"C103": "Induction over the text: a fold leaves the parser's state as it was but for the line number (Alike); corollary for the import through ldifToAddressee_items.",
"C104": "Each spelled line is split into the same name and value (split_spelled), and the parser's run over lines depends only on the split, by induction over attributes and records; folding by C103.",
"C105": "A text spelling a list of parameters is an inductive relation. Induction over it: scanning the text collects exactly that list; the parameter map, the encoding and the charset are functions of the values under each name, so the order of different names does not matter. C105_values gives the parameters read; C105_quoted_list_false is the case that fails.",
"C106": "lineOf_says gives the line read as a function of the name, the values of the parameters and the value; case analysis over the encodings shows that its text is the one that was written (C106_text). A line of a text property is replaced by a short form with its name, text and sort key only; reading the short form is reading the line, and both spellings have the same one.",
"C107": "C24 says what is read back; the loops of phoneNumber(type) and address(type) are compared by induction over the lists (types restricted to the flags that have a name), then every field the export uses is the same; witnesses for the two losses by kernel evaluation",
"C108": "C24 says what is read back; for each compared field an if-and-only-if for both orders of the comparison (Spec/Compared.lean lists the conditions), put together for the whole contact",
"C109": "C35 says exactly what is read from the stream; the lines written for pictures before and after are compared case by case, everything else is the same contact; lists by induction",
"C11": "UTF-16, code points, UTF-8; induction over scalar values, arithmetic on bit groups.",
"C110": "C44 gives the supported fields of each imported contact; added to it are the mark for empty contacts, the custom fields and the text of the revision, followed through the attributes of an entry. The export is then compared line by line.",
"C111": "Invariant: `Built` (the contact is `Readable`, and each part of its name, organisation, categories is a text that can stand anywhere in a compound value; no labels before version 4) holds for a new contact and is kept by each of the calls of `Op`, given `CallFits` of its argument; with C24.",
"C112": "Spec/Foreign.lean: one condition for each kind of property on what C79's specification says the property stands for. Lemmas/CardFrom.lean: a contact read from such a card meets `Readable`, field by field from `CardSays`, with small lemmas that dates, positions and pictures come from a property. Then C24 and C91. Example: a 2.1 card with foreign names, exported in 3.0.",
"C113": "C43 splits the import into entries and C76 says, attribute by attribute, what contact each gives; record_readable derives from this that each of the contacts meets the conditions of C24 (Readable), field by field, when each attribute fits (Spec/LdifCard.lean, RecordFits). The rest is C24, C91 and C107.",
"C114": "Reading a line is a list of calls on the contact (`lineCalls`), each about a field of the line's name; two states of reading that agree on a field (and on the first picture where further ones depend on it) still agree after the same line, and a line about other fields leaves it alone. By induction over the lines in reading order.",
"C115": "The written text is cut into physical lines; a cut where a line ends that is not continued is a cut between written lines (lines_split). Reading the text with properties put in gives the card of the lines before, the properties and the lines after (readText_inserted); cards with the same lines about a field give the same field (cards_agree, C114).",
"C116": "C76 says for each field from which attributes it is computed; each of these computations depends on the attributes about the field only (values_on, kinded_on).",
"C117": "the export is shown to be the text of a record (C44's attribute list), and its import not to depend on the distinguished name; then C116.",
"C118": "Induction over the groups: a prefix of the written tokens either contains the whole group, which C46's lemma reads, or lacks the group's closing tag, without which the member loop returns false.",
"C119": "The state of the caller's group is modelled beside the return value; induction over the tokens, and over the written members for the cut file.",
"C12": "`ParameterMap` as sorted association list; refinement to a map from names to lists.",
"C120": "Attributes occur once in a tag, so a permutation has the same value under each name; induction over the similar token sequences, and over the members.",
"C121": "Induction over the history of calls; the copy made when a shared object is changed is modelled with the copy constructor as it is.",
"C122": "A relation between two calls of the formatter that agree on what the elements of the format look at, kept by every step of the loop (induction over the elements); the country of an address is specified apart (meansCountry).",
"C123": "From the whole-contact round trip (C24), the lookup by type (C107_lookup) and C122_hidden.",
"C13": "`VCard` line map; refinement as in C12.",
"C14": "Writer's order of identifiers for every history of `addLine`.",
"C15": "Date and time formatter and reader with Qt's validity rules; digit arithmetic; lifted to cards by C24.",
"C16": "`%c%02d:%02d` formatter and the reader; arithmetic for every integer offset.",
"C17": "Gender writer and reader of a line.",
"C18": "Flag tables as in the source; all sets of the 15 flags by kernel evaluation over the (complete) finite domain, lifted to whole cards.",
"C19": "As C18, for the 7 address flags.",
"C20": "Composition of C01, C02, C03, C06 for N and ADR lines in whole cards. Spec/Carriable says what becomes of components that end in a backslash.",
"C21": "Composition for X- lines in whole cards, with the renaming tables.",
"C22": "Writers and readers of KEY, SOUND, PHOTO, LOGO; undefined behaviour of the data URI reader as outcome `none`.",
"C23": "Finite classes and arbitrary texts.",
"C24": "Composition over the whole `createVCards`/`parseVCards` dispatch. `Spec/Readable` says which contacts a version can carry; `Contact.restored` is what is read back.",
"C25": "Operation-by-operation model of the e-mail list; invariant over histories.",
"C26": "The index loop of `removeEmail`, which skips an element after a removal.",
"C27": "Insert, remove, find by id; refinement to a finite map; induction over histories.",
"C28": "As C27.",
"C29": "As C27.",
"C30": "Insert and remove; refinement to an ordered set.",
"C31": "Sorted list of (qualified name, value); refinement to a map from qualified names.",
"C32": "The lookup loops, with the preference flag and the empty default; keys by type and custom name.",
"C33": "Heap of shared private objects with the copy constructors of the source; simulation of the value semantics.",
"C34": "`listEquals` and every `operator==`.",
"C35": "Writers and readers of every class on stream items; induction over lists; maps re-sorted on reading.",
"C36": "`setNameFromString` with out-of-range access as outcome; word-by-word accounting.",
"C37": "`parseEmailAddress` as a state machine over the text, `fullEmail`; invariants for the position and the round trip by induction.",
"C38": "`assembleLine`, `splitLine`, `splitControl`, the character reader; induction over folded pieces.",
"C39": "As C38 for URL values.",
"C40": "Character-level state machine `nextItem`; cuts commute with the steps.",
"C41": "Simulation between two documents differing in line ends or comments.",
"C42": "Record writer against the item reader; induction over attributes and records.",
"C43": "The converter's main loop with the variables that outlive an entry.",
"C44": "Exporter and importer attribute by attribute; `LdifReadable` describes the contacts that can be expressed.",
"C45": "Lists of references, groups and data; induction over histories.",
"C46": "XML writer and reader on tokens; recursion over members.",
"C47": "Reader on arbitrary element trees; exact acceptance condition.",
"C48": "Formatter's loop over elements with its separators; refinement to a line-by-line specification.",
"C49": "Parser of format strings; printing as inverse.",
"C50": "Setters and constructor with float comparisons including infinities and NaN; induction over histories.",
"C51": "Type and preference functions of e-mail, URL and IM addresses on parameter maps.",
"C52": "The character loop of `normalizedNumber`.",
"C53": "The table of legacy X- messaging fields in reader, writer and normalisation.",
"C54": "All modifying calls as an inductive type (`Op`); induction over histories.",
"C55": "The reader fold; invariant on cards emitted.",
"C56": "`VCardConverter::parseVCard(s)`, the drag functions.",
"C57": "`realName` and `assembledName`.",
"C58": "Reader on a value cut by soft line breaks at any places; induction over the pieces.",
"C59": "Every setter of `Addressee`: value read afterwards and frame condition.",
"C60": "`assembleLine`'s folding; bound on each line.",
"C61": "State of the parser after `startParsing`; simulation with a new parser.",
"C62": "`AddressFormatRepository::formatForAddress` and friends over arbitrary configuration.",
"C63": "Iteration of C24; `restored` is idempotent up to ids; field groups are sorted by the first round and stay so.",
"C64": "Objects with caching readers (`Model/Media`); invariant over histories, and simulation with the history without reads.",
"C65": "`parseVCards` of the parser on a text given as physical lines: fold over the lines gives the card of the parsed lines; a card is determined by its per-name lists (`C13_lines`, extensionality of sorted maps). For unknown names: the reading fold skips lines of the kind `other`, and filtering commutes with the reading order.",
"C66": "The loops over the type lists with the translation as a parameter (`Labels`); the label is the join of a list of parts, from which every flag can be read off; joining non-empty parts without '/' is injective.",
"C67": "`serviceTypes` and `serviceLabel` with directory listings and desktop file contents as parameters (`Labels`); sorting and removal of neighbours by induction. The shipped files are a table (`ShippedServices`) evaluated by the kernel; the files of the user are a list of any length.",
"C68": "The text of a group is one LDIF entry of the entry machinery of C44; induction over the entries and the members. An exact condition says which members come back unchanged; witnesses show the loss of e-mail addresses, of names with commas and of groups without members of their own.",
"C69": "The comparison is shown to be equality of the groups without the global ids of references; equivalence and congruence under all modifying calls follow by induction over the history.",
"C70": "Frame lemma (a call changes only its field and the mark whether the contact is empty) and locality lemma (what it does depends on that field only) by cases over all calls; induction over the history.",
"C71": "Two readings are run side by side: a relation between their states (same fields, lists equal up to ids with the same increasing numbers) is shown to be kept by every line; ids are numbered in the order of their creation, so they are distinct.",
"C72": "Ghost specification: what the reversed history says about a language. Induction on the history with the invariant that no language is listed twice; exact condition for a language to survive its removal.",
"C73": "A separate description of a stamp (date, form of time, form of zone) with its text and its meaning; the reader is proved to return the meaning for every valid stamp, by computing the positions of the separators; the two gaps are concrete counterexamples.",
"C74": "The shipped configuration file is translated entry by entry (`Model/ShippedFormats`, generated by tools/gen_formats.py). The choice of the format is reduced to membership in the country's group, the finite table is then evaluated by the kernel, and the theorems of C48 turn 'mentioned in the format' into 'shown in the text' for all addresses.",
"C75": "A separate description of change records with their text and the items they stand for; each kind of line is run through processLine once, the items of a record follow by induction over its lists, the documents by induction over the records.",
"C76": "The import of the entry is a fold over its attributes; each part of the state is followed through the fold on its own, and the table of names is checked against the names listed in the specification.",
"C77": "Each export is the old text with something appended that does not depend on it; induction over the list.",
"C78": "The parts of a text are given by inductive relations (Spec/MailText.lean) that know nothing of the parser's state; induction over them shows that the loop collects exactly the parts; a separate theorem shows that every byte sequence decomposes into such parts.",
"C79": "A separate description of a contact by the properties of its card (Spec/CardEntry.lean), one equation per field. The reading is a fold over the properties; a frame lemma says which parts of the contact a property can change, so each field is followed through the fold on its own, with an invariant where ids or keys have to be distinct; the tables of names and types are compared with the ones of the specification.",
"C80": "The lines of a contact are a concatenation of 39 sections, each with one name (`Named`) except addresses, calendar addresses, pictures, field groups and custom fields, whose names are bounded separately; the written lines are a permutation of them (by `C14_order`). The names of the standards are tables in Spec/Versions.lean.",
"C81": "QString::arg is modelled as the search for the lowest place marker and the replacement of all markers with that number. The representation is equal to a table of labels and values (layout theorem), and it can be read from the front: combinators for literals, lines, nested representations and lists show that what is shown and the rest of the text are determined. Two contacts with the same text are given where the claim fails.",
"C82": "The word sets are built from the configuration as in initSettings. The loops over the words are shown to take exactly the leading titles and the trailing suffixes, so the five parts are the five segments of the list of words; every list of words with a word that is not a suffix has such segments. That only words of the text matter follows because the loops look up nothing else.",
"C83": "Specification: Spec/Contained.lean (headTexts: the texts of a contact written in front of a colon; Contained: these are on one line and field groups are not called BEGIN/END; entries: how many lines a property may have; textLines: the lines of a text). C83_lines_partial: the lines of the text are, per contact, BEGIN:VCARD, property lines, END:VCARD, and at most as many lines of each property as entries; values are unrestricted. C83_read_partial: reading ends and gives one contact for each. C83_lines_false, C83_read_false: parameters, custom names, address labels and group names get out.",
"C84": "Relation between the lines read from the two texts (same parameters, same value, same name up to case, or the same custom name), proved by following the scanner of a content line through name, parameter names and values; the reader of a line depends on related lines alike; the cards are sorted maps, and an order isomorphism of the names carries one into the other.Lines about different things commute: a line is a list of calls on fields of the contact (Lemmas/LineSwap), calls about different fields commute (C70), and two orders that agree on lines with a common field give the same contact.",
"C85": "Every part of the imported contact is a function of the attributes on one topic (C76); the parts determine the contact.",
"C86": "contacts equal apart from ids (C71) have equal lines section by section; the LDIF loops over addresses and phone numbers choose the same entry apart from its id; C86_reread combines this with C71_same_data",
"C87": "Model/Properties.lean: each declared property with its READ and WRITE functions over the existing model of the setters. Spec/Properties.lean: lists of the writable and read-only names by type, and of the properties in which a value can be seen (Touches). C87_declared proves which reads and writes are accepted; C87_last_partial and C87_others by induction over the writes, using the frame theorem C70 (every call changes one field) and that every history leaves the custom fields sorted. C87_url gives exactly what the property url does.",
"C88": "`QString::number(double)` is modelled exactly for the floats that are coordinates (six digits, rounding, exponent below 0.0001). The printed digits are shown to stand for the rounded number and the rounding to be off by at most half a unit of the sixth digit; the search text is the formatter's, with the theorems of C48 and C74.",
"C89": "`carried` in Spec/Carried says what becomes of a text, unit by unit, and of each field of a contact. Lemmas/CarriedText shows that the UTF-8 form of `carried s` is the form of s with the bytes behind backslashes replaced, and that joining parts with separators commutes with it; Lemmas/Carried shows for every section of the writer that the line written for the contact and the line written for the carried contact are read as the same line. With C24_merged for the carried contact this gives the whole result.",
"C90": "The round trip theorem of C24 for one step; `Readable` is shown to be kept for every version by a round in any other (readable_passed); the result of one more step on `Contact.passed` is `Contact.passed` of the longer list (passed_step); induction over the list of versions.",
"C91": "The text of a card is shown to depend only on the texts of the lines of each name (card_text); section by section the lines of a contact read back (C24) have the same text per name as those of the original: entries without data write nothing, field groups of one name keep their order, calendar URLs of one kind keep theirs (restored_texts).",
"C92": "The joined text is the text of the joined list of cards; lines are read back card by card (reads_text) and each card gives the contact of its version (back_contact).",
"C93": "A contact without the empty entries (Spec/Filled) is compared with the contact itself section by section: dropped entries give lines whose text is empty, and cards whose lines of each name have the same text have the same text (lemma card_text of C91).",
"C94": "The lines a contact is written as are 39 sections, each a function of a few fields; for the changed field a section is either the same or all its lines have the field's names. The order of writing (VERSION, then names in order) of the names that pass a test depends on the lines that pass it only, by extensionality of sorted lists.",
"C95": "The reader is a left fold over physical lines; a prefix of a text has the same complete lines and a prefix of the next one, which adds a card only if the whole line does; the written text is squeezed between the cut just before and just after the last byte of an end marker.",
"C96": "The import is a fold of the parser step over the characters, followed by the final item. After an empty line the parser is in a state that depends only on the entry type (AtBlank), so the state at the end of the first part has the same finished contacts as its import; each further character appends to the finished contacts only; the end of the text adds at most one. Exported text: each entry starts with 'd' and ends with an empty line.",
"C97": "The export is a list of attributes with values (LdifPairs); each value is a function of one field, or two (dn: name and e-mail; department: department and a custom field). Positionwise comparison of the two lists; filters of lists related that way are equal.",
"C98": "Forwards: read both (equal) texts with ids longer than all uids; C24 gives the contacts read; relabelling shows that what is read determines the content. Backwards: contacts and what is read of them are written as the same text (C91), and the contacts read depend on the content only.",
"C99": "The reader is a fold over physical lines; a begin marker resets the open card, so the state after it depends on the text before only through the finished cards (shift lemma). Exported files: with C95's cut and C92's mixed versions. Glued texts: completeness of a text is kept when anything is put before it, then C09."
}
