{"id": "C01", "title": "vCard text escaping is reversible", "statement": "Writing a property value to vCard text and reading that text back yields the identical value: the escaping of backslash, comma, CR and LF loses nothing, for plain properties as well as for the two properties (CATEGORIES, GEO) whose commas are not escaped.", "quantifier": "every byte string as property value", "why_tests_cant": "Escapes interact only through particular adjacent characters; no finite set of strings covers every adjacency.", "anchors": ["src/vcardparser/vcardparser.cpp:addEscapes", "src/vcardparser/vcardparser.cpp:removeEscapes"]}
{"id": "C02", "title": "Structured values keep their components", "statement": "Joining any list of text components into one structured value (ADR, N, ORG with ';', CATEGORIES with ',') and splitting it again gives back exactly the same components, including components that contain the separator.", "quantifier": "every separator, every non-empty list of components, every content of the components", "why_tests_cant": "Which strings collide with the separator or its escape is an unbounded combinatorial question.", "anchors": ["src/vcardtool.cpp:VCardTool::splitString", "src/vcardtool.cpp:VCardTool::processAddresses", "src/vcardtool.cpp:VCardTool::createVCards"]}
{"id": "C03", "title": "Folding a long line never changes it", "statement": "Splitting an over-long content line into physical lines and joining them again the way the reader does returns the original content line byte for byte.", "quantifier": "every content line without line breaks, of any length, in both folding modes", "why_tests_cant": "Fold positions depend on the length and on where multi-byte characters fall; all lengths and alignments must work.", "anchors": ["src/vcardparser/vcardparser.cpp:fixLineSize", "src/vcardparser/vcardparser.cpp:VCardParser::parseVCards"]}
{"id": "C04", "title": "Folded lines respect the width limit", "statement": "No physical line produced for a content line is longer than the fold width allows, and every produced line is terminated by CR LF.", "quantifier": "every content line, any length, in both folding modes", "why_tests_cant": "The bound must hold for every alignment of multi-byte characters with the fold column.", "anchors": ["src/vcardparser/vcardparser.cpp:fixLineSize"]}
{"id": "C05", "title": "Folding never tears a character apart", "statement": "When text is folded, the bytes of one UTF-8 encoded character always stay in the same physical line.", "quantifier": "every well-formed text and every position of 2-, 3- and 4-byte characters relative to the fold column", "why_tests_cant": "A test would have to place each kind of character at each column; violations appear only at particular alignments.", "anchors": ["src/vcardparser/vcardparser.cpp:fixLineSize"]}
{"id": "C06", "title": "A content line survives writing and reading", "statement": "Group, property name, parameters and value of a content line written to vCard text are read back unchanged.", "quantifier": "every content line whose name and parameters are in the allowed alphabet, with any value", "why_tests_cant": "The reader is a state machine over arbitrary text; agreement with the writer has to hold for each combination of parameters and value.", "anchors": ["src/vcardparser/vcardparser.cpp:VCardLineParser::parseLine", "src/vcardparser/vcardparser.cpp:VCardParser::createVCards"]}
{"id": "C07", "title": "Reading a vCard always terminates", "statement": "Parsing any byte string as vCards finishes and returns a list of cards.", "quantifier": "every byte string, including truncated and hostile files", "why_tests_cant": "Non-termination shows only on specific inputs and a test can never observe 'never returns'.", "anchors": ["src/vcardparser/vcardparser.cpp:VCardParser::parseVCards"]}
{"id": "C08", "title": "Line-ending style does not matter for vCards", "statement": "A vCard text with CR LF line ends and the same text with LF line ends are parsed to the same cards.", "quantifier": "every vCard text", "why_tests_cant": "Equality of two parses for every text cannot be sampled.", "anchors": ["src/vcardparser/vcardparser.cpp:VCardParser::parseVCards"]}
{"id": "C09", "title": "Concatenated vCard files are read as the concatenation", "statement": "Parsing several card texts written one after another yields the cards of each, in order, without loss, merging or duplication.", "quantifier": "every list of cards, any number of cards", "why_tests_cant": "Has to hold for each number of cards and each content.", "anchors": ["src/vcardparser/vcardparser.cpp:VCardParser::parseVCards", "src/vcardparser/vcardparser.cpp:VCardParser::createVCards"]}
{"id": "C10", "title": "Binary data survives base64", "statement": "Encoding any byte string as base64 and decoding it gives the same bytes; in a vCard line or an LDIF line the value comes back unchanged.", "quantifier": "every byte string of every length", "why_tests_cant": "Padding and grouping depend on length modulo 3 and on all byte values.", "anchors": ["src/vcardparser/vcardparser.cpp:VCardParser::createVCards", "src/ldif.cpp:Ldif::assembleLine"]}
{"id": "C11", "title": "Text survives the UTF-8 byte layer", "statement": "Every well-formed text (no lone surrogates) converted to bytes for a vCard or LDIF and back is unchanged.", "quantifier": "every sequence of Unicode scalar values", "why_tests_cant": "The domain is all Unicode strings.", "anchors": ["src/vcardparser/vcardparser.cpp:VCardParser::createVCards", "src/vcardparser/vcardparser.cpp:VCardLineParser::parseLine", "src/ldif.cpp:Ldif::assembleLine"]}
{"id": "C12", "title": "Parameters behave like an ordered map of value sets", "statement": "After any sequence of adding parameters to a property, looking up a name returns exactly the distinct values added under it in order of first addition, names are listed once each in ascending order, and the list of names does not depend on the order in which names were added.", "quantifier": "every sequence of additions", "why_tests_cant": "The claim is about histories of unbounded length.", "anchors": ["src/parametermap_p.h:ParameterMap", "src/vcardparser/vcardline.cpp:VCardLine::addParameter"]}
{"id": "C13", "title": "A card groups its lines by property name", "statement": "After any sequence of added lines, the names are listed once each in ascending order, and asking for a name returns exactly the lines added under that name in the order they were added.", "quantifier": "every sequence of added lines", "why_tests_cant": "Histories of unbounded length.", "anchors": ["src/vcardparser/vcard.cpp:VCard::addLine", "src/vcardparser/vcard.cpp:VCard::lines"]}
{"id": "C14", "title": "VERSION is the first property written", "statement": "In each written card the VERSION property, if present, comes directly after the begin marker and before every other property, and all other properties appear in ascending order of name; nothing is written twice or omitted. A card counts as the version its first VERSION line names (2.1, 3.0, otherwise 4.0; 3.0 without such a line).", "quantifier": "every card", "why_tests_cant": "Depends on how names compare with VERSION for arbitrary names.", "anchors": ["src/vcardparser/vcardparser.cpp:VCardParser::createVCards", "src/vcardparser/vcard.cpp:VCard::version", "src/vcardparser/vcard.cpp:VCard::setVersion"]}
{"id": "C15", "title": "Dates and times survive the vCard date format", "statement": "A birthday, anniversary, revision or death date written in any supported version of the format is read back as the same date, time and zone.", "quantifier": "every valid date with year 1..9999 or without year, every time of day, UTC, local time and each whole-minute offset, every version", "why_tests_cant": "Millions of dates times offsets times versions.", "anchors": ["src/vcardtool.cpp:VCardTool::createDateTime", "src/vcardtool.cpp:VCardTool::parseDateTime"]}
{"id": "C16", "title": "Time zone offsets survive", "statement": "A contact's time zone offset written to a vCard is read back as the same offset.", "quantifier": "every integer number of minutes", "why_tests_cant": "Sign, padding and digit count interact over the whole integer range.", "anchors": ["src/vcardtool.cpp:VCardTool::createVCards", "src/vcardtool.cpp:VCardTool::parseVCards"]}
{"id": "C17", "title": "Gender survives", "statement": "Gender and comment written to a version 4 vCard are read back unchanged.", "quantifier": "every gender text and every comment text", "why_tests_cant": "All texts, including ones containing the separator.", "anchors": ["src/vcardtool.cpp:VCardTool::createVCards", "src/vcardtool.cpp:VCardTool::parseVCards", "src/gender.cpp"]}
{"id": "C18", "title": "Phone type flags survive", "statement": "The set of type flags of a phone number written to a vCard of any version is read back as the same set.", "quantifier": "all combinations of the 14 phone type flags and the undefined flag, every version", "why_tests_cant": "2^15 combinations in three versions, plus the unlisted value 0.", "anchors": ["src/vcardtool.cpp:VCardTool::processPhoneNumbers", "src/vcardtool.cpp:stringToPhoneType"]}
{"id": "C19", "title": "Address type flags survive", "statement": "The set of type flags of an address written to a vCard of any version is read back as the same set.", "quantifier": "all 2^7 combinations of address type flags, every version", "why_tests_cant": "All combinations and versions.", "anchors": ["src/vcardtool.cpp:VCardTool::processAddresses", "src/vcardtool.cpp:stringToAddressType"]}
{"id": "C20", "title": "Names and addresses survive a vCard", "statement": "The five name components and the seven address components of a contact written to a vCard and parsed again are unchanged.", "quantifier": "every content of the components", "why_tests_cant": "Composition of escaping, folding, splitting and the line reader over arbitrary text.", "anchors": ["src/vcardtool.cpp:VCardTool::createVCards", "src/vcardtool.cpp:VCardTool::parseVCards"]}
{"id": "C21", "title": "Custom fields survive a vCard", "statement": "A custom field (application, name, value) written to a vCard and parsed again is stored under the same application and name with the same value.", "quantifier": "every application, name and value", "why_tests_cant": "The mapping goes through a single joined identifier, whose ambiguities are unbounded.", "anchors": ["src/vcardtool.cpp:VCardTool::processCustoms", "src/vcardtool.cpp:VCardTool::parseVCards"]}
{"id": "C22", "title": "Keys, sounds and pictures survive a vCard", "statement": "Binary data, type and location of embedded or linked keys, sounds and pictures written to a vCard and parsed again are unchanged; parsing never reads outside the value.", "quantifier": "every data and type, every version, every value found in a file", "why_tests_cant": "All byte strings and all (also malformed) data URIs.", "anchors": ["src/vcardtool.cpp:createPicture", "src/vcardtool.cpp:createPicturev4", "src/vcardtool.cpp:parsePicture", "src/vcardtool.cpp:createKey", "src/vcardtool.cpp:parseKey", "src/vcardtool.cpp:createSound", "src/vcardtool.cpp:parseSound"]}
{"id": "C23", "title": "Confidentiality class survives", "statement": "The secrecy class written to a 3.0 vCard is read back as the same class, and any unknown class text is read as 'no class'.", "quantifier": "each secrecy class and every class text", "why_tests_cant": "Unknown class texts are unbounded.", "anchors": ["src/vcardtool.cpp:VCardTool::createSecrecy", "src/vcardtool.cpp:VCardTool::parseSecrecy"]}
{"id": "C24", "title": "Whole-contact vCard round trip", "statement": "A contact with arbitrary names, addresses, phones, emails, organisation, note, categories and custom fields, written as a vCard and parsed again, has the same content.", "quantifier": "every contact in the representable class, every list length", "why_tests_cant": "Combination of all fields over unbounded lists and texts.", "anchors": ["src/vcardtool.cpp:VCardTool::createVCards", "src/vcardtool.cpp:VCardTool::parseVCards"]}
{"id": "C25", "title": "Email list stays duplicate free, preferred first", "statement": "After any sequence of adding and removing email addresses to a new contact, no address occurs twice; an added preferred address is the one reported as preferred email; other addresses keep their relative order.", "quantifier": "every sequence of add and remove operations", "why_tests_cant": "Histories of unbounded length.", "anchors": ["src/addressee.cpp:Addressee::addEmail", "src/addressee.cpp:Addressee::removeEmail", "src/addressee.cpp:Addressee::preferredEmail"]}
{"id": "C26", "title": "Removing an email removes it", "statement": "After removing an email address the contact no longer has that address, and all other addresses are kept.", "quantifier": "every email list the API lets a user set and every address", "why_tests_cant": "Depends on adjacent duplicates at arbitrary positions.", "anchors": ["src/addressee.cpp:Addressee::removeEmail", "src/addressee.cpp:Addressee::setEmailList"]}
{"id": "C27", "title": "Phone numbers behave like a map keyed by id", "statement": "Inserting a phone number makes it retrievable by its id with that content and leaves all other numbers untouched, inserting with an existing id replaces, removing removes; ids stay unique; a new number without visible characters is not stored.", "quantifier": "every sequence of insert and remove operations", "why_tests_cant": "Histories of unbounded length.", "anchors": ["src/addressee.cpp:Addressee::insertPhoneNumber", "src/addressee.cpp:Addressee::removePhoneNumber", "src/addressee.cpp:Addressee::findPhoneNumber"]}
{"id": "C28", "title": "Addresses behave like a map keyed by id", "statement": "Same as for phone numbers, for postal addresses: insert, replace, remove, lookup by id, unique ids; an empty address is not stored.", "quantifier": "every sequence of insert and remove operations", "why_tests_cant": "Histories of unbounded length.", "anchors": ["src/addressee.cpp:Addressee::insertAddress", "src/addressee.cpp:Addressee::removeAddress", "src/addressee.cpp:Addressee::findAddress"]}
{"id": "C29", "title": "Keys behave like a map keyed by id", "statement": "Same for cryptographic keys: insert, replace, remove, lookup by id.", "quantifier": "every sequence of insert and remove operations", "why_tests_cant": "Histories of unbounded length.", "anchors": ["src/addressee.cpp:Addressee::insertKey", "src/addressee.cpp:Addressee::removeKey", "src/addressee.cpp:Addressee::findKey"]}
{"id": "C30", "title": "Categories behave like an ordered set", "statement": "After any sequence of inserting and removing categories a category is present iff its last operation was an insert, no category occurs twice, and order is order of insertion.", "quantifier": "every sequence of operations", "why_tests_cant": "Histories of unbounded length.", "anchors": ["src/addressee.cpp:Addressee::insertCategory", "src/addressee.cpp:Addressee::removeCategory", "src/addressee.cpp:Addressee::hasCategory"]}
{"id": "C31", "title": "Custom fields behave like a map", "statement": "Reading a custom field returns the value of the last insertion for that application and name; fields of other applications and names are unaffected; the listing is sorted and without duplicates; listing and restoring gives the same fields.", "quantifier": "every sequence of insert and remove operations, every application, name and value", "why_tests_cant": "Histories of unbounded length and ambiguity of joined names.", "anchors": ["src/addressee.cpp:Addressee::insertCustom", "src/addressee.cpp:Addressee::removeCustom", "src/addressee.cpp:Addressee::custom", "src/addressee.cpp:Addressee::setCustoms", "src/addressee.cpp:Addressee::customs"]}
{"id": "C32", "title": "Lookup by type picks a matching entry", "statement": "Asking for a phone number or address of a type returns an entry having all requested flags when one exists (a request for no flags matches only entries without flags), prefers a preferred one, and returns an empty entry only if no entry matches.", "quantifier": "every list of entries and every requested type", "why_tests_cant": "All lists and flag sets.", "anchors": ["src/addressee.cpp:Addressee::phoneNumber", "src/addressee.cpp:Addressee::address"]}
{"id": "C33", "title": "Copies are independent values", "statement": "Changing a copy of a contact, address, phone number, instant-messaging address, group reference or picture changes neither the original nor any field of the copy other than the one set.", "quantifier": "every object content, every sequence of copies and setter calls", "why_tests_cant": "Sharing and detaching depends on the history of copies.", "anchors": ["src/addressee.cpp:Addressee::Private", "src/address.cpp:Address::Private", "src/phonenumber.cpp:PhoneNumber::Private", "src/impp.cpp:Impp::Private", "src/contactgroup.cpp:ContactReferencePrivate", "src/picture.cpp:PicturePrivate"]}
{"id": "C34", "title": "Contact equality is an equivalence", "statement": "Comparing contacts is reflexive, symmetric and transitive, and contacts that compare equal carry the same data in all compared fields.", "quantifier": "every pair and triple of contacts", "why_tests_cant": "Lists with repetitions of arbitrary length.", "anchors": ["src/addressee.cpp:Addressee::operator==", "src/addressee.cpp:listEquals"]}
{"id": "C35", "title": "Binary stream round trip", "statement": "Writing any contact part (parameters, email, phone, address, gender, secrecy, time zone, key, sound, organisation, custom fields, whole contact) to a binary stream and reading it back gives an equal object and leaves the rest of the stream untouched.", "quantifier": "every object content", "why_tests_cant": "All objects and all trailing stream data.", "anchors": ["src/parametermap_p.h:operator<<", "src/addressee.cpp:operator<<", "src/addressee.cpp:operator>>", "src/address.cpp", "src/phonenumber.cpp", "src/email.cpp", "src/key.cpp"]}
{"id": "C36", "title": "Splitting a full name is safe and loses no word", "statement": "Setting the name parts from any string never crashes and distributes every word of the string to exactly one of prefix, given, additional, family name and suffix.", "quantifier": "every string and every configuration of titles, prefixes and suffixes", "why_tests_cant": "All strings; the failing ones are special word combinations.", "anchors": ["src/addressee.cpp:Addressee::setNameFromString"]}
{"id": "C37", "title": "A full email address can be taken apart again", "statement": "Parsing the 'Name <address>' text produced for a contact returns that name and address; parsing any text terminates and never reads past its end.", "quantifier": "every name and address; every text", "why_tests_cant": "All strings including unbalanced quotes and brackets.", "anchors": ["src/addressee.cpp:Addressee::fullEmail", "src/addressee.cpp:Addressee::parseEmailAddress"]}
{"id": "C38", "title": "An LDIF line survives writing and reading", "statement": "Any attribute name and any value, written as an LDIF line with any line length and read back, give the same name and value.", "quantifier": "every attribute name in the LDIF alphabet, every byte string value, every line length", "why_tests_cant": "Choice between plain and base64, folding position and unfolding all interact over unbounded values.", "anchors": ["src/ldif.cpp:Ldif::assembleLine", "src/ldif.cpp:Ldif::splitLine", "src/ldif.cpp:Ldif::nextItem"]}
{"id": "C39", "title": "LDIF URL values survive", "statement": "An attribute written as a URL reference and read back gives the same URL and is flagged as URL.", "quantifier": "every URL", "why_tests_cant": "All URLs.", "anchors": ["src/ldif.cpp:Ldif::assembleLine", "src/ldif.cpp:Ldif::splitLine"]}
{"id": "C40", "title": "Feeding LDIF in pieces gives the same items", "statement": "Splitting an LDIF document at arbitrary positions and feeding the pieces one after another yields the same sequence of items as feeding it at once.", "quantifier": "every document, every way of cutting it", "why_tests_cant": "All cut positions.", "anchors": ["src/ldif.cpp:Ldif::nextItem", "src/ldif.cpp:Ldif::setLdif"]}
{"id": "C41", "title": "LDIF line ends and comments do not matter", "statement": "An LDIF document gives the same items with CR LF as with LF line ends, and inserting comment lines between lines changes nothing.", "quantifier": "every document, every position of comments", "why_tests_cant": "All documents and positions.", "anchors": ["src/ldif.cpp:Ldif::nextItem", "src/ldif.cpp:Ldif::processLine"]}
{"id": "C42", "title": "An LDIF record is read back as written", "statement": "A record with a distinguished name and any non-empty list of attributes written line by line and parsed yields one new-entry event, each attribute in order, and one end-of-entry event.", "quantifier": "every record, any number of attributes and records", "why_tests_cant": "Unbounded lists of records and attributes.", "anchors": ["src/ldif.cpp:Ldif::nextItem", "src/ldif.cpp:Ldif::processLine", "src/ldif.cpp:Ldif::assembleLine"]}
{"id": "C43", "title": "LDIF import keeps entries apart", "statement": "Importing a list of LDIF entries gives for each entry the same contact as importing that entry alone.", "quantifier": "every list of entries", "why_tests_cant": "Leaks between entries show only for particular neighbours.", "anchors": ["src/converter/ldifconverter.cpp:LDIFConverter::LDIFToAddressee", "src/converter/ldifconverter.cpp:evaluatePair"]}
{"id": "C44", "title": "LDIF export and import preserve a contact", "statement": "Exporting a contact to LDIF and importing it gives back the fields LDIF supports.", "quantifier": "every contact", "why_tests_cant": "All texts and lists.", "anchors": ["src/converter/ldifconverter.cpp:LDIFConverter::addresseeToLDIF", "src/converter/ldifconverter.cpp:LDIFConverter::LDIFToAddressee"]}
{"id": "C45", "title": "Contact group membership bookkeeping", "statement": "After any sequence of append and remove operations the members of a contact group are exactly those appended and not yet removed, in order, counts agree with the lists and indexed access returns them.", "quantifier": "every sequence of operations", "why_tests_cant": "Histories of unbounded length.", "anchors": ["src/contactgroup.cpp:ContactGroup"]}
{"id": "C46", "title": "Contact group XML round trip", "statement": "A contact group written to XML and read back is equal to the original; a list of groups comes back as the same list.", "quantifier": "every group and every list of groups", "why_tests_cant": "All contents and list lengths.", "anchors": ["src/contactgrouptool.cpp:XmlContactGroupWriter", "src/contactgrouptool.cpp:XmlContactGroupReader"]}
{"id": "C47", "title": "Malformed contact group XML is rejected", "statement": "A document whose group lacks an id or name, or with a member lacking its mandatory attribute, is rejected and no group is reported.", "quantifier": "every document (element tree)", "why_tests_cant": "All malformed documents.", "anchors": ["src/contactgrouptool.cpp:XmlContactGroupReader"]}
{"id": "C48", "title": "Address formatting shows each present field once", "statement": "Formatting an address by any address format prints each included non-empty field the format mentions, prints nothing for empty fields, and never prints an empty line unless the format asks for one.", "quantifier": "every address, every format, every style", "why_tests_cant": "All combinations of empty fields and formats.", "anchors": ["src/addressformatter.cpp:AddressFormatter::format", "src/addressformatparser.cpp:AddressFormatParser::parseElements"]}
{"id": "C49", "title": "Address format strings are parsed faithfully", "statement": "Parsing a format string yields the fields, separators and literals in order; printing the elements back gives the string for every string without invalid placeholders, and used fields are exactly those mentioned.", "quantifier": "every format string", "why_tests_cant": "All strings.", "anchors": ["src/addressformatparser.cpp:AddressFormatParser::parseElements", "src/addressformat.cpp:AddressFormat::usedFields"]}
{"id": "C50", "title": "Geo positions are always in range or invalid", "statement": "After any sequence of setter calls a valid position has latitude in [-90,90] and longitude in [-180,180]; equality of positions is an equivalence. A position made from two numbers is valid exactly if both are in range.", "quantifier": "every sequence of operations", "why_tests_cant": "Histories.", "anchors": ["src/geo.cpp:Geo"]}
{"id": "C51", "title": "Email type and preference setters", "statement": "Setting the type or preference of an email address or URL and reading it gives what was set, without changing the other parameters. The type words HOME, WORK, ... stand for the type of that name.", "quantifier": "every prior parameter content and every type", "why_tests_cant": "All prior states.", "anchors": ["src/email.cpp:Email::setType", "src/email.cpp:Email::setPreferred", "src/resourcelocatorurl.cpp:ResourceLocatorUrl::setType", "src/resourcelocatorurl.cpp:ResourceLocatorUrl::setPreferred", "src/impp.cpp:Impp::setPreferred"]}
{"id": "C52", "title": "Normalised phone numbers", "statement": "The normalised form of a phone number contains only digits and at most a leading plus, keeps all digits in order and is a fixed point of normalisation.", "quantifier": "every phone number text", "why_tests_cant": "All strings.", "anchors": ["src/phonenumber.cpp:PhoneNumber::normalizedNumber", "src/phonenumber.cpp:PhoneNumber::setNumber"]}
{"id": "C53", "title": "Legacy messaging fields keep their meaning", "statement": "Each legacy messaging field exported under its standard name is imported as an instant-messaging address of the same service; service name normalisation is idempotent and keeps unknown services.", "quantifier": "all service names", "why_tests_cant": "All names.", "anchors": ["src/vcardtool.cpp:VCardTool::processCustoms", "src/vcardtool.cpp:VCardTool::parseVCards", "src/vcardtool.cpp:VCardTool::normalizeImppServiceType"]}
{"id": "C54", "title": "A contact with data is not empty", "statement": "A contact reports being empty only if no setter ever stored anything in it; after any sequence of operations that stored data it is not empty.", "quantifier": "every sequence of operations", "why_tests_cant": "Histories.", "anchors": ["src/addressee.cpp:Addressee::isEmpty"]}
{"id": "C55", "title": "Reading garbage never invents contacts", "statement": "Text without a begin marker produces no contact.", "quantifier": "every text", "why_tests_cant": "All texts.", "anchors": ["src/vcardparser/vcardparser.cpp:VCardParser::parseVCards"]}
{"id": "C56", "title": "Converter selection of single cards", "statement": "Parsing a single card returns the first card of the file and an empty contact if there is none; drag data is accepted only when it holds at least one contact.", "quantifier": "every text", "why_tests_cant": "All texts.", "anchors": ["src/converter/vcardconverter.cpp:VCardConverter::parseVCard", "src/vcarddrag.cpp:VCardDrag::fromMimeData"]}
{"id": "C57", "title": "Real name choice", "statement": "The display name is the formatted name if set, otherwise the assembled parts, otherwise the name, otherwise the organisation; it is empty only if all are, and the assembled name contains every word of the parts in order.", "quantifier": "every contact", "why_tests_cant": "All texts.", "anchors": ["src/addressee.cpp:Addressee::realName", "src/addressee.cpp:Addressee::assembledName"]}
{"id": "C58", "title": "Quoted-printable values over several lines", "statement": "A quoted-printable value spread over several lines by soft line breaks (an '=' at the end of each line but the last) is read as one value: the concatenation of the pieces.", "quantifier": "every property, every number of pieces and every content of the pieces", "why_tests_cant": "All numbers of lines and all contents.", "anchors": ["src/vcardparser/vcardparser.cpp:VCardLineParser::parseLine", "src/vcardparser/vcardparser.cpp:VCardParser::parseVCards"]}
{"id": "C59", "title": "Setting a field changes that field only", "statement": "After setting a field of a contact, reading the field gives the value set, and reading any other field gives what it gave before.", "quantifier": "every contact, every field and every value", "why_tests_cant": "All contacts, values and pairs of fields.", "anchors": ["src/addressee.h:Addressee", "src/addressee.cpp"]}
{"id": "C60", "title": "LDIF lines are folded at the line length", "statement": "An attribute written with a line length longer than its name gives lines none of which is longer than that length.", "quantifier": "every attribute name, every value, every line length", "why_tests_cant": "Fold positions depend on the length of name and value and on the encoding chosen.", "anchors": ["src/ldif.cpp:Ldif::assembleLine"]}
{"id": "C61", "title": "A restarted LDIF parser reads like a new one", "statement": "A parser that has read any text and is started again gives for every document the items a new parser gives.", "quantifier": "every history of the parser, every document", "why_tests_cant": "Left-over state shows only for particular histories.", "anchors": ["src/ldif.cpp:Ldif::startParsing", "src/ldif.cpp:Ldif::processLine"]}
{"id": "C62", "title": "Choice of address format", "statement": "The address format of a country is the most specific one configured for the requested script and kind of address, with a usable default for every country; its required and upper-case fields are exactly those listed for the country; the format for an address is that of the country it names, by code or by name, or else of the user's country. The postal code format is the configured one.", "quantifier": "every configuration, country code, script and business preference, and address", "why_tests_cant": "the fallbacks combine four entries with two preferences and arbitrary contents of the configuration, and every text can be a country; tests look at a few countries", "anchors": ["src/addressformat.cpp: AddressFormatRepository::formatForCountry, formatForAddress", "src/addressformatscript.cpp: AddressFormatScript::detect", "src/addressformatparser.cpp: AddressFormatParser::parseFields"]}
{"id": "C63", "title": "Repeated vCard round trips do not drift", "statement": "Exporting a contact as a vCard and importing the result, any number of times in the same version, gives the same contact each time: what the first round gives is what every later round gives, except for the newly generated ids of addresses, phone numbers and keys.", "quantifier": "every contact a vCard version can carry, every version, every number of rounds and every choice of fresh ids", "why_tests_cant": "All contacts and all numbers of rounds; a test repeats a few fixed contacts once.", "anchors": ["src/vcardtool.cpp:VCardTool::createVCards", "src/vcardtool.cpp:VCardTool::parseVCards", "src/vcardtool.cpp:VCardTool::createKey", "src/vcardtool.cpp:VCardTool::parseKey"]}
{"id": "C64", "title": "Pictures, sounds and keys show what was set last", "statement": "After any sequence of setting an address, an image or raw bytes and of reading, a picture shows exactly what was set last (embedded or not, address, type, image, bytes, empty or not); likewise a sound and a key. Reading never changes what a picture shows, exports or compares equal to.", "quantifier": "every history of setter and reader calls, every start value and every image codec", "why_tests_cant": "All interleavings of setters and readers with any content; the readers store decoded data in the object.", "anchors": ["src/picture.cpp:Picture::setUrl", "src/picture.cpp:Picture::setData", "src/picture.cpp:Picture::setRawData", "src/picture.cpp:Picture::data", "src/picture.cpp:Picture::rawData", "src/picture.cpp:Picture::operator==", "src/sound.cpp:Sound::setUrl", "src/key.cpp:Key::setBinaryData"]}
{"id": "C65", "title": "The order of different properties in a vCard and unknown properties do not matter", "statement": "Two vCard texts with the same properties, in which the properties of every single name stand in the same order, give the same contact, whatever the order of different names is. A property whose name the library does not know (no group, not starting with X-) makes no difference, wherever it stands.", "quantifier": "every list of written properties, folded or not, with any names, parameters and values, every arrangement and every unknown property at every position", "why_tests_cant": "All arrangements of all property lists; a test reads a few fixed files.", "anchors": ["src/vcardparser/vcardparser.cpp:VCardParser::parseVCards", "src/vcardparser/vcardparser.cpp:VCardLineParser::parseLine", "src/vcardparser/vcard.cpp:VCard::addLine", "src/vcardtool.cpp:VCardTool::parseVCards"]}
{"id": "C66", "title": "Type labels name exactly the types that are set", "statement": "The label of a set of phone or address types names each type of the set once and nothing else, and different sets have different labels, for every translation whose single labels are different, not empty and free of '/'. The label of an address object names all types the address has. Each single type has its own label (a fixed English text handed to the translation), and a phone number counts as preferred, or as able to receive short messages, exactly when its label says \"preferred\" or \"mobile\". The label of a web address names its kind when that is exactly home, work or profile, and reads \"Other\" otherwise.", "quantifier": "every set of type flags and every translation", "why_tests_cant": "All combinations of flags and all translations; special cases combine some flags into one label.", "anchors": ["src/phonenumber.cpp:PhoneNumber::typeLabel", "src/phonenumber.cpp:PhoneNumber::typeFlagLabel", "src/address.cpp:Address::typeLabel", "src/address.cpp:Address::typeFlagLabel", "src/resourcelocatorurl.cpp:ResourceLocatorUrl::resourceLabel"]}
{"id": "C67", "title": "The list of messaging services", "statement": "The list of messaging services is in ascending order without duplicates and contains exactly the services described by a desktop file in one of the data directories, independent of the order in which directories and files are listed. Every non-empty service has a non-empty label. Every service on the list can be looked up under its name. Whatever files the user adds, the shipped services stay on the list, among them all services whose old custom fields are still understood; a shipped service has the label and icon of its own file unless the user has a file for it, which then is preferred. Shipped services have different labels, and each has an icon.", "quantifier": "every set of directories and files with any names, every service and every content of the desktop files", "why_tests_cant": "All directory contents and listing orders; a test sees one installation.", "anchors": ["src/impp.cpp:Impp::serviceTypes", "src/impp.cpp:Impp::serviceLabel", "src/impp.cpp:Impp::serviceIcon", "src/improtocols/*.desktop"]}
{"id": "C68", "title": "Contact groups through LDIF", "statement": "Exporting contacts and contact groups to one LDIF text and importing that text gives back the contacts and one group for each exported group, in order, with the same members (name and e-mail address) in the same order.", "quantifier": "all lists of contacts and of groups with any number of members; all texts of the members", "why_tests_cant": "The number of contacts, groups and members and their texts are unbounded; line folding, base64 and the member syntax interact with every text.", "anchors": ["src/converter/ldifconverter.cpp: LDIFConverter::addresseeAndContactGroupToLDIF, contactGroupToLDIF, LDIFToAddressee, evaluatePair (member)", "src/contactgroup.cpp: ContactGroup::append, ContactGroup::Data"]}
{"id": "C69", "title": "Comparison of contact groups", "statement": "Comparing contact groups with == is an equivalence, the same calls on equal groups give equal groups, and equal groups have the same data.", "quantifier": "all contact groups with any number of references and members, and all histories of calls", "why_tests_cant": "The relation ranges over all pairs and triples of groups of any size.", "anchors": ["src/contactgroup.cpp: ContactGroup::operator==, ContactReference::operator==, ContactGroupReference::operator==, Data::operator=="]}
{"id": "C70", "title": "Calls about different fields of a contact do not interfere", "statement": "After any sequence of modifying calls on a contact, each field has the data it has after the calls about that field alone; so the order of calls about different fields does not matter, and the last value or list set for a field is the one read.", "quantifier": "all sequences of modifying calls of a contact, of any length, with any arguments", "why_tests_cant": "The histories are unbounded and there are more than five thousand pairs of calls.", "anchors": ["src/addressee.cpp: all modifying members of Addressee"]}
{"id": "C71", "title": "Ids made while a vCard is read", "statement": "No two addresses, phone numbers or keys read from a text share an id, in whichever contacts they are; and nothing but the ids depends on the ids drawn: reading the same text again gives the same contacts apart from ids that were made up.", "quantifier": "all byte strings, all supplies of ids that never give an id twice, all character codecs", "why_tests_cant": "The texts and the supplies of ids are arbitrary; a test sees one run.", "anchors": ["src/vcardtool.cpp: VCardTool::parseVCards", "src/addressee.cpp: insertAddress, insertPhoneNumber, insertKey", "src/address.cpp, src/phonenumber.cpp, src/key.cpp: constructors (random ids)"]}
{"id": "C72", "title": "Languages, members and relationships over a history of calls", "statement": "After any sequence of calls that add, remove or set languages, each language is listed at most once, with the parameters the last call about it gave, and not at all if it was removed last; a language that is added again keeps its place. Members and relationships are listed once each, in the order in which they were first added.", "quantifier": "all histories of insertLang/removeLang/setLangs calls, and of setMembers/insertMember and setRelationships/insertRelationship calls, with arbitrary texts and parameters", "why_tests_cant": "The claim is about histories of any length and lists of any length; the removal loop skips an entry after each removal, which only shows for neighbouring repeated entries.", "anchors": ["src/addressee.cpp: Addressee::insertLang, removeLang, setLangs, langs", "src/addressee.cpp: Addressee::insertMember, setMembers, insertRelationship, setRelationships"]}
{"id": "C73", "title": "Time stamps written by other programs name the same moment", "statement": "A time stamp in an imported vCard (BDAY, ANNIVERSARY, REV) written in any of the ISO 8601 forms -- date with or without dashes or without year; time to the hour, minute or second, with or without colons; no zone, Z, +-hh, +-hhmm or +-hh:mm up to 16 hours -- is read as the day, time of day and offset it names, with missing parts of the time 0. It is false for the forms with fractions of a second (the time becomes midnight and counts as valid) and for truncated dates (nothing is read).", "quantifier": "every existing day, every time of day, every zone up to 16 hours, every combination of the forms", "why_tests_cant": "tests contain a few stamps; the claim ranges over every day, time, zone and combination of forms", "anchors": ["src/vcardtool.cpp: VCardTool::parseDateTime"]}
{"id": "C74", "title": "With the shipped formats, a printed address shows its parts", "statement": "Used with the address formats that come with the library, and in whatever language, printing an address of any country, in any style, shows the name, the organization and each part of the address that was filled in, each once; and a part a country's format declares required has a place in that format.", "quantifier": "all addresses, names, organizations, country codes, languages, scripts and styles", "why_tests_cant": "The tests print a dozen addresses of chosen countries; the file has formats for over two hundred countries, several of them with variants for business addresses, Latin script and languages, and addresses are arbitrary.", "anchors": ["src/addressformatrc", "src/addressformat.cpp: AddressFormatRepository::formatForCountry", "src/addressformatter.cpp: AddressFormatter::format", "src/address.cpp: Address::formatted"]}
{"id": "C75", "title": "LDIF change records are read as the changes they describe", "statement": "A document of LDIF change records (add, delete, modify, modrdn/moddn, each with any number of controls) is read, call by call of nextItem, as exactly the items it describes: for each record its dn, its controls with type, criticality and value, the kind of change, the attributes and values to add, delete or replace, or the new rdn, whether the old one is deleted and the new superior, and then the end of the entry.", "quantifier": "all documents of any number of records with any number of controls, attributes, modifications and values, folded at any width", "why_tests_cant": "The tests read two or three small documents; the claim ranges over documents of any size, over every interleaving of modifications and values, and over all values including those that must be written in base64.", "anchors": ["src/ldif.cpp: Ldif::nextItem, Ldif::processLine, Ldif::splitControl, Ldif::splitLine", "src/ldif_p.h"]}
{"id": "C76", "title": "Each attribute of an LDIF entry is imported into the field its name stands for", "statement": "Importing one LDIF entry that has a common name or a surname and no member gives exactly one contact, and every field of that contact is determined by the attributes: single-valued fields take the last value, e-mail addresses are collected once each in order, remarks become lines of the note, phone numbers keep their order and kind, home and work addresses are built from their attributes, the URL is the first valid one, the revision the last valid time stamp or the time of import, the birthday comes from year, month and day or else the last date of eight digits. No other field is filled. An entry with members gives exactly one group with those members; an entry with neither members nor a name gives nothing.", "quantifier": "all entries that can be written as LDIF, with any number of attributes in any order, of any names in any case and any byte values, all line lengths and all behaviours of the URL and country functions", "why_tests_cant": "The result depends on the order, repetition and combination of about sixty attribute names; tests exercise a few entries.", "anchors": ["src/converter/ldifconverter.cpp: LDIFConverter::LDIFToAddressee, evaluatePair", "src/addressee.cpp: setters"]}
{"id": "C77", "title": "An LDIF export only adds to the text and says whether there was something to export", "statement": "Exporting contacts and groups to LDIF leaves what was in the text before unchanged in front, and adds the text of each contact and then of each group, in order, each the same text as when it is exported alone. The return value of an export of one contact or group says whether something was written; that of a list whether the list had members.", "quantifier": "all contacts, groups and lists of them, all texts present before", "why_tests_cant": "Lists of any length with empty and non-empty members in any order.", "anchors": ["src/converter/ldifconverter.cpp: LDIFConverter::addresseeToLDIF, contactGroupToLDIF, addresseeAndContactGroupToLDIF"]}
{"id": "C78", "title": "The name and address found in a mail text", "statement": "Parsing a text with a mail address gives: for 'words <address>' the words as the name (without the quotes around it) and the address in lower case; for 'address (name)' the comments as the name and the words as the address; quoted strings and backslash pairs hide special characters, comments nest, only what comes before the first comma counts. If a quoted string, a comment or an angle bracket is not closed, the words and the address are returned as they are. Every text is of one of these forms.", "quantifier": "every text, every nesting of comments and quoted strings, every lower-casing function", "why_tests_cant": "The texts are unbounded, nest to any depth, and can end inside any construct", "anchors": ["src/addressee.cpp: Addressee::parseEmailAddress"]}
{"id": "C79", "title": "Each property of a vCard is read into the field its name stands for", "statement": "Reading a text with vCards gives one contact per card, in order, and each contact is exactly what the properties of its card say, name by name: FN is the formatted name, the five components of N are family name, given name, additional names, prefix and suffix, ORG gives organisation and department, TEL a phone number with its types, ADR the seven components of an address with its types, LABEL the label of the first address of the same types, IMPP and the X- names of messaging services the messaging addresses, other X- names custom fields (names used by other programs are translated), a property in a group goes to the field groups, and so on for every field. Names are compared without regard to case; of single-valued properties the last counts; properties with unknown names change nothing.", "quantifier": "every text and every number of cards, every list of properties with any groups, parameters and values in any order and number, every source of new ids that never repeats, every codec, URL and number conversion", "why_tests_cant": "The properties of a card can come in any combination, number and order, each with any parameters and value; a test sees a handful of cards, and a wrong index or a missed name shows only for the one property concerned", "anchors": ["src/vcardtool.cpp: VCardTool::parseVCards", "src/vcardtool.cpp: VCardTool::parseKey, parseSound, parsePicture, parseSecrecy", "src/vcardtool.cpp: normalizeImppServiceType", "src/addressee.cpp: Addressee::insert*, set*, addEmail, insertCustom"]}
{"id": "C80", "title": "A written card keeps to the properties of its vCard version", "statement": "The text written for a contact in vCard version 2.1, 3.0 or 4.0 starts with that version's number and consists of properties of that version, extensions (X-...), the contact's own field groups and, in 4.0, embedded pictures. Properties that say one thing about the contact (FN, N, UID, BDAY, REV, ...) occur at most once, N is always there in 3.0 and 4.0, and a list of contacts is written card by card. It is false that nothing else occurs in 2.1 and 3.0 (RELATED, and in 2.1 also NAME, SOURCE and IMPP are written), and false that FN, which 3.0 and 4.0 require, is always written.", "quantifier": "every contact, list of contacts, version, and both writing and exporting", "why_tests_cant": "tests look at the text of a few contacts; which properties appear depends on which of some forty fields are set, in three versions, and on the custom fields and field groups the contact brings along", "anchors": ["src/vcardtool.cpp: VCardTool::createVCards", "src/vcardtool.cpp: VCardTool::processCustoms, processAddresses, createPicture", "src/vcardparser/vcardparser.cpp: VCardParser::createVCards", "src/converter/vcardconverter.cpp: VCardConverter::createVCards, exportVCards"]}
{"id": "C81", "title": "The text representation of a contact shows its fields", "statement": "toString() of a contact lists its fields, each on a line with its label, in a fixed order, followed by its email addresses, languages, phone numbers, addresses and keys. The text of a field is shown as it is, even if it contains place markers such as %1. For contacts whose texts have no line breaks, two contacts have the same representation exactly when they agree on everything that is shown: the texts, dates, time zone, position, secrecy, pictures, sound and gender, and the number, order and shown parts of the entries of the five lists. Nothing else of the contact has an influence. The representation of a phone number should show its type and a field group its name and value.", "quantifier": "All contacts, values, translations and texts, of any length and with any number of list entries.", "why_tests_cant": "That no two different contacts look the same, and that no text of a field is taken for a place marker or for another line, is a statement about all pairs of contacts.", "anchors": ["src/addressee.cpp: Addressee::toString", "src/address.cpp: Address::toString", "src/phonenumber.cpp: PhoneNumber::toString", "src/key.cpp: Key::toString", "src/picture.cpp: Picture::toString", "src/sound.cpp: Sound::toString", "src/geo.cpp: Geo::toString", "src/timezone.cpp: TimeZone::toString", "src/secrecy.cpp: Secrecy::toString", "src/gender.cpp: Gender::toString", "src/email.cpp: Email::toString", "src/lang.cpp: Lang::toString", "src/fieldgroup.cpp: FieldGroup::toString", "src/parametermap_p.h: ParameterMap::toString"]}
{"id": "C82", "title": "A full name is divided by the known and the configured words", "statement": "A name set from one text is divided like this: leading titles become the prefix, the last word that is not a suffix (with a family name prefix such as 'van' before it) the family name, trailing suffixes the suffix, the first word in between the given name and the others the additional names. 'Family, Given' is read with the family name first. Titles, suffixes and family name prefixes are the built-in ones (titles and suffixes translated) and the configured ones; an empty configured entry counts for nothing, no configured word takes a built-in one away, and configured words that do not occur in the text make no difference. A configured family name prefix is put before the family name.", "quantifier": "All texts of any number of words, all configurations, translations and contacts.", "why_tests_cant": "Names of any number of words, and any configuration and language, must be divided correctly; the library's tests set two names without titles and commas.", "anchors": ["src/addressee.cpp: Addressee::setNameFromString", "src/addresseehelper.cpp: AddresseeHelper::initSettings, containsTitle, containsPrefix, containsSuffix, treatAsFamilyName"]}
{"id": "C83", "title": "No text of a contact gets out of its line in an exported vCard", "statement": "Whatever a contact's texts are (notes, names, addresses, numbers ... with line breaks, colons, BEGIN:VCARD or anything else in them), the vCard text written for a list of contacts consists of exactly one card per contact, every line in it is one of the properties the contact is written with, no text of a contact starts a line of its own, begins or ends a card or adds an entry, and reading the text gives exactly one contact per contact written.", "quantifier": "all lists of contacts, all texts in all their fields, all vCard versions, exporting or not, all encoders", "why_tests_cant": "An injected line needs one particular text in one particular field; tests try a few texts in a few fields.", "anchors": ["src/vcardparser/vcardparser.cpp: VCardParser::createVCards, addEscapes", "src/vcardtool.cpp: VCardTool::createVCards, processAddresses, processCustoms", "src/converter/vcardconverter.cpp: VCardConverter::createVCards, parseVCards"]}
{"id": "C84", "title": "The letter case of the names in a vCard does not matter", "statement": "Two texts of a vCard whose properties correspond one by one, with the same values and parameter values, and whose property names, parameter names and BEGIN/END lines differ in letter case only, are read as the same contact.", "quantifier": "All lists of well-formed properties (folded in any way, any values, any parameters, quoted or not), all respellings of their names and of the markers, all environments.", "why_tests_cant": "A test respells a few known names; the claim is about every property with every parameter and every respelling, and the reader sorts the lines of a card by name, case sensitively, before it interprets them.", "anchors": ["src/vcardparser/vcardparser.cpp: VCardParser::parseVCards", "src/vcardparser/vcard.cpp: VCard::addLine", "src/vcardtool.cpp: VCardTool::parseVCards", "src/vcardparser/vcardline.cpp: VCardLine::parameter"]}
{"id": "C85", "title": "The order of the attributes of an LDIF entry about different things, the letter case of their names and unknown attributes do not matter", "statement": "Two LDIF entries that have the same attributes in the same order for every topic (a name, the e-mail addresses, the phone numbers, the home street, ...) are imported as the same contact or the same group, whatever the order of attributes about different topics, the letter case of attribute names, attributes of unknown names, the distinguished name and the width of the lines.", "quantifier": "All pairs of well-formed entries with any attributes and values, all line widths, all environments.", "why_tests_cant": "There are some seventy attribute names with effects on some thirty fields; a test compares a few orders, the claim is about all permutations, respellings and insertions.", "anchors": ["src/converter/ldifconverter.cpp: LDIFToAddressee, evaluatePair", "src/ldif.cpp: Ldif::nextItem"]}
{"id": "C86", "title": "Ids made up by the library do not show in exports", "statement": "Contacts that differ only in the ids of their addresses, phone numbers and keys are written as exactly the same vCard text, in every version and for both purposes, and as the same LDIF text, whatever ids are made up while writing. So a vCard file whose cards have UIDs, read twice (with different random ids) and written again, gives the same text both times: exports are reproducible.", "quantifier": "all lists of contacts, versions, export flags, environments, id supplies and texts", "why_tests_cant": "The ids are random; a test sees one supply of ids and a few contacts, and cannot show that no id leaks into any line of any export.", "anchors": ["src/vcardtool.cpp:VCardTool::createVCards", "src/converter/ldifconverter.cpp:LDIFConverter::addresseeToLDIF", "src/addressee.cpp:Addressee::address", "src/addressee.cpp:Addressee::phoneNumber", "src/address.cpp:Address::id", "src/phonenumber.cpp:PhoneNumber::id", "src/key.cpp:Key::id"]}
{"id": "C87", "title": "What a script writes to a property of a contact is what it reads back", "statement": "A contact offers properties by name to QML and scripts. Every declared property can be read; a value is accepted exactly for the properties that can be written and only with the property's own type, and otherwise the contact stays as it is. After any sequence of accepted and refused writes to a contact with any history, reading a property gives the value written to it last (or one that compares equal to it), and properties that do not show what was written keep their value.", "quantifier": "for every contact history, every sequence of property names and values written, and every property name read", "why_tests_cant": "Forty-three properties share fields, custom entries and the flag isEmpty; a test writes one property and reads it, and cannot show that no sequence of other writes disturbs it.", "anchors": ["src/addressee.h: Q_PROPERTY declarations", "src/addressee.cpp: Addressee::setAnniversary, Addressee::blogFeed, Addressee::setBirthdayProperty, Addressee::setUrl"]}
{"id": "C88", "title": "The map link of an address leads to its place", "statement": "Address::geoUri of an address with a valid position is a geo: link with latitude and longitude, each written as a number that is right to six digits, and without anything else. Without a position it is a search for the street, locality, postal code and country of the address; an empty address has no link. The post office box, the label, the type and the id of an address never get into the link.", "quantifier": "for every address, every history of its position, every script, country lookup and language with the shipped formats", "why_tests_cant": "Positions are all floats in range and addresses all combinations of texts and countries; the test looks at two links.", "anchors": ["src/address.cpp: Address::geoUri", "src/addressformatter.cpp: AddressFormatter::format", "src/geo.cpp: Geo::isValid"]}
{"id": "C89", "title": "What a round trip makes of any text", "statement": "Whatever texts a contact holds, writing it as a version 3.0 or 4.0 card and reading that card back gives the same contact with one fixed change made to each text: half a surrogate pair becomes a question mark, the letters n and N directly behind a backslash become line feeds, the letter r directly behind a backslash becomes a carriage return; a component of the name, of an address, of the categories or an organization that ends in a backslash is joined with the next component by the separator, which takes the place of the backslash; addresses without components are left out; and no other character of any field is changed, dropped or moved to another field. A single text is unchanged exactly when it is well-formed UTF-16 and has no backslash directly before n, N or r, and a second round trip never changes a text again.", "quantifier": "every list of contacts (any number of entries of every kind, any texts), both versions, every source of fresh identifiers; every text of any length", "why_tests_cant": "Which texts are damaged depends on the interplay of two escaping layers, the UTF-8 conversion and the unescaping on the way back, in each of some forty fields; a test shows single texts that survive or not, not that the list of damages is complete.", "anchors": ["src/vcardtool.cpp: VCardTool::createVCards, VCardTool::parseVCards", "src/vcardparser/vcardparser.cpp: VCardParser::createVCards, addEscapes, removeEscapes"]}
{"id": "C90", "title": "A contact converted between vCard versions, any number of times, keeps exactly what all those versions can keep", "statement": "Exporting a contact and importing the text, again and again, each time in a version of one's choice (2.1, 3.0 or 4.0), gives a contact whose every field is told by the set of versions it went through: names of the person, e-mail addresses, phone numbers, postal addresses, notes, organizations, titles, roles, URLs, relationships, custom fields, the revision and the uid survive every sequence; the text of name(), the mail program and the sounds are lost as soon as version 4.0 is among them; nicknames, categories, sort string and product id as soon as 2.1 is; the secrecy is left only if all were 3.0; gender, kind, languages, death date, calendar URLs, members, client ids and the positions of addresses only if all were 4.0. Order and repetition of the versions do not matter, except that the last one decides how the types of phone numbers are spelled in their parameters.", "quantifier": "every sequence of versions of any length, every contact that each of them can carry, every choice of new ids", "why_tests_cant": "sequences of conversions have no bound and every field interacts with every version; a test converts a few contacts once or twice", "anchors": ["src/vcardtool.cpp: VCardTool::createVCards, VCardTool::parseVCards", "src/converter/vcardconverter.cpp: VCardConverter::createVCards, VCardConverter::parseVCards"]}
{"id": "C91", "title": "Importing a file this library wrote and exporting it again gives the same bytes", "statement": "Writing contacts as vCards of a version, reading that text and writing the contacts read in the same version gives exactly the same text, byte for byte, for any number of contacts in the file and any number of rounds; so storing an unchanged contact again does not change its file. Exporting the contacts read with exportVCards gives exactly the text that exporting the contacts themselves would have given.", "quantifier": "every list of contacts the version can carry, every version, every number of rounds, every choice of new ids", "why_tests_cant": "the order of lines, entries without text, spelled-out types and the order of field groups all have to agree for every combination of filled fields; a test compares a few files", "anchors": ["src/vcardtool.cpp: VCardTool::createVCards, VCardTool::parseVCards", "src/vcardparser/vcardparser.cpp: VCardParser::createVCards", "src/vcardparser/vcard.cpp: VCard::addLine, VCard::identifiers"]}
{"id": "C92", "title": "Files exported in different versions can be joined", "statement": "Appending vCard files that were exported in different versions to one text loses nothing: reading that text gives every contact of every file, in order, each with what its own version carries, with all newly generated ids different from each other.", "quantifier": "any number of files, each in any version, each with any number of contacts that its version can carry (the class of C24), every choice of new ids", "why_tests_cant": "any sequence of versions and contacts; what one card leaves behind in the reader (version, encodings, pending lines, counters) must not reach the next one", "anchors": ["src/vcardtool.cpp:VCardTool::createVCards", "src/vcardtool.cpp:VCardTool::parseVCards", "src/vcardparser/vcardparser.cpp:VCardParser::parseVCards", "src/vcardparser/vcardparser.cpp:VCardParser::createVCards"]}
{"id": "C93", "title": "Entries without content leave no trace in an exported vCard", "statement": "Entries of a contact that have no content - titles, roles, nicknames, relationships, languages, members, web and messaging addresses, e-mail addresses, phone numbers, grouped fields with an empty text, organizations without text and department, addresses without any component, invalid calendar addresses, keys without data, empty further pictures and sounds, custom fields without a value - leave no trace in an exported vCard, whatever parameters they have: the text is byte for byte that of the contact without them. Such a contact is read back without these entries and then written to the same bytes again.", "quantifier": "every list of contacts, every version, both exports (with internal or public names of custom fields)", "why_tests_cant": "Every field of every kind, with any parameters and any neighbours, in each version.", "anchors": ["src/vcardtool.cpp:VCardTool::createVCards", "src/vcardparser/vcardparser.cpp:VCardParser::createVCards"]}
{"id": "C94", "title": "Changing one field of a contact changes only that field's lines in the exported vCard", "statement": "Two contacts that agree in all fields but one are exported as texts with the same property lines in the same order, except for the lines of the property that field is written as (the title as TITLE, the phone numbers as TEL, the department as ORG, the addresses as ADR and LABEL, ...). In particular a call of the API that is about one field leaves all other lines of the export as they were, byte for byte. A field with one property changes one contiguous piece of the text; a field that a version of vCard does not have changes nothing.", "quantifier": "all pairs of contacts that differ in one field, all fields, all versions, createVCards and exportVCards, all calls of the API", "why_tests_cant": "a test compares a few exports; that no field leaks into a line of another one, or shifts its place, has to hold for every pair of contacts", "anchors": ["src/vcardtool.cpp: VCardTool::createVCards", "src/vcardparser/vcardparser.cpp: VCardParser::createVCards", "src/addressee.cpp"]}
{"id": "C95", "title": "A cut-off vCard file gives exactly its complete contacts", "statement": "Contacts are written as one vCard text and the text is cut off after any number of bytes (the program crashes while the file is written, a transfer breaks off). Reading what is there ends and gives exactly the contacts whose END:VCARD is still in the text, in order and each as it would be read from the whole file; nothing is made of the contact in which the cut falls. For any text from elsewhere that has no quoted-printable soft line break, the cards read from the part before the cut are the first cards of the whole text, as many as the part has lines starting with END:VCARD.", "quantifier": "all versions, all lists of contacts the version can carry, all positions of the cut; all texts without quoted-printable soft line break, all positions of the cut", "why_tests_cant": "A test cuts a few files at a few places; a crash can fall on any byte of any file: inside a folded line, a CR LF, a multi-byte character, base64 data or the end marker itself.", "anchors": ["src/vcardparser/vcardparser.cpp: VCardParser::parseVCards, fetchAnotherLine", "src/vcardparser/vcardparser.cpp: VCardParser::createVCards", "src/converter/vcardconverter.cpp: VCardConverter::parseVCards, createVCards"]}
{"id": "C96", "title": "A cut-off LDIF file gives its complete entries and at most one partial one", "statement": "Take an LDIF text that is cut off after any number of characters, and let its first part end with an empty line (which ends an entry) with no folded line going on after it. Import of the cut-off text gives the same contacts and groups as the first part, in the same order, followed by contacts and groups that are also in the import of the whole text, and by at most one contact or group more: the one whose entry was cut. Import never fails. For an exported list of contacts, every contact whose text is before the cut is there, with the fields that survive a whole file. Where the text goes on with a folded line after the empty line, this is false: the contact before the empty line disappears.", "quantifier": "every first part ending in an empty line, every rest and every place where it is cut; every list of contacts and every length kept of their export; every environment (locale, countries, time zones) and every supply of new ids", "why_tests_cant": "A disk-full or interrupted download can cut the file at any character, inside a name, a base64 value, a folded line or a UTF-8 sequence; tests try a few places in one file.", "anchors": ["src/converter/ldifconverter.cpp: LDIFConverter::LDIFToAddressee", "src/ldif.cpp: Ldif::nextItem, Ldif::processLine, Ldif::endLdif", "src/converter/ldifconverter.cpp: LDIFConverter::addresseeToLDIF"]}
{"id": "C97", "title": "An LDIF export shows each field in its own attributes and gives nothing else away", "statement": "Two contacts that agree in all fields but one are exported to LDIF as attribute lines that are the same, in the same order, except for the attributes of that field (the title as title, the nickname as nickname, xmozillanickname and mozillanickname, the phone numbers as telephonenumber, homephone, mobile, ...). So a call of the API about one field leaves all other attributes as they were. Fields that LDIF has no attribute for (categories, confidentiality, keys, pictures, positions, messaging addresses, further names, ...) have no influence at all on the text: whatever they hold, the export is the same.", "quantifier": "every two contacts with content, every set of fields in which they differ, every call of the API, every environment (countries, URLs)", "why_tests_cant": "The claim is about pairs of contacts: that no value of one field ever shows in, or suppresses, an attribute of another, for all contents of all 45 fields. A test sees a few exported texts.", "anchors": ["src/converter/ldifconverter.cpp: LDIFConverter::addresseeToLDIF, ldif_out"]}
{"id": "C98", "title": "Different contacts are exported as different vCards, equal contents as equal ones", "statement": "Two lists of contacts are written as the same vCard text if and only if they have the same length and a card of that version carries the same of each contact and its counterpart. So a program may compare or hash exported texts to find out whether a contact changed: two different contents are never written as the same text (no text of one field can look like another field), and what a version does not carry - ids of addresses and phone numbers, the changed flag, fields the version does not have - never makes the text differ.", "quantifier": "all lists of contacts that the version can carry (Readable), all versions, every environment", "why_tests_cant": "Injectivity is a statement about all pairs of contacts; a test compares the texts of a few.", "anchors": ["src/vcardtool.cpp: VCardTool::createVCards", "src/vcardparser/vcardparser.cpp: VCardParser::createVCards", "src/converter/vcardconverter.cpp: VCardConverter::createVCards"]}
{"id": "C99", "title": "A broken vCard in a file does not damage the cards after it", "statement": "If an export was interrupted (at any byte) and the file was later continued with a line end and another export, reading the file gives the contacts whose end was written and then every contact of the second export, each as from its own file; nothing of the unfinished contact is mixed into another one. The same holds for any text that ends with a line end, followed by any text that starts with a begin marker. Without a line end at the joint only the first card after it can be damaged; complete texts after that are read as on their own.", "quantifier": "all texts, all lists of contacts, all byte positions of the break, all versions, codecs and id streams", "why_tests_cant": "The break can be at any byte of any text; a test shows a few positions in one file.", "anchors": ["src/vcardparser/vcardparser.cpp:VCardParser::parseVCards", "src/vcardtool.cpp:VCardTool::parseVCards", "src/converter/vcardconverter.cpp:VCardConverter::parseVCards"]}
{"id": "C100", "title": "How the lines of a vCard are folded, and empty lines, do not matter", "statement": "Two vCard texts that have the same logical lines (continuation lines joined, empty lines left out) are read as the same contacts, wherever the lines are folded and whatever empty lines there are. An empty line put between any two lines makes no difference.", "quantifier": "all texts (without quoted-printable soft line breaks, begin and end markers not folded), all foldings, all positions of empty lines, codecs and id streams", "why_tests_cant": "A text can be folded in exponentially many ways; programs fold at different widths, and a test has one folding.", "anchors": ["src/vcardparser/vcardparser.cpp:VCardParser::parseVCards"]}
{"id": "C101", "title": "A broken LDIF text does not damage the entries after it", "statement": "If an LDIF text of any kind (broken lines, change records, foreign data, a file cut off in the middle) is followed by an empty line and then by properly written entries, the import gives what the first text gives on its own, followed by what each of the entries gives on its own; only the birthday of an entry that does not state all three parts of it may come from the text before. Two line ends after a text that is cut off anywhere make it complete and change nothing of what it gives.", "quantifier": "all texts ending with an empty line, all texts cut off anywhere, all lists of proper records (any attributes and values, any line length), all UUID sequences and environments", "why_tests_cant": "The text before can leave the parser in any state; tests try a few broken files only.", "anchors": ["src/ldif.cpp: Ldif::nextItem, Ldif::processLine, Ldif::endLdif", "src/converter/ldifconverter.cpp: LDIFConverter::LDIFToAddressee"]}
{"id": "C102", "title": "Comments in an LDIF file do not change what is imported", "statement": "Comment lines put anywhere into a file of properly written entries (in the first line, between the lines of an entry, between entries, at the end) change nothing of the contacts and groups imported from it.", "quantifier": "all lists of proper records, all line lengths, all ways of putting comment lines (any content) before any of the lines or at the end", "why_tests_cant": "All positions and contents of comments; the parser itself treats some of them wrongly (C41), and only the import as a whole makes up for it.", "anchors": ["src/ldif.cpp: Ldif::nextItem, Ldif::processLine", "src/converter/ldifconverter.cpp: LDIFConverter::LDIFToAddressee, evaluatePair"]}
{"id": "C103", "title": "How the lines of an LDIF file are folded does not matter", "statement": "An LDIF document with LF line ends gives the same items (line numbers aside) as the document with its folds taken out, whatever it contains and wherever the folds are (within names, values, base64, comments; with spaces or tabs), as long as no empty line is continued. So two files that differ only in how their lines are folded give the same contacts and groups.", "quantifier": "all documents without carriage returns in which no empty line is continued, all ways to fold them", "why_tests_cant": "All texts and all positions of folds.", "anchors": ["src/ldif.cpp: Ldif::nextItem", "src/converter/ldifconverter.cpp: LDIFConverter::LDIFToAddressee"]}
{"id": "C104", "title": "How the value of an LDIF attribute is written does not matter", "statement": "Importing an LDIF file gives the same contacts and groups whichever of the ways LDIF allows is chosen for each attribute: the value as it is, in base64, left out when empty, with white space before the colon, after the colon any number of spaces, lines folded anywhere, any number of empty lines between the entries.", "quantifier": "all lists of properly formed entries of any length, with any attributes and values, and all ways of writing each of their lines", "why_tests_cant": "Entries, values and the combinations of spellings within a file are unbounded.", "anchors": ["src/ldif.cpp: Ldif::splitLine, Ldif::processLine, Ldif::nextItem", "src/converter/ldifconverter.cpp: LDIFToAddressee"]}
{"id": "C105", "title": "How the parameters of a vCard property are written does not matter", "statement": "A vCard whose properties have the same name, the same value and, for every parameter, the same values gives the same contact, however the parameters are written: values in one list with commas or each with the name repeated, with or without quotes, the name of the parameter in any letter case, types and encodings without a name as in version 2.1, parameters of different names in any order.", "quantifier": "every vCard text made of well-formed lines, every property, every list of parameters and every way of spelling each of them, every codec and time environment", "why_tests_cant": "the spellings combine freely over any number of parameters and values; the line scanner is a state machine whose result must not depend on the path taken", "anchors": ["src/vcardparser/vcardparser.cpp:VCardLineParser::parseLine", "src/vcardparser/vcardparser.cpp:VCardLineParser::addParameter", "src/vcardparser/vcardline.cpp:VCardLine::addParameter"]}
{"id": "C106", "title": "The encoding and the character set of a text in a vCard do not matter", "statement": "A text property of a vCard gives the same contact whether its text is written as it is in UTF-8 (with or without escaped commas and line ends), as 8bit text, in quoted-printable or in base64, and whether in UTF-8 or in another character set that the property names and that can be decoded. A text in a character set that cannot be decoded is taken for UTF-8; a property in an encoding that is not known has an empty text.", "quantifier": "every vCard text made of well-formed lines, every text, every encoding and character set of each property, every spelling of the parameters (C105), every codec and time environment", "why_tests_cant": "any text in any combination of encodings and character sets over any number of properties", "anchors": ["src/vcardparser/vcardparser.cpp:VCardLineParser::parseLine", "src/vcardparser/vcardparser.cpp:removeEscapes", "src/vcardtool.cpp:VCardTool::parseVCards"]}
{"id": "C107", "title": "Going through a vCard makes no difference to an LDIF export", "statement": "Contacts that a version of the vCard format can carry are exported as vCards and imported again. The LDIF export of the imported contacts is then the same text, to the letter, as the LDIF export of the original contacts, whatever text it is appended to. Asking the imported contact for the phone number or the address of a type (or several) that has a name gives what the original contact gives. This holds unless version 2.1 drops a nick name or a department is lost because there is no organization to write it with.", "quantifier": "all lists of contacts the version can carry, all three versions, all ways to give out fresh ids, all texts the export is appended to, all combinations of types that have a name", "why_tests_cant": "it combines two formats: every field that the LDIF export looks at must survive the vCard, for every text and every combination of types and preferences; a test fixes one contact", "anchors": ["src/vcardtool.cpp VCardTool::createVCards/parseVCards", "src/converter/ldifconverter.cpp LDIFConverter::addresseeToLDIF", "src/addressee.cpp Addressee::phoneNumber(type)/address(type)"]}
{"id": "C108", "title": "Comparing a contact with what is read back from its vCard", "statement": "A contact that a version of the vCard format can carry, exported and imported again, compares equal (operator==) with the original, in either order.", "quantifier": "all contacts the version can carry, all three versions, all ways to give out fresh ids", "why_tests_cant": "the comparison looks at some forty fields, in lists in any order, and every one of them must come through the text of every version for every value; a test compares one contact", "anchors": ["src/addressee.cpp Addressee::operator==", "src/addressee.cpp listEquals", "src/vcardtool.cpp VCardTool::createVCards/parseVCards", "src/phonenumber.cpp PhoneNumber::operator==", "src/address.cpp Address::operator==", "src/key.cpp Key::operator=="]}
{"id": "C109", "title": "Going through the binary stream makes no difference to the exports", "statement": "Contacts are put on a QDataStream (drag and drop, caches) and read from it again. The vCards exported from the contacts read, in every version and for both kinds of export, are byte for byte those of the original contacts, and so is the LDIF text.", "quantifier": "all lists of contacts, all three vCard versions, both kinds of export, all data that follows on the stream", "why_tests_cant": "every field of every contact must come through the stream in the right order and with its exact value as far as an export shows it; a test fixes one contact", "anchors": ["src/addressee.cpp operator<<(QDataStream &, const Addressee &)/operator>>", "src/picture.cpp operator<<(QDataStream &, const Picture &)/operator>>", "src/resourcelocatorurl.cpp operator<<", "src/vcardtool.cpp VCardTool::createVCards", "src/converter/ldifconverter.cpp LDIFConverter::addresseeToLDIF"]}
{"id": "C110", "title": "An imported LDIF export is exported again as it was", "statement": "Contacts exported to LDIF, imported from that text and exported again give the same text. The one thing that changes is the time of the last change in entries that had none: they get the time of the import.", "quantifier": "all lists of contacts LDIF can express (no contact with a birthday before one without a full one), all times of import, all identifiers given to new objects, all functions outside the library", "why_tests_cant": "A test compares the texts for a few contacts; that nothing drifts over repeated exports and imports is a claim about all contacts and all their fields.", "anchors": ["src/converter/ldifconverter.cpp: LDIFConverter::addresseeToLDIF", "src/converter/ldifconverter.cpp: LDIFConverter::LDIFToAddressee", "src/converter/ldifconverter.cpp: evaluatePair"]}
{"id": "C111", "title": "What a program builds with calls a vCard can carry comes back from a vCard", "statement": "Make a contact and call any modifying functions on it, in any number and order (setters, insertions, replacements, removals), each with arguments that a vCard version can carry: texts that can be encoded, complete dates, and so on. Then the contact can be exported to that version and the text read back gives exactly one contact with the content the calls have put there; the same holds for a list of contacts built this way. Conditions on the arguments alone do not quite suffice: a second preferred e-mail address changes places with the first when read, and a title (role, nick name, organization) set to the empty text stays in the list but is not there after reading.", "quantifier": "all histories of modifying calls with fitting arguments, of any length; all three versions; all codecs, time zones and number formats; any number of contacts", "why_tests_cant": "a history is a free sequence of some seventy different calls, and lists, maps and compound values are built up step by step; a test exports contacts built in a handful of ways", "anchors": ["src/addressee.cpp Addressee::setUid … Addressee::insertCustom", "src/vcardtool.cpp VCardTool::createVCard, VCardTool::parseVCards"]}
{"id": "C112", "title": "A vCard file of another program, once imported, no longer changes", "statement": "When a vCard text of whatever program and version is imported and each of its properties says something that version v can carry (no characters that cannot be written, parameters that can be written, no two preferred e-mail addresses, labels that belong to one address), then exporting the imported contacts in version v and importing the export gives the same contacts in the same order, and every later export is the same text byte by byte. An empty UID and the service name parameter of a messaging address are not kept.", "quantifier": "all vCard texts whose properties can be carried, all versions exported to, all codecs and URL functions, all ids made up", "why_tests_cant": "Any program can have written the file: any names, spellings, parameters, order and number of properties; a test shows it for a few files.", "anchors": ["src/vcardtool.cpp: VCardTool::parseVCards, createVCards", "src/vcardparser/vcardparser.cpp: VCardParser::parseVCards", "src/converter/vcardconverter.cpp: VCardConverter::parseVCards, exportVCards"]}
{"id": "C113", "title": "Contacts imported from LDIF come back from a vCard", "statement": "When an LDIF file is imported, each attribute of its contacts being something the vCard version can carry (no characters that cannot be written, no empty uid, title, organization or e-mail address, a year of birth of at most four digits), then exporting the contacts as vCards and importing these gives the same contacts in the same order, and exporting them again gives the same vCards byte for byte. If also no contact has a department without an organization, or a nick name in version 2.1, then exporting them as LDIF gives the same LDIF as exporting the contacts first imported. An empty uid, a year of five digits and a department without an organization are not kept.", "quantifier": "every list of LDIF entries (contacts and groups, attributes of any kind, number and order, any line length), every vCard version, every codec, URL and country environment, every supply of distinct identifiers", "why_tests_cant": "any number of entries with any attributes, through two formats with different escaping, folding and vocabularies", "anchors": ["src/converter/ldifconverter.cpp:LDIFConverter::LDIFToAddressee", "src/converter/ldifconverter.cpp:LDIFConverter::addresseeToLDIF", "src/converter/vcardconverter.cpp:VCardConverter::exportVCards", "src/converter/vcardconverter.cpp:VCardConverter::parseVCards"]}
{"id": "C114", "title": "Every field of an imported contact comes from the properties about it alone", "statement": "When two vCards have the same properties about a field - under the names it is read from, in the same order among themselves - the contacts imported from them have the same data in that field, whatever other properties the cards have, where they stand and how the lines are folded. A field that no property is about is as in a new contact. A property added to a card, at whatever place, changes only the fields it is about; a property in a group (item1.TEL) that is not an address is about the list of grouped properties only.", "quantifier": "every two vCards of any number of well-formed properties, every field of a contact", "why_tests_cant": "Any combination of properties with any contents in any order; a test can try some combinations only.", "anchors": ["src/vcardtool.cpp:VCardTool::parseVCards", "src/vcardparser/vcardparser.cpp:VCardParser::parseVCards", "src/addressee.cpp:Addressee"]}
{"id": "C115", "title": "Editing one thing in an exported vCard changes only that thing", "statement": "A program exports a contact as a vCard, another program edits the text - adds properties, removes some, moves them, folds the lines otherwise - and the text is imported again. Every field no edited property is about comes back exactly as it would from the unedited text: for a contact the version can carry, with the data that was exported. In particular properties put in at any line end that is not followed by a continuation line change the fields they are about and no other. The text of every contact a vCard can carry is such a sequence of properties.", "quantifier": "every contact a vCard of the version can carry, the three versions, every place for the added properties, every list of (possibly folded) properties before and after the edit, every field, every supply of identifiers", "why_tests_cant": "The places, the properties and the fields multiply; a property that disturbs an unrelated field only in some order or next to one particular neighbour, or a continuation line torn from its property, is found only by the right sample.", "anchors": ["src/vcardparser/vcardparser.cpp: VCardParser::parseVCards, VCardParser::createVCards", "src/vcardtool.cpp: VCardTool::parseVCards, VCardTool::createVCards", "src/converter/vcardconverter.cpp: VCardConverter::parseVCard, VCardConverter::exportVCard"]}
{"id": "C116", "title": "Every field of a contact imported from LDIF comes from the attributes about it alone", "statement": "Two LDIF entries of contacts with the same attributes about a field (in the same order) give contacts with the same data in that field, whatever else the entries contain, wherever it stands, however wide the lines are. The home address and the business address come from different attributes. A field without attributes is as in a new contact. An attribute put into an entry, at whatever place, changes the field it is about and no other.", "quantifier": "every two proper entries with a name and without members, every field, every width of lines, every place of an added attribute, every supply of identifiers and time of import", "why_tests_cant": "Every attribute would have to be combined with every other and every order; an attribute that disturbs an unrelated field only after a certain other one is found only by the right sample.", "anchors": ["src/converter/ldifconverter.cpp: LDIFConverter::LDIFToAddressee, evaluatePair", "src/ldif.cpp: Ldif::nextItem"]}
{"id": "C117", "title": "Editing one thing in an exported LDIF entry changes only that thing", "statement": "A contact is exported with LDIFConverter::addresseeToLDIF, the entry is edited by hand or by another program (attributes left out, added, changed or moved, lines folded otherwise, another distinguished name), and imported with LDIFConverter::LDIFToAddressee. Every field of the imported contact, and each of its home and business address, is the one the unedited export gives, which for the fields LDIF supports is that of the exported contact, unless an attribute about that field was edited.", "quantifier": "every contact LDIF can express, every edited entry of writable attributes that is no group and still has a name, every line length, every moment of the import and every environment of the codecs", "why_tests_cant": "tests import fixed files; that no attribute of any value, put anywhere in any export, reaches another field is a claim about all contacts and all edits", "anchors": ["src/converter/ldifconverter.cpp: LDIFConverter::addresseeToLDIF, LDIFConverter::LDIFToAddressee, evaluatePair", "src/ldif.cpp: Ldif::assembleLine, Ldif::nextItem"]}
{"id": "C118", "title": "A contact group file that was not written to its end gives exactly its complete groups and an error", "statement": "If a list of readable groups is written as XML and only a beginning of the file survives (at any point), reading it with ContactGroupTool::convertFromXml returns false, the groups already in the list passed in stay, and exactly the groups that are completely in the file are appended, in their order; nothing of the group that was cut is added. A cut file with one group is always rejected.", "quantifier": "all lists of readable groups, all lists passed in, all points where the file may stop, all white space and comments between the tags", "why_tests_cant": "The point where the file stops and the number, kinds and texts of the groups are unbounded; a test cuts one file at a few places.", "anchors": ["src/contactgrouptool.cpp: XmlContactGroupReader::read", "src/contactgrouptool.cpp: XmlContactGroupReader::readGroup", "src/contactgrouptool.cpp: XmlContactGroupWriter::write", "src/contactgrouptool.cpp: ContactGroupTool::convertFromXml"]}
{"id": "C119", "title": "Reading a contact group file only adds members to the group, also when it fails", "statement": "Whatever the document, after ContactGroupTool::convertFromXml(device, group) the members the group had before are still there, in front and in order. If the call succeeds the group is the one read. If the document's first element is not a group with an identifier and a name, the group is as it was. If a written group was cut, the call fails and leaves the group with the identifier and name of the file, its own members and the first members of the file, as many as have their opening tags in it. Reading a list of groups keeps the groups in the list passed in, in front, and what it adds and returns does not depend on them.", "quantifier": "all groups, all documents (token sequences, with or without a syntax error), all points where a written file may stop", "why_tests_cant": "Ranges over all documents and all groups passed in; the state after a failed call depends on where in the document the failure is.", "anchors": ["src/contactgrouptool.cpp: XmlContactGroupReader::read", "src/contactgrouptool.cpp: XmlContactGroupReader::readGroup", "src/contactgrouptool.cpp: ContactGroupTool::convertFromXml"]}
{"id": "C120", "title": "The order of attributes and of different kinds of members in a contact group file, and unknown attributes, do not matter", "statement": "Two contact group files with the same tags except for the order of the attributes in a tag, attributes the library does not know, white space and comments give the same group (or are both rejected), and the same list of groups with the same return value. Within a group, the references to contacts, the references to groups and the data entries may be mixed in any way: only their order among their own kind counts.", "quantifier": "all documents (token sequences, with or without a syntax error), all groups and lists passed in, all reorderings", "why_tests_cant": "Ranges over all documents and all reorderings of them; a test has a few.", "anchors": ["src/contactgrouptool.cpp: XmlContactGroupReader::read", "src/contactgrouptool.cpp: XmlContactGroupReader::readGroup", "src/contactgrouptool.cpp: XmlContactGroupReader::readData", "src/contactgrouptool.cpp: XmlContactGroupReader::readContactReference", "src/contactgrouptool.cpp: XmlContactGroupReader::readContactGroupReference"]}
{"id": "C121", "title": "Changing a member of a contact group in its place changes that member's field only", "statement": "After any history of calls on the members of a group - group.contactReference(i).setUid(...), group.data(i).setEmail(...) and the like - the identifier, the name and the numbers of members are as before, and each member is what the calls on this member alone have made of it. Each field of a reference has the value given to it last.", "quantifier": "all groups, all histories of calls on members, all indexes, whoever shares the objects", "why_tests_cant": "Histories of unbounded length over any number of members; the effect depends on which objects are shared at each call.", "anchors": ["src/contactgroup.cpp: ContactGroup::contactReference, ContactGroup::contactGroupReference, ContactGroup::data", "src/contactgroup.cpp: ContactGroup::ContactReference::setUid, setGid, setPreferredEmail, insertCustom, removeCustom", "src/contactgroup.cpp: ContactReferencePrivate(const ContactReferencePrivate &)"]}
{"id": "C122", "title": "What an address is printed as depends only on the parts that are shown", "statement": "Address::formatted() gives the same text, in every style, for two addresses with the same parts whose countries mean the same, whether the country is written as a code or as a name; the id, the type, the label and the position do not matter. In the domestic styles it does not matter either whether the country is given at all. A name, an organization, a post office box, a postal code or a region that the format of the country does not show has no influence on what is printed of the rest.", "quantifier": "all pairs of addresses, all styles, all names and organizations, all configurations of formats and countries", "why_tests_cant": "Compares the results for all pairs of addresses that agree in what is shown, under every configuration of formats; tests compare single texts under the shipped one.", "anchors": ["src/address.cpp: Address::formatted", "src/addressformatter.cpp: AddressFormatter::format", "src/addressformat.cpp: AddressFormatRepository::formatForAddress", "src/addressformatscript.cpp: AddressFormatScript::detect"]}
{"id": "C123", "title": "Going through a vCard makes no difference to printed addresses", "statement": "When a contact that a version of the vCard format can carry is written as a vCard and read again, each of its addresses is printed as before, in every style, with any name and organization on it, and so is the address found for a type. With the contact's own name and organization this also holds, except in version 4.0 for a contact that has neither a formatted name nor any part of a name and is known by its name field only.", "quantifier": "all contacts a version can carry, all versions, all styles, all configurations of formats and countries, all types with a name", "why_tests_cant": "Combines all contents of a contact with all configurations of formats; the ids and types of the addresses change on the way, and no set of texts shows that none of the formats sees it.", "anchors": ["src/vcardtool.cpp: VCardTool::createVCards, VCardTool::parseVCards", "src/address.cpp: Address::formatted", "src/addressformatter.cpp: AddressFormatter::format", "src/addressee.cpp: Addressee::address, Addressee::realName"]}
