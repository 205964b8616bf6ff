# Formal model of KDE/kcontacts in Lean 4: design

The source under study is /repo (C++/Qt). It was read as text only; nothing was built or run.
The model lives in `lean/Verif/`:

| directory | content |
|---|---|
| `Verif/Qt/` | the parts of Qt the code calls: byte arrays, UTF-16 strings, search and replace, base64, UTF-8 |
| `Verif/Model/` | the code of kcontacts, function by function, each definition citing file and lines |
| `Verif/Spec/` | short specifications, independent of the helpers of the model, used to state the properties |
| `Verif/Lemmas/` | helper lemmas and inductions |
| `Verif/Props/` | the property theorems `Cnn_…`, each with `example`s that meet its hypotheses |
| `Verif/Conformance/` | the data of the project's own tests, run on the model (tests of the model, not proofs; see below) |

Naming: `Cnn_…` proves (a part of) property Cnn. `…_false` proves with a witness that the property, as stated in English, is false
of the code. `…_partial` is what holds of the code instead; wherever possible it is an exact condition (if and only if).

## Trusted base

1. **Lean's kernel** (4.33.0). No axiom was added; there is no `sorry`, `admit`, `native_decide`, `bv_decide`, `implemented_by`,
   `unsafe` or `partial` definition. Every theorem depends on a subset of `propext`, `Classical.choice`, `Quot.sound`; the
   file `AXIOMS.md` lists the axioms of each theorem named in the manifest.
2. **The model of Qt** in `Verif/Qt` and in the parameter structures below: that it describes what Qt documents.
3. **The reading of the C++**: that each definition in `Verif/Model` agrees with the lines it cites. Simplifications are stated in
   the comment of the definition.

### Parameters: parts outside the repository, for which every theorem holds whatever they do

| structure | stands for |
|---|---|
| `QtEnv` | `QUrl::isValid`, `QUrl::scheme`, `QChar::isDigit` outside ASCII, decoding of images, the instant of a local time |
| `Codecs` | quoted-printable (KCodecs) and character set codecs |
| `ToolEnv` | `QtEnv` and `Codecs`, number formatting and reading of floats, `QUrl` construction and display, encoding of images, `QChar::isPunct` outside ASCII |
| `LdifEnv` | what the LDIF converter calls in Qt and in the country tables |
| `FormatEnv` | configuration file, country tables (KCountry), script class of a text, upper-casing |

Theorems that need a law of one of these (for instance "the codec restores what it encodes") have it as a hypothesis.

### What is trusted of Qt inside the model

* `QByteArray` is `List UInt8`; `QString` is `List UInt16` (UTF-16 code units, unpaired surrogates included). Null and empty
  strings are identified except where the code asks `isNull`.
* `toLower`/`toUpper` on QString are exact on Latin-1 letters and the identity on other code units.
* `QXmlStreamReader`/`Writer` are modelled on the level of tokens: the text form of XML is trusted.
* `QDataStream` is modelled on the level of written items (string, flag, number, bytes, image …): their byte form is trusted.
* `QSharedDataPointer` is modelled as a heap with reference counts and detach-on-write (`Model/Shared`).
* `QMultiMap`/`QMap` as sorted association lists with Qt's insertion order for equal keys.
* The mime database, regular expression matching (the pattern of the converter is written out as a function), translations (i18n)
  and the global configuration are trusted or parameters.
* C++ `char` is signed. Sizes do not overflow `int`.

### Representation choices

* In-place mutation becomes a function returning the new value. Loops over indices become recursion; loops that may not
  terminate take fuel and return `none` when it runs out, so that "terminates" is a provable or refutable statement.
* Undefined behaviour (access out of range, `last(n)` with negative `n`) is a distinct outcome (`none`), never a default value.
* Generated ids (`KRandom::randomString`, `QUuid`) are an arbitrary function of a counter; where distinctness matters it is a hypothesis.

## Which parts of the code are modelled

| source | model | not modelled |
|---|---|---|
| vcardparser/vcardparser.cpp | `Escape`, `SplitString`, `Fold`, `Parser` (reader and writer, complete) | the cache of shared strings (no observable effect), debug output |
| vcardparser/vcard.cpp, vcardline.cpp, parametermap_p.h | `VCard` (complete) | |
| vcardtool.cpp | `VCardTool`, `DateTime` (complete) | |
| addressee.cpp | `Contact`, `Setters`, `ContactEq`, `Shared`, `Stream`, `Names`, `ToText`, `Properties` (the `Q_PROPERTY` declarations of addressee.h) | field labels (`…Label()`, translated constants) |
| address.cpp, phonenumber.cpp, email.cpp, key.cpp, sound.cpp, picture.cpp, geo.cpp, timezone.cpp, gender.cpp, secrecy.cpp, impp.cpp, resourcelocatorurl.cpp, calendarurl.cpp, related.cpp, lang.cpp, title.cpp, role.cpp, org.cpp, note.cpp, nickname.cpp, clientpidmap.cpp, fieldgroup.cpp | `Values`, `Media`, `Stream`, `Shared`, `Labels` (type labels, service lists), `ToText`, `GeoLink` (`Address::geoUri`) | translated constants, `Impp::serviceIcon` |
| addresseehelper.cpp | `NameWords` (the word sets from built-in, translated and configured words), `Names` (parameter `NameHelper`) | the parsing of the configuration file (`NameConfig` holds its entries) |
| addressformat.cpp, addressformatparser.cpp, addressformatter.cpp | `AddressFormat`; the shipped file addressformatrc is `ShippedFormats` (generated by tools/gen_formats.py) | parsing of the configuration file (KConfig), the script of a single character (parameter) |
| contactgroup.cpp, contactgrouptool.cpp | `Group`, `GroupMembers`, `GroupXml` | XML text level |
| ldif.cpp, converter/ldifconverter.cpp | `Ldif`, `LdifConverter` | debug output |
| converter/vcardconverter.cpp, vcarddrag.cpp | `Converter` | mime type negotiation of Qt |
| improtocols/ | `ShippedServices` (names and icons of the shipped services) | translations of the names |
| qml/, namespace.cpp | | no logic |

## How the theorems were tested

Every round of `seeded/LOG.jsonl` edits one definition of the model in a scratch copy the way a realistic bug would, and rebuilds. If
everything still proves although an English claim is now false, the theorems are tightened and the entry says how.
A build stops at the first theorems that fail. Where these belong to a lemma that several claims share, the newer entries also name what failed next, with the
shared lemma left unproved in the scratch copy.

## How the model was compared with the code

The code could not be run here. The expected outputs in the project's own tests (autotests/) were recorded from the code, so the model was
run on the same inputs. `Verif/Conformance` holds these runs as `example`s evaluated by the kernel; the model agrees with every one of them:

* `Roundtrip`: testroundtrip.cpp and importexportvcardtest.cpp (whole vCards read and written again in versions 2.1, 3.0 and 4.0). Only
  vcard5.vcf, which holds a large picture, is left out of the build; it was compared outside with the interpreter and agrees.
* `Formats`: addressformattest.cpp, with the shipped addressformatrc.
* `Ldif`: ldifconvertertest.cpp.
* `Small`: datetimetest.cpp, and the tests of names, addresses of mail and custom fields in addresseetest.cpp. (The time of day of an invalid
  date, which one of these tests looks at, is not in the model.)

These are tests. They support item 3 of the trusted base (that the model is the code), and no property rests on them.
