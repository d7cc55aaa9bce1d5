# A Lean 4 model of libkml

The properties are in `properties.jsonl` (C01, C02, ...). Their status is in `MANIFEST.json`.
The model and the proofs are in `lean/Verif/`. `/repo` is read as text only and never built.

## Layout

Each area of the code has up to three modules.

* `Verif/Model/<Area>.lean`: the model. Each definition cites the file and lines of `/repo/src/kml` it models.
* `Verif/Lemmas/<Area>.lean`: helper lemmas. Nothing here is a claim.
* `Verif/Props/<Area>.lean`: small specifications, the property theorems (`C01_...`), and an `example`
  beside each theorem that a concrete non-trivial case meets its hypotheses.

Theorem names start with the id of the property they belong to. A theorem that proves only part of a
property has the suffix `_partial`. A theorem that refutes a property of the real code has the suffix
`_violated`: it is the negation of the property, with a concrete witness.

## Conventions of the model

* A `std::string` is a `List Char`; one `Char` stands for one byte. The model admits characters beyond 255,
  so the theorems cover a superset of the byte strings.
* Undefined behaviour, an escaping C++ exception and non-termination are outcomes of their own
  (`Outcome.ub`, `Outcome.throws`, or a fuel-indexed run that is proved to exhaust every fuel).
  A theorem of safety says that the outcome is never one of these.
* `double`: where only comparisons are used the model takes a linear order; where midpoints are used it
  takes the rationals. The text conversions of doubles (`strtod`, `operator<<`) are parameters with the
  law stated where they are used. NaN and rounding are outside the model.
* `size_t`/`int` are `Nat`/`Int`, except where wrap-around matters (`Color32`, the handler counters),
  where they are `BitVec 32` or explicit modular arithmetic.
* Loops are structural recursion, recursion on a measure, or fuel with a theorem that the fuel suffices.
* `std::map` is an association list sorted by key with distinct keys.
* Expat, zlib, uriparser, boost and the file system are external. Expat appears as the stream of
  start, end and character-data events of a well-formed document. A small XML reader is written as part
  of the specification for the claims about serialized text.

## Trusted base

* Lean's kernel, and the axioms `propext`, `Classical.choice` and `Quot.sound` (printed by `#print axioms`
  for each theorem; no other axiom is used).
* The reading of the C++ code into the model. The code is not run, so this is checked by citation only.
* The tables `Model/Kml22.lean` (from `kml22.h`, `kml22.cc`) and `Model/Classes.lean` (members, `AddElement`,
  `Serialize`, `AcceptChildren`, attributes of every element class) were written out from the sources class by class.
* The laws of the external parameters named below.

### External parts that are parameters

* Expat: a document is the stream of events of a well-formed tree (`Ev`, `Xml.events`), or for `parseEvents` any stream.
  That an ill-formed text is refused, entity decoding and encodings are expat's work and outside.
  `Spec/Lexer.lean` has a small reader of XML text, used to say what serialized text means.
* `NumLib`: the text a number has after it was read and written again. The laws used
  are fields of the structure. `NumLib.integers` is a small instance for examples; `NumLib.ieee` (`Props/Ieee.lean`, C109)
  is the instance with the doubles of IEEE 754, `strtod` and `%.15g`, for which the laws are proved, so the theorems that
  range over `NumLib` hold of it.
* uriparser: `split`, `resolve` and `normalize` functions of the URL, arbitrary unless a theorem states a hypothesis.
  `Model/Rfc.lean` has what RFC 3986 says in its place (C101), and `Props/RfcFetch.lean` uses that for the files that
  are fetched.
* The network and the disk: a partial function from URL or path to bytes. `Model/Disk.lean` has the functions of
  `file.cc`, `file_posix.cc` and `tempfile.h` on a disk with rights, limited space and unreadable places (C106-C108).
* Archives: a list of entries with `locate`; whether letter case counts is a parameter. `Model/Unzip.lean` has the
  reader of bytes that is in the repository (`contrib/minizip`), and `C103_refines` says that on well-formed archives it
  does what the list of entries does. Archives are written by the minizip of the system, which is not in the repository.
* zlib's `inflate`: any function with the contract of its manual (`Inflate.Lawful`, `Inflates`).
* `DistanceBetweenPoints3d`: an arbitrary function into a linear order.

### How pointers are modelled

* Elements are values (a tree). Where the identity of an object matters the model has something in its place:
  the heap of `Model/XmlElement.lean` (parents, C18) and `Model/Referent.lean` (counts, C19); the place of an element in
  its tree for walks, merges, id maps and updates (`Step`); the number of the announcement for objects of a file that is
  being parsed; a mark in the tree to see which elements a merge leaves where they are (`Elem.mark`).
* The copy made by `Clone` is a new value by construction; that it shares nothing with the original is read off the
  code, not proved.
* Of objects that an update took out of the tree only whether they are still referred to is modelled, not what they hold.
* Observers that change the parent they are told of (style splitter and inliner) are `Meddler`s; the styles the splitter
  adds to the document are kept in a list next to the tree.
* What a cache gives for a URL does not change during one style resolution.
* In the inliner the resolver is a parameter with a stated law; `C51_resolver` proves that the code's resolver meets it.
* The entity mapper takes `GetObjectById` as a parameter, and the balloon takes the resolved style as one.
* The midpoint of two numbers in boxes and regions: any function whose value lies between them (`Between`). For doubles
  `Props/DoubleArith.lean` proves this with both roundings (C110).
* In `math_util.cc` and `feature_view.cc` the doubles are real numbers: no rounding, no overflow, no NaN.
* `csv_parser.cc` calls a member function through a NULL factory pointer; the model takes that call to work.
* Counters of type `int` in csv, style resolution and style splitting are without bounds. Those of `KmlHandler` wrap.

### Not modelled

* `src/kml/base`: `memory_file.h` (a string with a count), `mimetypes.h`, `version.cc`, and the rounding of arithmetic
  (that of reading and writing numbers is in `Model/Ieee.lean`).
* `src/kml/regionator`: file output itself (a list of saved files stands for it).
* `src/swig`, `src/kmlxsd` command line, `examples`, `testdata`, `third_party`.
* C preprocessor variants, memory exhaustion. Threads only in `Model/Threads.lean`, with steps one after the other.

## Plan per property

| id | what is modelled | how it is proved |
|----|------------------|------------------|
| C01 | `Color32` as `BitVec 32`, hex digits, the parse loop | round trip over the eight nibbles, for every prefix |
| C02 | channel getters and setters with the masks of the code | bit extensionality |
| C03 | parse loop with explicit index checks and a UB outcome | witness of an out-of-range read; safety for texts of eight or more digits and for texts without `#` |
| C04 | `CreateExpandedStrings` as the replace loop with positions | termination by measure; witness for adjacent placeholders; exact result under a length condition |
| C05 | `SplitStringUsing` with positions | induction on the text; witness for long separators |
| C06 | `SplitQuotedUsing` as the pointer loop | induction over fields of the quoted line |
| C07 | `CsvSplitter` state and `FindNextLine` | induction on the remaining data; spec splits at line ends |
| C08 | the three predicates | equivalence to suffix, to equality after lower-casing, to a grammar |
| C09 | `FromString<bool>`, `ToString(bool)` | case analysis and a characterisation |
| C10 | sorted association list, operation histories | refinement to functions `name -> Option text` |
| C11 | `Parse`, `Serialize`, a reader of attribute text | last-wins law; round trip for values without `"<&`; witnesses otherwise; UB/throw witness for odd lists |
| C12 | `SplitByPrefix`, `Xmlns` | partition theorem |
| C13-C15 | `NetCache` state machine | invariant and refinement over all histories; witness for capacity 0 |
| C16 | `JoinPaths`, `SplitFilePath` | string lemmas |
| C17 | `GetTimeT` on integers | equality to a day count defined by iterating days |
| C18 | heap of parent and file pointers, attach operations | invariants over histories; witness of a cycle |
| C19 | reference counts over a heap of handles | counting invariant over histories |
| C20 | `AddEntry` name check and TOC | characterisation of accepted names; witness of an escaping one |
| C21, C22 | the tables of `kml22.cc`, `kml22.h` | kernel decision over the whole finite table, lifted to all names |
| C23, C24 | character-level `ParseVec3` loop with UB and divergence | witnesses of divergence, overflow and uninitialised reads; round trip for pretty text |
| C25 | `MaybeQuoteString`, `EnityEscapeXml`, a reader of XML character data | round trip for texts without CDATA delimiters; witnesses otherwise |
| C26 | `XmlSerializer` as a function of the visitor calls | induction on trees |
| C27-C29, C31, C70 | `KmlHandler` as a state machine over SAX events with a crash outcome | simulation of the event stream of a document tree; witnesses for the failures |
| C30, C32-C34 | all element classes as one table of slots with `AddElement` and `Serialize` | induction on trees, generic in the table; table facts decided by the kernel |
| C35, C36 | `Clone`, `MergeFields`, `MergeElements` over the slot model | induction on trees |
| C37, C38, C55 | id maps built by the observers | fold invariants; witness for duplicate ids |
| C39, C40, C56 | visitors over the slot model | induction on trees |
| C41-C43 | `Bbox` over a linear order, alignment over rationals | lattice laws, induction on depth |
| C44, C45 | string positions of `Href::Parse`, `KmzSplit` | string lemmas; witness for absolute URLs with fragments |
| C46 | recursion of `DoFetchAndReturnUrl` with URL resolution as a parameter | divergence witness; termination when resolution leaves the archive |
| C47 | `AddFileList` loop | fold invariant |
| C48, C49 | `StyleMerger` with its counter | well-founded recursion; witness for starvation |
| C50, C51 | `StyleSplitter`, `StyleInliner` | witness for styles with ids; invariants otherwise |
| C52, C53 | `UpdateProcessor` over a document with an id map | fold laws; witness for stale lookups |
| C54 | `EntityMapper` | fold laws; witness for leaking schema names |
| C57-C59, C61 | `Qid`, `CreateChildRegion`, `_Regionate` with handler as a state machine | injectivity, tiling, induction on the recursion |
| C60 | `FeatureList` | permutation and stability laws |
| C62 | `CsvParser` | fold laws |
| C63 | `GpxTrkPtHandler` state machine | simulation; witness for a stale point |
| C64 | extended data list | list laws; witness for `SetExtendedDataValue` dropping other names |
| C65 | `SimplifyCoordinates` over an abstract distance | induction; witness for distance to dropped points |
| C66-C69 | `XsdFile`, `XsdHandler`, `XsdSchema`, `XsdPrimitiveType` | induction; witnesses for cyclic bases and anonymous types |
| C70 | the old-schema part of `KmlHandler` | simulation by a handler on the modern document (`Alike`), up to the `parent` attribute; witnesses of the crashes |
| C71 | `ExpatHandlerNs` name translation | refinement to prefix lookup |
| C72 | `ZipFile` over a list of entries | list laws; witnesses for empty and long-named entries |
| C73 | `XsdFile::GetChildElements`, aliases | fold laws |
| C74 | `GetLinkParents` | simulation as for C56; `Lemmas/Heard.lean` shows for every sequence of events that observers which never object see what the recorder sees (also C37, C55, C56) |
| C75 | `CreateBalloonText` | equality with a written-out text |
| C76 | `csv_file.cc` | exact effect of a line and of a file |
| C77 | parser and serializer together, for any document | what the parser builds of a document that comes through is canonical (mutual induction on the document), then C30 |
| C78 | `Accept`, `AcceptChildren` of every class, `visitor.cc`, both drivers | tables checked whole, mutual induction on trees |
| C79 | `FindXmlNamespaces`, `FindAndInsertXmlNamespaces`, `set_xmlns` of every class, `SerializeToString` | tables checked whole, mutual induction on trees |
| C80 | `GetRelativeLinks`, `KmzCheckLinks`; the XML parser is a parameter | induction on the links, with C44 and the lookup in archives |
| C81 | `atom_util.cc`, `GetMapKml`, `CreateDocumentOfMapFeatures`; network and XML parser are a parameter | induction on entries and pages, with C35 |
| C82 | `ElementCounter`, `StatsSerializer` | an observer that never stops, by C29; induction on the tree |
| C83 | `ConvertOldSchema`, `ParseOldSchema`, both observers, and a whole parse with the second; the XML parser is a parameter | first occurrences in texts; C29; induction on the unknown elements; simulation of the parse without the observer |
| C84 | `HttpClient`, with `SendRequest` as a parameter | induction on histories; first occurrences in texts; C05 |
| C85 | The loop of `ParseFromIstream` over a model of `istream::read`, with the XML parser as a parameter that takes a text in pieces. | The loop is shown to feed pieces whose concatenation is the text; the handler is shown not to distinguish sequences of events with the same `glue`. |
| C86 | The two handlers as renamings of the events of a namespace-aware XML parser; a small specification of namespace scopes. | The renamed events of a document are shown to be the events of the document with every element under the name the library knows it by. |
| C87 | The saver as an observer of the modelled parser that vetoes by tag; `Xml.left` and `Xml.taken` say on the source what is left and taken. | Induction over the XML tree: building with an observer that vetoes elements of some kind, in some kinds of parent, builds the tree without them. |
| C88 | `FeatureListRegionator` as a handler of the modelled regionator, with the monitor as a state machine given as a parameter; the alignment of the root region. | Induction over the recursion: the features taken by a subtree are those inside its region, in files that are ordered by score along each path. |
| C89 | The formulas over the real numbers with Mathlib's functions, `atan2` as the argument of a complex number, `fmod` with truncation. | The specification has places as points of the unit sphere; trigonometric identities reduce each formula to scalar products with the three directions at a place. |
| C90 | `ComputeBboxLookAt` over the real numbers on top of the distances of C89. | Monotonicity of distances along meridians and parallels. |
| C91 | `AddFeature`, `PostPlacemarks` with the server as a function of requests. | Import, serialization and reading of C37, C79 and C30 composed; induction on the features visited. |
| C92 | `Create`, `GetScope`, the addresses and the requests of the four service clients. | Strings; reading back of C79. |
| C93 | The three caches behind `KmlCache`, histories of requests on them, `FetchLink`, `FetchIcon`. | Invariant: all that is cached is what is there; the result of a request with caches equals that of fetching without any. |
| C94 | The members that the four accessors of each field name, with the constants of the constructors and of `clear_`. | The table is checked by the kernel: the accessors of a field agree and no two fields share a member; then induction over the calls. |
| C95 | `DateTime`'s text functions with the conversions of `strptime` and `strftime` they use. | Reading by computation on the digits; ranges by inversion; order from C17's day count. |
| C96 | The creation functions of `KmzFile` and `KmlFile::CreateFromParse`, over the models of archives, links, serializer and parser. | Composition of C30, C47, C72, C80 and the observer framework of C29. |
| C97 | The table of the cast functions, of the classes' bases and of what the factory instantiates (generated from the headers) | The search among bases is proved right by induction; tables checked as a whole by the kernel |
| C98 | The inline conversions of expat_handler.h over memory as a list of units, running off its end undefined | Bit arithmetic for one unit, induction over texts |
| C99 | The conversions of `UriParser` with their buffers, over uriparser's escaping and unescaping. | Every byte by a table, texts by induction; sizes by bounds on the lengths. |
| C100 | The functions that make elements, as changes of the members of new elements, with the merge and the update of C36 and C52. | Every setter keeps an element canonical (C30), from tables of the classes; the moved point through the merge. |
| C101 | The grammar of RFC 3986 as a parser, its recomposition and its resolution in the place of uriparser; the functions of kml_uri.cc on it. | The parser inverts the recomposition: an equivalence for each part; dot segments removed by induction over the segments. |
| C102 | iomem_simple.c, unzip.c and the reading half of zip_file.cc byte by byte, with the buffers' sizes; zlib's inflate a parameter with its contract. | Each reading of the data is within it or fails; invariants of the walk through the directory and of the reading loop; the number of turns bounded by the bytes. |
| C103 | The layout of archives from PKWARE's APPNOTE as a separate specification (Spec/Zip.lean, Spec/Inflate.lean); the byte reader of C102. | Reading a row of fields gives back what was written; induction over the files for the directory and the search; refinement to Model/ZipFile.lean. |
| C104 | The byte reader of C102 and the CRC of the format. | Case analysis of the reading function; concrete archives for the negations. |
| C105 | The static buffer, the reference count and the static pointers as shared variables, each read and each write a step of a schedule. | Invariants over schedules by induction; concrete schedules for the negations. |
| C106 | The functions of file.cc and file_posix.cc on a disk with rights, limited space and unreadable places. | Induction over the turns of the reading loop; case analysis of opening. |
| C107 | The disks that a crash during WriteStringToFile can leave. | All of them are described; a concrete one has neither content. |
| C108 | Histories of TempFile objects and file operations on a disk. | Invariant over histories. |
| C109 | `>>` and `<<` of doubles and ints: decimal texts, rounding to binary64 and to 15 digits, over the rationals. | Error bounds of both roundings; case distinction between normal numbers, subnormal numbers and the two ends. |
| C110 | Sums and halves of doubles: the exact rational, rounded to the nearest double. | Rounding is monotone and keeps doubles; the edges of the quadtree down to level 47 are doubles. |
| C111 | Streams with a locale: point, separator, groups; which functions imbue the classic locale. | The classic locale changes nothing; grouping is undone by leaving out separators. |
| C112 | Locale handles, live objects, the locale of the thread; programs of nested blocks. | Induction over the program: only the counter of objects changes. |
| C113 | `GetMicroTime` with all roundings of doubles; the conversion of a `FILETIME` with 64-bit and 32-bit integers. | Error bounds of the roundings add up to less than half a microsecond. |
| C114 | `entityDeclHandler`, `_ParseString`, `ParseInternalBuffer`, `ReportError` and the loop of `ParseFromIstream` with `errors`; the calls expat makes are a parameter. | Running the calls is running the events in front of the first declaration; induction on the pieces. |
| C115 | The calls of the services that return what is answered, with `ParseAtom` of the answer and the casts; the service (after any requests) and the XML parser are parameters. | Each call is one request and a parse of the answer; C86 says what the parse gives. |
| C116 | `file_win32.cc` on a disk of names of 16-bit characters; the code page, `GetTempPath` and `GetTempFileName` are parameters. | Case analysis; the bytes of ASCII are widened to themselves, by the table of 256 bytes. |
| C117 | `KmzFile` as an object with its data, names, limit and writer, over the byte reader of `Model/Unzip.lean`; histories of calls. | Induction on the history: each call keeps the data and the names. |
| C118 | Caller texts, allocations and `UriParser` objects with text ranges into them; uriparser's splitting, normalising and resolving are parameters. | Invariant: every allocation of a live object is live and belongs to one object only; induction on the history. |
| C119 | The reference counts of `Model/Referent.lean` with a plain parent pointer for each element, and the calls of the DOM on both. | Invariant: what an element holds has it as parent, and counts are right; every call is a history of smart pointers. |
| C120 | Caches with limit and entries, files with URL and plain pointer to their cache, variables of the client; links and network are parameters. | Invariant: what is in a cache was made by it, and variables hold files that were made; induction on the history. |
| C121 | The three functions of xsd_util.cc on the attribute maps and XSD files of C66-C68 (`Model/XsdMake.lean`) | Evaluation of the map operations for any text; membership of the table of built-in names; no such name has a colon (C121_schema, C121_element, C121_type, C121_found, C121_builtin) |

## Where the code does not do what the property says

Each has a theorem with the suffix `_violated` and a concrete witness. The exact condition under which the property
holds is the matching `_partial` theorem.

| id | witness |
|----|---------|
| C03 | colour text with blanks or `#` and fewer than eight digits after them: read past the end |
| C04 | a placeholder that follows another at once is skipped; a value holding its own placeholder |
| C11 | odd attribute lists throw; values are written unescaped |
| C18 | an element can be put below itself; parent and child in different files |
| C20 | `a/../../x` is accepted as an archive name |
| C22 | `kmlDomTypeToString` is off from some type on |
| C23 | blank text loops, tokens overflow a buffer, missing numbers are uninitialised |
| C24, C30, C77 | several points in raw output run together |
| C25, C30 | texts with `]]>`, with control characters, or that look quoted already |
| C28, C29 | `description` inside an unknown element; blank `gx:coord`; blank `coordinates` |
| C31 | text and attributes of unknown elements are kept unescaped; unknown children of simple elements are dropped |
| C32 | second value of a single child, unknown enumeration names, children of text and simple elements are dropped |
| C33 | a blank number after a number |
| C34, C30 | the name of `xal:Locality` is read but not written |
| C77 | texts of `Snippet` grow each time a document is saved with `SerializePretty`; escapes in unknown elements and attributes are not written again; a tag `IconStyleIcon` comes back as `Icon` |
| C35 | simple elements, `SimpleData` with children or empty text, second CDATA mark |
| C36 | misplaced elements of the source change the target's fields; `Snippet` text; fields for many values |
| C37-C39 | misplaced elements are not found; of duplicate ids only the last is cleared or renamed |
| C42 | one level deeper than asked |
| C43 | `gx:Track` and inner boundaries are left out of bounds |
| C44 | the path of an absolute URL keeps the fragment; a host without slash |
| C45 | `my.kmz.kml` is cut inside the name |
| C46 | a missing file of an archive by absolute URL: endless recursion |
| C49 | siblings use up the nesting limit |
| C50 | a style with its own id is lost; `styleUrl` after the style; unknown elements |
| C51 | shared style after the reference; inline style beside a reference; references in pairs |
| C52, C53 | duplicate ids; a freed parent is used; deleted, created and renamed objects and lookup |
| C54 | labels of one schema are used for later data |
| C55 | styles without id are kept under the empty id |
| C56 | `description` in unknown elements puts the parser out of step; a link in a field of an old-style schema is collected empty |
| C59 | children of a region without feature; a root file with a number name |
| C62 | blank lines are not counted; `1 mile` is a number and `+1` is not |
| C63 | a track point without position is reported at the one before; blank numbers are uninitialised |
| C64 | adding under a name with a value; setting removes other names |
| C65 | distance is to the point before, not to the last kept one |
| C66 | cyclic base types loop |
| C68 | anonymous types and a declaring root element crash |
| C70 | NULL dereferences; fields outside `<N>`; a later schema gets the id of the first |
| C72 | empty entries and names of 256 characters are not read back |
| C75 | the table is there although there is a description, with cells that are not closed |
| C78 | misplaced, Atom and xAL elements are not visited; `VisitHotSpot` and `VisitField` are never called |
| C79 | `gx:altitudeMode`, `gx:balloonVisibility`, `gx:x/y/w/h` and misplaced elements with a prefix are written with undeclared prefixes |
| C80 | `KmzCheckLinks` reports every `styleUrl` into the same document, and links to empty files |
| C81 | `CreateDocumentOfMapFeatures` never ends if the next page of a feed is one before |
| C82 | `StatsSerializer` does not count colours as fields, nor misplaced complex elements as elements |
| C83 | instances of old-style schemas with attributes are not converted; those with an inner element of the same name are cut at its end tag; those in a container that is the root are not converted |
| C84 | token of a login with following lines or without a line feed; `&` and line feeds unescaped; stale Authorization header after a second login; HTTP_NONE appends NULL |
| C85 | `C85_failing_violated`, `C85_unreadable_violated`: kml_stream.h promises NULL on any I/O failure. The loop ends when `good()` no longer holds, so after a read error the XML parser is never told that the text ended, and the root on the stack, not yet closed, is returned. |
| C86 | `C86_foreign_violated`, `C86_author_violated`: `KmlHandlerNS` drops the namespace, so `<Placemark xmlns="urn:other">` is a KML Placemark and `<atom:author>` becomes the unknown `author`. `C86_atom_violated`: the `KmlHandler` behind `ParseAtom` has no parser set, so stopping at an unknown root is undefined. |
| C87 | `C87_update_violated`, `C87_short_violated`, `C87_root_violated`: the saver's `StartElement` has no caller (the observer's method is `NewElement`), so `in_update_` is never set; the base is only put before references of more than two characters; the root never reaches `EndElement`. |
| C88 | `C88_stop_violated`: the monitor's false only makes `HasData` of that region false, after its features were taken out of the list; the siblings are still visited. |
| C90 | `C90_corner_violated`: the distance to the western bound is taken at the latitude of the center, so that the corners nearer to the equator are farther away than computed. |
| C91 | `C91_ids_violated`: with two objects with the same id below the feature `KmlFile::CreateFromImport` gives NULL, which is used. `C91_namespace_violated`: the Placemark is in no namespace if nothing but `gx` elements is below it. |
| C92 | `C92_append_violated`: no `&` before the parameter `box`. `C92_kml_violated`: `&output=kml` without a `?`. `C92_query_violated`: the last slash is sought in the query too. |
| C93 | `C93_beside_violated`, `C93_image_violated`: a link from within `a.kmz` to `b.kmz` beside it gives a file with the URL `b.kmz` and not `b.kmz/doc.kml`; its relative links lead elsewhere. `C93_again_violated`: the file of `b.kmz` is cached as `b.kmz/doc.kml` but looked up as `b.kmz`. `C93_name_violated`: names with `#`. |
| C95 | `C95_calendar_violated` (31 February is 2 March), `C95_lax_violated` (trailing text), `C95_forms_violated` (fractions, zones), `C95_failure_violated` (failure is 1970), `C95_year_violated` (years before 1000). |
| C96 | `C96_null_violated` (a path to a file that is not KML: NULL is followed), `C96_missing_violated` (success although a linked file is missing), `C96_nothing_violated` (NULL element), `C96_doc_violated` (two entries `doc.kml`). |
| C97 | `C97_array_violated` (`GxSimpleArrayField` inherits `ElementType()`, so `AsGxSimpleArrayField` casts any `SimpleField`, which is undefined). |
| C98 | `C98_astral_violated` (of a surrogate pair the low half is converted by itself, which gives bytes that are not UTF-8). |
| C99 | `C99_backslash_violated` (`/a\b` becomes `/a/b`), `C99_drive_violated` (`C:%41\x` becomes `C:A\x`), `C99_zero_violated` (`%00` cuts the name), `C99_scheme_violated` (`http://…` is a file name, `localhost` a directory), `C99_size_violated` (`int` overflow). |
| C100 | `C100_box_violated` (`CreateLineStringBox` ends with the south-west corner twice), `C100_atts_violated` (a blank `lat` leaves a `double` uninitialised). |
| C101 | `C101_split_violated` (`/a` and `a` split alike, the user is dropped), `C101_fetchable_violated` (`http://h/x?id=1` is fetched as `http://h/x`, `/a/b.kml` as `a/b.kml`), `C101_brackets_violated` (`http://[::1]/a` is fetched as `http://::1/a`, which is no URI). Also for C46: `C46_host_violated`, `C46_fragment_violated`. |
| C102 | `C102_open_violated` (name of 1024 bytes), `C102_limit_violated` (limit of 4 GB). |
| C103 | `C103_comment_violated` (archive comment of 65514 bytes). |
| C104 | `C104_crc_violated` (a changed byte is not noticed), `C104_encrypted_violated` (encrypted bytes are given out as content). |
| C105 | `C105_toc_violated`, `C105_count_violated`, `C105_leak_violated`, `C105_single_violated` (races on the static buffer, the counts and the static pointers). |
| C106 | `C106_full_violated`, `C106_error_violated`, `C106_directory_violated` (success is reported though bytes are missing). |
| C107 | `C107_violated` (a crash leaves an empty file). |
| C108 | `C108_violated` (a TempFile removes the file of another). |
| C109 | `C109_violated` (0.30000000000000004 becomes 0.3), `C109_greatest_violated` (the greatest double is written as a number above all doubles), `C109_special_violated` (infinities and NaN read back as 0). |
| C110 | `C110_shrinks_violated` (a region between two neighbouring doubles has itself as a child), `C110_written_violated` (edges of level 16 and below lose digits when written). |
| C111 | `C111_files_violated`, `C111_errors_violated` (streams without `imbue` put separators into numbers from 1000 on). |
| C112 | `C112_failure_violated` (the locale of the caller is freed), `C112_others_violated` (all categories change), `C112_windows_violated` (a text of the C library is freed). |
| C113 | `C113_windows_violated` (the clock of Windows goes back by 136 years in 2038). |
| C114 | `C114_stream_violated` (`XML_ErrorString` of a suspended parser is NULL), `C114_empty_violated` (nothing said of the empty text), `C114_reason_violated` (nesting reported as an invalid root). |
| C115 | `C115_page_violated`: an answer whose root is not known, as a page of HTML, is undefined behaviour (see C86). `C115_missing_violated`: pages that cannot be fetched are silently left out. |
| C116 | `C116_exists_violated`, `C116_other_violated` (`Str2Wstr` extends the sign of each byte), `C116_temp_violated`, `C116_long_violated` (`Wstr2Str` has a byte per character). |
| C117 | `C117_there_violated` (NULL for the result: nothing is uncompressed), `C117_append_violated` (`List` assigns), `C117_created_violated` (`SaveToString`, `List` and `ReadFile` of an archive being made). |
| C69 | `C69_qname_violated` (the table has `QNAME`; the standard has `QName`), `C69_invalid_violated` (`GetTypeName(XSD_INVALID)` is `string(NULL)`). |
| C43 | `C43_points_violated` (of a point with several positions `GetPointLatLon` takes the first, `GetGeometryLatLon` the middle of all). |
| C68 | `C68_namespace_violated` (`get_target_namespace` of a file without a target namespace reads through NULL). |
| C118 | `C118_text_violated` (text ranges point into the caller's buffer), `C118_base_violated` (text ranges of the result point into memory of the base), `C118_leak_violated` (`uriParseUriA` zeroes the structure without freeing). |
| C119 | `C119_dead_violated` (no destructor resets `parent_` of the children), `C119_taken_violated` (the TODO `disparent e`). |
| C120 | `C120_closed_violated` (no destructor of `KmlCache` resets `kml_cache_` of files that are still held). |
