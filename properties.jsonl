{"id": "C01", "title": "Colour text round trip", "statement": "Writing a Color32 as its aabbggrr text and setting a Color32 from that text (optionally preceded by white space and one \"#\", in upper or lower case) gives back exactly the same colour; the text is always eight hexadecimal digits.", "quantifier": "every 32-bit colour value, every amount of leading white space, with or without \"#\"", "why_tests_cant": "2^32 colours times unbounded prefixes", "anchors": ["src/kml/base/color32.h Color32::to_string_abgr", "src/kml/base/color32.h Color32::set_color_abgr", "src/kml/base/string_util.cc b2a_hex"]}
{"id": "C02", "title": "Colour channels are independent", "statement": "Setting the alpha, red, green or blue channel of a Color32 changes that channel only and reads back what was written; the ARGB view is the ABGR value with red and blue exchanged, its text is that number in hexadecimal, and setting an ARGB number then reading ARGB is the identity. A new colour is opaque white; one made of four channels has these; what a text gives does not depend on the colour before; colours are equal if their channels are, and ordered by alpha, blue, green and red.", "quantifier": "every 32-bit colour and every 8-bit channel value, in every order of settings", "why_tests_cant": "2^32 x 2^8 x four setters", "anchors": ["src/kml/base/color32.h Color32::set_alpha/set_blue/set_green/set_red", "src/kml/base/color32.h Color32::get_color_argb", "src/kml/base/color32.h Color32::set_color_argb"]}
{"id": "C03", "title": "Colour text parsing is memory safe", "statement": "Setting a Color32 from any string whatsoever reads only inside that string (a short string gives a value from its digits, non-hex characters count as zero).", "quantifier": "every byte string", "why_tests_cant": "out-of-bounds reads depend on the exact length and prefix of the text, and do not fail a test visibly", "anchors": ["src/kml/base/color32.h Color32::set_color_abgr"]}
{"id": "C04", "title": "Template expansion replaces every placeholder", "statement": "Expanding a text against a map of names terminates for every text and map, leaves text without placeholders untouched, and replaces every occurrence of a start+name+end placeholder by its value.", "quantifier": "every text, every map from names to values, every pair of delimiters", "why_tests_cant": "the search position after a replacement depends on the lengths of name and value, and on how placeholders are adjacent or nested", "anchors": ["src/kml/base/string_util.cc CreateExpandedStrings", "src/kml/engine/entity_mapper.cc CreateExpandedEntities"]}
{"id": "C05", "title": "Splitting on a separator loses nothing", "statement": "Splitting a text on a one-character separator and joining the pieces with that separator gives back the text, and no piece contains the separator.", "quantifier": "every text and every one-character separator", "why_tests_cant": "all positions and multiplicities of the separator", "anchors": ["src/kml/base/string_util.cc SplitStringUsing"]}
{"id": "C06", "title": "CSV record splitting inverts CSV quoting", "statement": "For every non-empty list of fields, writing each field in double quotes with inner quotes doubled, joined by commas, and splitting the line gives back exactly the list of fields.", "quantifier": "every list of fields with arbitrary characters (quotes, commas, spaces, line breaks) except NUL", "why_tests_cant": "quote doubling, separators inside quotes and empty last columns interact in unboundedly many ways", "anchors": ["src/kml/base/string_util.cc SplitQuotedUsing"]}
{"id": "C07", "title": "CSV line iteration visits every line once", "statement": "Reading CSV data line by line terminates and delivers, in order and exactly once, every non-empty line and nothing else (except an empty first line when the data start with a line end or are empty), for LF, CRLF and CR line ends, with or without a final line end.", "quantifier": "every byte string as CSV data", "why_tests_cant": "all lengths and mixtures of line ends", "anchors": ["src/kml/base/csv_splitter.cc CsvSplitter::SplitCurrentLine", "src/kml/base/csv_splitter.cc CsvSplitter::FindNextLine"]}
{"id": "C08", "title": "String predicates mean what they say", "statement": "StringEndsWith holds exactly when both strings are non-empty and the first ends with the second; StringCaseEqual is an equivalence relation that is exactly equality up to ASCII letter case; IsDecimalDoubleString holds exactly for texts starting with an optional minus, an optional point and a digit.", "quantifier": "every pair of strings (for case-insensitive comparison: without NUL bytes)", "why_tests_cant": "unbounded strings", "anchors": ["src/kml/base/string_util.cc StringEndsWith", "src/kml/base/string_util.cc StringCaseEqual", "src/kml/base/string_util.cc IsDecimalDoubleString"]}
{"id": "C09", "title": "Boolean text conversions", "statement": "Converting a bool to text and back is the identity, and a text reads as true exactly when, after leading white space, it starts with \"true\" or \"1\".", "quantifier": "every text, every bool", "why_tests_cant": "unbounded texts", "anchors": ["src/kml/base/string_util.cc FromString", "src/kml/base/string_util.cc ToString"]}
{"id": "C10", "title": "Attributes behave as a map", "statement": "A history of set, get, cut and merge operations on Attributes behaves like a finite map from names to text: a get returns the last value set and not cut since, merge overrides with the argument, clone is an exact independent copy, and the size is the number of distinct names.", "quantifier": "every history of operations, every name and value", "why_tests_cant": "histories are unbounded", "anchors": ["src/kml/base/attributes.h Attributes::SetValue/GetValue/CutValue", "src/kml/base/attributes.cc Attributes::MergeAttributes", "src/kml/base/attributes.cc Attributes::Clone"]}
{"id": "C11", "title": "Attributes survive writing and reading", "statement": "Creating Attributes from name/value pairs keeps the last value for each name without failing on any list, and the text written for Attributes is read back by an XML parser as the same names and values.", "quantifier": "every list of strings (also of odd length), every attribute value", "why_tests_cant": "values with quotes, ampersands and angle brackets, and odd lengths", "anchors": ["src/kml/base/attributes.cc Attributes::Parse", "src/kml/base/attributes.cc Attributes::Serialize"]}
{"id": "C12", "title": "Prefix splitting partitions attributes", "statement": "Splitting attributes by a prefix moves exactly the attributes named prefix:rest, under the name rest, into a new object and leaves exactly the others; nothing is lost or invented.", "quantifier": "every attribute map and prefix", "why_tests_cant": "unbounded maps", "anchors": ["src/kml/base/attributes.cc Attributes::SplitByPrefix", "src/kml/base/xmlns.h Xmlns"]}
{"id": "C13", "title": "The fetch cache is bounded", "statement": "A NetCache created for N entries never holds more than N entries after any history of fetch, save and delete.", "quantifier": "every history of operations, every N of at least 1, every network behaviour", "why_tests_cant": "histories are unbounded; the bound depends on the interplay of eviction and insertion", "anchors": ["src/kml/base/net_cache.h NetCache::Save", "src/kml/base/net_cache.h NetCache::RemoveOldest"]}
{"id": "C14", "title": "The fetch cache returns what was stored", "statement": "A lookup returns the item most recently stored under that URL and not evicted or deleted since; a fetch returns the cached item without touching the network when there is one; saving under an existing URL changes nothing and reports failure.", "quantifier": "every history of operations", "why_tests_cant": "histories are unbounded", "anchors": ["src/kml/base/net_cache.h NetCache::Fetch", "src/kml/base/net_cache.h NetCache::LookUp", "src/kml/base/net_cache.h NetCache::Save", "src/kml/base/net_cache.h NetCache::Delete"]}
{"id": "C15", "title": "The fetch cache evicts oldest first", "statement": "When a NetCache is full, saving a new URL removes exactly the entry that was inserted longest ago and no other.", "quantifier": "every history of operations", "why_tests_cant": "depends on the whole insertion history", "anchors": ["src/kml/base/net_cache.h NetCache::RemoveOldest"]}
{"id": "C16", "title": "Joining and splitting paths", "statement": "Joining a directory and a file name with JoinPaths and splitting the result gives back the directory and the file name, for a non-empty directory without trailing separator and a file name without separator; joining with an empty part gives the other part.", "quantifier": "every pair of paths", "why_tests_cant": "unbounded strings", "anchors": ["src/kml/base/file.cc File::JoinPaths", "src/kml/base/file.cc File::SplitFilePath"]}
{"id": "C17", "title": "Date conversion is the Gregorian calendar", "statement": "Converting a broken-down UTC date to seconds since 1970 counts exactly the Gregorian days: consecutive days differ by 86400 seconds, across month ends, leap days and centuries.", "quantifier": "every date with year from 1970 on", "why_tests_cant": "unboundedly many years and leap rules", "anchors": ["src/kml/base/date_time.cc GetTimeT", "src/kml/base/date_time.cc is_leap"]}
{"id": "C18", "title": "An element has at most one parent, forever", "statement": "After any history of attaching elements to parents and files, every element has at most one parent, its parent never changes once set, parent and child belong to the same file, and following parents never cycles.", "quantifier": "every history of attach operations on any number of elements", "why_tests_cant": "histories are unbounded", "anchors": ["src/kml/base/xml_element.h XmlElement::SetParent", "src/kml/base/xml_element.h XmlElement::SetXmlFile", "src/kml/dom/element.h Element::SetComplexChild", "src/kml/dom/element.h Element::AddComplexChild"]}
{"id": "C19", "title": "Reference counts free an object with its last pointer", "statement": "After any history of copying, assigning and dropping smart pointers, an object is destroyed exactly when its last pointer is dropped, and never twice.", "quantifier": "every history of pointer operations", "why_tests_cant": "histories are unbounded", "anchors": ["src/kml/base/referent.h Referent", "src/kml/base/referent.h intrusive_ptr_add_ref", "src/kml/base/referent.h intrusive_ptr_release"]}
{"id": "C20", "title": "Archive entries stay inside the archive directory", "statement": "Adding an entry to a KMZ is refused for every path that would leave the archive root, and the table of contents lists exactly the accepted names in order.", "quantifier": "every history of AddEntry calls, every path", "why_tests_cant": "unbounded path shapes", "anchors": ["src/kml/base/zip_file.cc ZipFile::AddEntry", "src/kml/base/zip_file.cc ZipFile::IsInToc", "src/kml/base/zip_file.cc ZipFile::FindFirstOf"]}
{"id": "C21", "title": "Element names and ids correspond", "statement": "Every element id has a name, looking up that name gives back the id (IconStyleIcon excepted, which is written Icon), no two ids share a name, unknown names give the unknown id, and each enumeration value written is read back as itself.", "quantifier": "every element id and name, every enumeration field and value", "why_tests_cant": "a finite table of over two hundred rows whose pairwise consistency no test enumerates", "anchors": ["src/kml/dom/xsd.cc Xsd::ElementId", "src/kml/dom/xsd.cc Xsd::ElementName", "src/kml/dom/xsd.cc Xsd::EnumId", "src/kml/dom/xsd.cc Xsd::EnumValue", "src/kml/dom/kml22.cc kKml22Elements"]}
{"id": "C22", "title": "Type names for debugging match the types", "statement": "The name reported for an element type is the name of that type, for every type.", "quantifier": "every element type", "why_tests_cant": "positional table, wrong rows look plausible", "anchors": ["src/kml/dom/kml22.h kmlDomTypeToString"]}
{"id": "C23", "title": "Coordinates parsing is total and memory safe", "statement": "Parsing the text of a coordinates element terminates and has no undefined behaviour for every text.", "quantifier": "every byte string", "why_tests_cant": "non-termination and overflow need particular characters and lengths", "anchors": ["src/kml/dom/geometry.cc Coordinates::Parse", "src/kml/dom/geometry.cc Coordinates::ParseVec3"]}
{"id": "C24", "title": "Coordinates survive writing and reading", "statement": "Parsing the text written for a list of points gives back the same list of points.", "quantifier": "every list of points, pretty and raw output", "why_tests_cant": "unbounded lists, two output modes", "anchors": ["src/kml/dom/geometry.cc Coordinates::Parse", "src/kml/dom/xml_serializer.h XmlSerializer::SaveVec3", "src/kml/dom/serializer.cc Serializer::SaveVec3"]}
{"id": "C25", "title": "Text content survives writing and reading", "statement": "The text of any simple field, as written by the serializer, is read back by an XML parser as exactly the same text.", "quantifier": "every string", "why_tests_cant": "the quoting decision depends on combinations of markup characters and CDATA delimiters", "anchors": ["src/kml/dom/serializer.cc Serializer::MaybeQuoteString", "src/kml/dom/serializer.cc EnityEscapeXml"]}
{"id": "C26", "title": "Serialized output is well nested", "statement": "For every element tree the serializer emits exactly one matching end tag for each start tag, properly nested, and pretty and raw output differ in white space only.", "quantifier": "every element tree whose own attribute values, texts and unknown content are well-formed (escaping is the subject of C11, C25 and C31); the white space part: every element tree", "why_tests_cant": "trees are unbounded", "anchors": ["src/kml/dom/xml_serializer.h XmlSerializer", "src/kml/dom/element.cc ElementSerializer"]}
{"id": "C27", "title": "Parsing depth is bounded", "statement": "The parser rejects every document nested deeper than 100 elements and never refuses a document for nesting at or below that depth.", "quantifier": "every well-formed document", "why_tests_cant": "documents are unbounded in depth and width", "anchors": ["src/kml/dom/kml_handler.cc KmlHandler::StartElement"]}
{"id": "C28", "title": "Parsing a well-formed document yields its root", "statement": "For every well-formed document whose root element is known and which is not nested too deeply, parsing returns the root element, and the parser never crashes or corrupts its stacks.", "quantifier": "every well-formed document", "why_tests_cant": "the handler keeps four counters and two stacks whose joint invariant must hold for every event sequence", "anchors": ["src/kml/dom/kml_handler.cc KmlHandler::StartElement", "src/kml/dom/kml_handler.cc KmlHandler::EndElement", "src/kml/dom/kml_handler.cc KmlHandler::PopRoot"]}
{"id": "C29", "title": "Parser observers see every element once", "statement": "Each registered observer is told of every known element exactly once when it starts and exactly once when it is attached to its parent, in document order, and a veto at its end keeps exactly that element out of its parent.", "quantifier": "every document, every observer behaviour", "why_tests_cant": "documents and observers are unbounded", "anchors": ["src/kml/dom/kml_handler.cc KmlHandler::CallNewElementObservers", "src/kml/dom/kml_handler.cc KmlHandler::CallEndElementObservers", "src/kml/dom/parser_observer.h ParserObserver"]}
{"id": "C30", "title": "Parse after serialize is the identity", "statement": "For every element tree built from known elements, serializing it and parsing the result gives an equal tree.", "quantifier": "every element tree over every element type", "why_tests_cant": "unbounded trees over about a hundred element classes", "anchors": ["src/kml/dom/kml_handler.cc KmlHandler", "src/kml/dom/xml_serializer.h XmlSerializer", "src/kml/dom/feature.cc Feature::Serialize", "src/kml/dom/element.cc Element::SerializeUnknown"]}
{"id": "C31", "title": "Unknown content is preserved", "statement": "Elements and attributes that are not KML survive parsing and serializing unchanged.", "quantifier": "every document with arbitrary unknown subtrees", "why_tests_cant": "unbounded subtrees", "anchors": ["src/kml/dom/kml_handler.cc KmlHandler::InsertUnknownStartElement", "src/kml/dom/element.cc Element::AddUnknownElement", "src/kml/dom/element.cc Element::AddUnknownAttributes"]}
{"id": "C32", "title": "Misplaced elements are preserved", "statement": "A known element appearing where KML does not allow it is kept and written back; no child handed to an element is ever dropped.", "quantifier": "every parent type, every child type", "why_tests_cant": "all pairs of types and orders", "anchors": ["src/kml/dom/element.cc Element::AddElement", "src/kml/dom/element.cc Element::SerializeUnknown"]}
{"id": "C33", "title": "Serialized children follow schema order", "statement": "Whatever the order in which children were added, serialization writes them in the fixed order of the schema, repeated children in insertion order, and adding a single-valued child again keeps exactly the last simple value.", "quantifier": "every sequence of additions", "why_tests_cant": "orders are unbounded", "anchors": ["src/kml/dom/feature.cc Feature::AddElement", "src/kml/dom/feature.cc Feature::SerializeBeforeStyleSelector", "src/kml/dom/element.h Element::SetComplexChild"]}
{"id": "C34", "title": "Every parsed field is written", "statement": "Every simple field and child an element accepts when parsing is written when it is serialized.", "quantifier": "every element class and every field of it", "why_tests_cant": "a finite table over all classes; one missing line loses data silently", "anchors": ["src/kml/dom/xal.cc XalLocality::Serialize", "src/kml/dom/xal.cc XalLocality::AddElement"]}
{"id": "C35", "title": "Clone is an equal, separate tree", "statement": "Cloning any element gives a tree that serializes identically, shares no element with the original and has no parent.", "quantifier": "every element tree", "why_tests_cant": "unbounded trees over all classes", "anchors": ["src/kml/engine/clone.cc Clone", "src/kml/engine/clone.cc ElementReplicator"]}
{"id": "C36", "title": "Merge overrides exactly what the source has", "statement": "Merging a source into a target sets each simple field and attribute present in the source and keeps every other field of the target; merging twice is the same as merging once for simple fields.", "quantifier": "every pair of elements of the same type", "why_tests_cant": "unbounded trees and field sets", "anchors": ["src/kml/engine/merge.cc MergeFields", "src/kml/engine/merge.cc MergeElements"]}
{"id": "C37", "title": "Lookup by id finds the last object with the id", "statement": "After parsing, looking up an id gives the last object in document order with that id and nothing for an id not present; strict import rejects exactly the documents with duplicate ids.", "quantifier": "every document", "why_tests_cant": "unbounded documents", "anchors": ["src/kml/engine/object_id_parser_observer.h ObjectIdParserObserver", "src/kml/engine/kml_file.cc KmlFile::GetObjectById", "src/kml/engine/kml_file.cc KmlFile::CreateFromImportInternal", "src/kml/engine/id_mapper.cc MapIds"]}
{"id": "C38", "title": "Clearing ids clears them all", "statement": "After clearing ids no object in the tree has an id, and remapping ids renames exactly the mapped ids.", "quantifier": "every element tree", "why_tests_cant": "unbounded trees with duplicate ids", "anchors": ["src/kml/engine/id_mapper.cc ClearIds", "src/kml/engine/id_mapper.cc RemapIds"]}
{"id": "C39", "title": "Searching by type finds every element", "statement": "Collecting elements of a type below a root returns every such element exactly once in document order and nothing else.", "quantifier": "every element tree and type", "why_tests_cant": "unbounded trees", "anchors": ["src/kml/engine/find.cc GetElementsById", "src/kml/engine/find.cc GetChildElements"]}
{"id": "C40", "title": "Feature traversal visits each feature once", "statement": "Visiting a feature hierarchy calls the visitor exactly once for each feature, parents before children, siblings in order.", "quantifier": "every feature tree", "why_tests_cant": "unbounded trees", "anchors": ["src/kml/engine/feature_visitor.cc VisitFeatureHierarchy", "src/kml/engine/feature_visitor.cc GetRootFeature"]}
{"id": "C41", "title": "Bounding boxes contain what they were expanded with", "statement": "After any sequence of expansions a bounding box contains every point and box it was expanded with, and is the smallest such box, whatever the order.", "quantifier": "every sequence of positions and non-empty boxes with coordinates between -180 and 180", "why_tests_cant": "sequences are unbounded", "anchors": ["src/kml/engine/bbox.h Bbox::ExpandLatLon", "src/kml/engine/bbox.h Bbox::ExpandFromBbox", "src/kml/engine/bbox.h Bbox::Contains"]}
{"id": "C42", "title": "Quadtree alignment is sound", "statement": "Aligning a box contained in a quadtree root gives a quadtree cell that still contains the box, at most the requested depth below the root, and no child cell of it contains the box unless the depth is exhausted.", "quantifier": "every box, root and depth", "why_tests_cant": "depth and coordinates are unbounded", "anchors": ["src/kml/engine/bbox.h Bbox::AlignBbox", "src/kml/regionator/regionator_util.cc CreateAlignedAbstractLatLonBox"]}
{"id": "C43", "title": "Feature bounds cover all geometry", "statement": "The bounds computed for a feature contain every coordinate of every geometry below it, and none are reported for a feature without geometry.", "quantifier": "every feature tree", "why_tests_cant": "unbounded trees", "anchors": ["src/kml/engine/location_util.cc GetFeatureBounds", "src/kml/engine/location_util.cc GetGeometryBounds", "src/kml/engine/location_util.cc GetCoordinatesBounds"]}
{"id": "C44", "title": "URL splitting", "statement": "Parsing a URL into scheme, host, path and fragment and putting the parts together gives back the URL, and each part is the one a reader of the URL would name.", "quantifier": "every URL string", "why_tests_cant": "unbounded strings", "anchors": ["src/kml/engine/href.cc Href::Parse"]}
{"id": "C45", "title": "KMZ path splitting", "statement": "Splitting a URL at its .kmz gives the archive URL and the path inside it, whose recombination is the URL; URLs without .kmz are refused; it never throws.", "quantifier": "every string", "why_tests_cant": "unbounded strings", "anchors": ["src/kml/engine/kml_uri.cc KmzSplit"]}
{"id": "C46", "title": "Fetching from KMZ terminates", "statement": "Fetching a resource relative to a base URL terminates for every base, target and archive content.", "quantifier": "every base and target URL, every network and archive content", "why_tests_cant": "depends on resolution of the target against the archive URL, for unbounded URL shapes", "anchors": ["src/kml/engine/kmz_cache.cc KmzCache::DoFetchAndReturnUrl", "src/kml/engine/kmz_cache.cc KmzCache::FetchFromCache", "src/kml/engine/kml_cache.cc KmlCache::FetchKmlRelative"]}
{"id": "C47", "title": "Archiving a file list", "statement": "Adding a list of referenced files to a KMZ adds each distinct relative path once, never adds an absolute path or one leading out of the directory, and reports the number of failures.", "quantifier": "every list of hrefs and every set of existing files", "why_tests_cant": "unbounded lists", "anchors": ["src/kml/engine/kmz_file.cc KmzFile::AddFileList"]}
{"id": "C48", "title": "Style resolution terminates", "statement": "Resolving the style of a feature terminates for every document, including style maps that refer to themselves, and follows no more than the permitted number of style references.", "quantifier": "every set of shared styles and style maps, every nesting limit", "why_tests_cant": "reference cycles of every shape", "anchors": ["src/kml/engine/style_merger.cc StyleMerger::MergeStyle", "src/kml/engine/style_merger.cc StyleMerger::MergeStyleUrl", "src/kml/engine/style_merger.cc StyleMerger::MergeStyleMap"]}
{"id": "C49", "title": "Style nesting limit counts nesting only", "statement": "A chain of style references no longer than the limit is always resolved fully.", "quantifier": "every set of styles whose reference chains are within the limit", "why_tests_cant": "the budget is consumed across siblings", "anchors": ["src/kml/engine/style_merger.cc StyleMerger::MergeStyleUrl", "src/kml/engine/engine_constants.h kDefaultMaxNestedStyleUrls"]}
{"id": "C50", "title": "Style splitting keeps styles resolvable", "statement": "After moving inline styles of a document into shared styles, every feature refers to a shared style with the content of its former inline style.", "quantifier": "every document", "why_tests_cant": "unbounded documents with arbitrary ids", "anchors": ["src/kml/engine/style_splitter.cc SplitStyles", "src/kml/engine/style_splitter_internal.h StyleSplitter"]}
{"id": "C51", "title": "Style inlining removes local style references", "statement": "After inlining, no feature outside Update refers to a local shared style that exists, and each has the resolved style inline; shared styles are removed from the document.", "quantifier": "every document", "why_tests_cant": "unbounded documents", "anchors": ["src/kml/engine/style_inliner.cc StyleInliner"]}
{"id": "C52", "title": "Updates apply in order to the named objects", "statement": "Processing an Update applies its Change, Create and Delete operations in order, each affecting only the object named by its targetId; unknown targets leave the file unchanged.", "quantifier": "every file and every sequence of operations", "why_tests_cant": "histories are unbounded", "anchors": ["src/kml/engine/update_processor.cc UpdateProcessor::ProcessUpdate", "src/kml/engine/update_processor.cc UpdateProcessor::ProcessUpdateChange/Create/Delete"]}
{"id": "C53", "title": "Lookup follows updates", "statement": "After an Update the file's id lookup reflects it: deleted objects are gone, created objects can be found.", "quantifier": "every file and update", "why_tests_cant": "histories are unbounded", "anchors": ["src/kml/engine/update_processor.cc UpdateProcessor::ProcessUpdateDelete", "src/kml/engine/kml_file.cc KmlFile::GetObjectById"]}
{"id": "C54", "title": "Entities of a feature", "statement": "The entity map of a feature contains its fields and extended data under the documented names, a later value winning over an earlier one, and schema data of one schema does not leak into another.", "quantifier": "every feature", "why_tests_cant": "unbounded feature content", "anchors": ["src/kml/engine/entity_mapper.cc EntityMapper"]}
{"id": "C55", "title": "Shared styles are those with an id", "statement": "The shared style lookup returns a style exactly when a Document child style with that id exists.", "quantifier": "every document and id", "why_tests_cant": "unbounded documents", "anchors": ["src/kml/engine/shared_style_parser_observer.h SharedStyleParserObserver", "src/kml/engine/kml_file.cc KmlFile::GetSharedStyleById"]}
{"id": "C56", "title": "Link harvesting is complete", "statement": "Collecting links from a document that parses returns the text of every href and styleUrl, of every targetHref of an Alias and the schema address of every SchemaData, in document order, exactly once.", "quantifier": "every document", "why_tests_cant": "unbounded documents", "anchors": ["src/kml/engine/get_links.cc GetLinks"]}
{"id": "C57", "title": "Region ids are unique", "statement": "Distinct quadtree positions have distinct region ids, and the id determines its depth and path.", "quantifier": "every pair of quadrant paths", "why_tests_cant": "paths are unbounded", "anchors": ["src/kml/regionator/regionator_qid.h Qid::CreateChild", "src/kml/regionator/regionator_qid.h Qid::depth"]}
{"id": "C58", "title": "Child regions tile their parent", "statement": "The four child regions of a region cover it exactly and overlap only on shared edges; altitude and level of detail are inherited.", "quantifier": "every region and quadrant", "why_tests_cant": "coordinates are unbounded", "anchors": ["src/kml/regionator/regionator_util.cc CreateChildRegion"]}
{"id": "C59", "title": "Regionation links every file it saves", "statement": "For every data set, regionation saves each file once under a distinct name, every saved file except the root is linked from exactly one saved parent file and every link names a saved file.", "quantifier": "every region handler behaviour", "why_tests_cant": "unbounded recursion with numbering side effects", "anchors": ["src/kml/regionator/regionator.cc Regionator::_Regionate", "src/kml/regionator/regionator.cc Regionator::Recurse", "src/kml/regionator/regionator.cc Regionator::RegionFilename"]}
{"id": "C60", "title": "Splitting a feature list conserves features", "statement": "Splitting features by a box moves the first max features inside the box to the output in order and keeps all others in order; nothing is lost or duplicated; sorting by score is a stable permutation in descending order; saving puts all features into the container.", "quantifier": "every feature list, box and max; for saving, distinct features without parent", "why_tests_cant": "lists are unbounded", "anchors": ["src/kml/convenience/feature_list.cc FeatureList::BboxSplit", "src/kml/convenience/feature_list.cc FeatureList::Sort", "src/kml/convenience/feature_list.cc FeatureList::Save"]}
{"id": "C61", "title": "Regionating a feature list terminates and keeps every feature", "statement": "Regionating any finite feature list terminates and each feature inside the root region is written to exactly one file of at most ten features whose region contains it; features outside stay in the list.", "quantifier": "every list of distinct features without parent, and every root region", "why_tests_cant": "recursion depth depends on the data", "anchors": ["src/kml/regionator/feature_list_region_handler.cc FeatureListRegionHandler::HasData", "src/kml/regionator/regionator.cc Regionator::_Regionate"]}
{"id": "C62", "title": "CSV import reports every line", "statement": "Parsing CSV data calls the handler once for every data line, in order, with the right line number and a status of OK exactly when the line has the right number of columns and numeric latitude and longitude; a handler returning false stops it.", "quantifier": "every CSV data and handler", "why_tests_cant": "unbounded data", "anchors": ["src/kml/convenience/csv_parser.cc CsvParser::ParseCsv", "src/kml/convenience/csv_parser.cc CsvParser::CsvLineToPlacemark", "src/kml/convenience/csv_parser.cc CsvParser::SetSchema"]}
{"id": "C63", "title": "GPX track points", "statement": "Every trkpt element with latitude and longitude is reported exactly once with its own position, elevation and time; none without are reported.", "quantifier": "every GPX event stream", "why_tests_cant": "state carried over between points", "anchors": ["src/kml/convenience/gpx_trk_pt_handler.h GpxTrkPtHandler"]}
{"id": "C64", "title": "Extended data values", "statement": "After adding or setting an extended data value, reading that name gives the value; setting leaves other names as they were; the feature score reads back.", "quantifier": "every feature and history of additions", "why_tests_cant": "histories are unbounded", "anchors": ["src/kml/convenience/convenience.cc AddExtendedDataValue/SetExtendedDataValue/GetExtendedDataValue", "src/kml/convenience/feature_list.cc GetFeatureScore"]}
{"id": "C65", "title": "Line simplification", "statement": "Simplifying coordinates keeps the first point, yields a subsequence of the input, drops nothing for a non-positive tolerance, and keeps only points farther than the tolerance from the last kept point.", "quantifier": "every coordinate list and tolerance", "why_tests_cant": "lists are unbounded", "anchors": ["src/kml/convenience/convenience.cc SimplifyCoordinates"]}
{"id": "C66", "title": "XSD type hierarchies", "statement": "Walking the base types of an XSD complex type terminates and yields the chain of bases.", "quantifier": "every schema file", "why_tests_cant": "cyclic schemas", "anchors": ["src/kml/xsd/xsd_file.cc XsdFile::GetTypeHierarchy", "src/kml/xsd/xsd_file.cc XsdFile::SearchTypeHierarchy"]}
{"id": "C67", "title": "XSD element enumeration", "statement": "The generated element list holds every abstract, complex and simple element, grouped in that order, without overlap.", "quantifier": "every schema file", "why_tests_cant": "unbounded schemas", "anchors": ["src/kml/xsd/xsd_file.cc XsdFile::GenerateElementIdVector"]}
{"id": "C68", "title": "XSD parsing is safe", "statement": "Processing any well-formed XSD document has no undefined behaviour and records every named global element and type.", "quantifier": "every well-formed XSD document", "why_tests_cant": "nested anonymous types and unnamed elements", "anchors": ["src/kml/xsd/xsd_handler.cc XsdHandler::StartElement", "src/kml/xsd/xsd_handler.cc XsdHandler::EndElement", "src/kml/xsd/xsd_handler.cc XsdHandler::EndType"]}
{"id": "C69", "title": "Namespace-qualified names", "statement": "Splitting a qualified name succeeds exactly for names with the target prefix and a non-empty local part, and gives the local part; XSD primitive type names and ids correspond one to one, and the names are those of the standard; an invalid id has the empty name.", "quantifier": "every string", "why_tests_cant": "unbounded strings", "anchors": ["src/kml/xsd/xsd_schema.h XsdSchema::SplitNsName", "src/kml/xsd/xsd_primitive_type.cc XsdPrimitiveType::GetTypeId"]}
{"id": "C70", "title": "Old-style Schema documents parse safely", "statement": "A document using the old Schema parent=\"Placemark\" form is parsed without crashing and each custom element becomes a Placemark carrying its fields as schema data.", "quantifier": "every well-formed document with old-style Schema elements", "why_tests_cant": "names chosen by the document collide with KML names", "anchors": ["src/kml/dom/kml_handler.cc KmlHandler::FindOldSchemaParentName", "src/kml/dom/kml_handler.cc KmlHandler::HandleOldSchemaEndElement", "src/kml/dom/kml_handler.cc KmlHandler::HandleOldSchemaParentEndElement"]}
{"id": "C71", "title": "Names are handed on with the declared prefixes", "statement": "With a given set of namespace declarations, a name that the XML parser reports with its namespace is handed on without prefix for the default namespace, with a prefix declared for that namespace if there is one, and unchanged otherwise.", "quantifier": "every name and namespace", "why_tests_cant": "documents choose any prefixes", "anchors": ["src/kml/base/expat_handler_ns.cc ExpatHandlerNs::TranslatePrefixedName", "src/kml/base/xmlns.h Xmlns"]}
{"id": "C72", "title": "Archive entries read back", "statement": "Every entry added to an archive can be read back with the content added under that name, a name that was not added cannot be read, and the first entry with an extension is found.", "quantifier": "every history of AddEntry calls, every content", "why_tests_cant": "unbounded histories, names and contents", "anchors": ["src/kml/base/zip_file.cc ZipFile::GetEntry", "src/kml/base/zip_file.cc ZipFile::IsInToc", "src/kml/base/zip_file.cc ZipFile::FindFirstOf"]}
{"id": "C73", "title": "XSD child elements and aliases", "statement": "The child elements of an element of a complex type are those of the type in order, with references resolved to the global elements; an alias is found under the name it was set for.", "quantifier": "every schema file, element and name", "why_tests_cant": "unbounded schemas and references", "anchors": ["src/kml/xsd/xsd_file.cc XsdFile::GetChildElements", "src/kml/xsd/xsd_file.cc XsdFile::ResolveRef", "src/kml/xsd/xsd_file.h XsdFile::get_alias"]}
{"id": "C74", "title": "Link parents are complete", "statement": "After a parse the link parents of a file are exactly the elements that can hold a link (overlays, ItemIcon, IconStyle, NetworkLink, Model), in document order, each once.", "quantifier": "every document that parses", "why_tests_cant": "unbounded documents", "anchors": ["src/kml/engine/get_link_parents.h GetLinkParentsParserObserver::NewElement", "src/kml/engine/kml_file.cc KmlFile::get_link_parents"]}
{"id": "C75", "title": "Balloon text", "statement": "The balloon of a feature is the text of its resolved balloon style with the entities of the feature expanded if there is one; otherwise its name as a heading, its description with entities expanded and, without a description, a well-formed table of its extended data. It is always computed.", "quantifier": "every feature, schema lookup and resolved style", "why_tests_cant": "unbounded features, schemas and texts", "anchors": ["src/kml/engine/feature_balloon.cc CreateBalloonText", "src/kml/engine/entity_mapper.cc CreateExpandedEntities"]}
{"id": "C76", "title": "Bar-separated feature files", "statement": "Each line with at least five fields separated by bars appends one placemark with the score, latitude, longitude, name, description and, from a sixth field, style URL of the line, in the order of the lines; shorter lines are ignored, and reading stops at the first empty line.", "quantifier": "every list of lines", "why_tests_cant": "unbounded lines and fields", "anchors": ["src/kml/convenience/csv_file.cc CsvFile::ParseCsvLine", "src/kml/convenience/csv_file.cc CsvFile::ParseCsvFile", "src/kml/convenience/convenience.cc CreatePointPlacemark"]}
{"id": "C77", "title": "Loading, saving and loading again", "statement": "A document that was parsed, serialized (pretty or raw) and parsed again gives an equal element tree, with every child, value, attribute, misplaced child and unknown child in its place, so that saving it again gives the same text.", "quantifier": "every well-formed document", "why_tests_cant": "unbounded documents over all element classes, with unknown and misplaced content", "anchors": ["src/kml/dom/kml_handler.cc KmlHandler", "src/kml/dom/xml_serializer.h XmlSerializer", "src/kml/dom/element.cc Element::SerializeUnknown", "src/kml/dom/parser.cc Parser::Parse"]}
{"id": "C78", "title": "Visitors", "statement": "A pre-order or post-order driver visits every complex element of a tree once, parents before (after) their children and the items of a member in order, and runs for each the visitor's method for the most specific class the visitor overrides, so that overriding the method of one kind sees exactly the elements of that kind.", "quantifier": "every element tree and every set of overridden methods", "why_tests_cant": "unbounded trees over all classes, any set of overrides", "anchors": ["src/kml/dom/visitor.cc: Visitor::Visit*", "src/kml/dom/visitor_driver.cc: SimplePreorderDriver::Visit, SimplePostorderDriver::Visit", "src/kml/dom/element.h: AcceptRepeated", "src/kml/dom/*.cc: Accept, AcceptChildren"]}
{"id": "C79", "title": "Namespace declarations of saved files", "statement": "When a file is saved, every prefix of a tag in it is declared by the root, with the namespace that goes with the prefix, KML is the default namespace if the root is a KML element, and nothing else of the tree or of the user's own declarations changes.", "quantifier": "every root element tree the API can build or the parser can return", "why_tests_cant": "unbounded trees over all classes and namespaces", "anchors": ["src/kml/engine/kml_file.cc: SerializeToString, SerializeToOstream", "src/kml/engine/find_xml_namespaces.cc: FindXmlNamespaces, FindAndInsertXmlNamespaces", "src/kml/base/xml_namespaces.cc: FindXmlNamespaceAndPrefix", "src/kml/dom/*.cc: set_xmlns in constructors"]}
{"id": "C80", "title": "Relative links and links into an archive", "statement": "GetRelativeLinks gives exactly the links of a document that have no scheme and name a file, and KmzCheckLinks reports exactly those of them that the archive does not contain; it succeeds exactly if the archive has a KML file that parses and no link is reported.", "quantifier": "every document, every archive and every set of links", "why_tests_cant": "unbounded documents, links and archives", "anchors": ["src/kml/engine/get_links.cc: GetLinks, GetRelativeLinks", "src/kml/convenience/kmz_check_links.cc: KmzCheckLinks", "src/kml/engine/href.h: IsRelative, IsRelativePath"]}
{"id": "C81", "title": "Features of Atom feeds", "statement": "Filling a container from a feed adds the feature of each entry that has one, in order, as a copy that is written alike, changes nothing else, and returns their number; building a document from a feed follows its pages and ends with the features of all of them; an entry made for a feature gives that feature back; searches for links, addresses, categories, entries and resource ids find the first match.", "quantifier": "every feed, entry and container, any number of pages", "why_tests_cant": "unbounded feeds and pages, any features", "anchors": ["src/kml/convenience/atom_util.cc: CreateEntryForFeature, GetEntryFeature, CloneEntryFeature, GetFeedFeatures, FindRelUrl, FindLink, FindCategoryByScheme, FindEntryByTitle, GetNextFeed, GetGdResourceId", "src/kml/convenience/google_maps_data.cc: GetMapKml, CreateDocumentOfMapFeatures"]}
{"id": "C82", "title": "Counts of elements", "statement": "A parse with an ElementCounter gives the same root as without one and adds to the number of each type the number of elements of that type the parser makes, which for a document is the number of its start tags of that type. A StatsSerializer counts as many end tags as start tags, and its numbers of start tags, elements and fields are those of the complex elements and the simple values of the tree.", "quantifier": "every sequence of parser events, every map and every element", "why_tests_cant": "unbounded documents and trees", "anchors": ["src/kml/convenience/element_counter.h: ElementCounter", "src/kml/dom/stats_serializer.h: StatsSerializer", "src/kml/dom/serializer.h: Serializer"]}
{"id": "C83", "title": "Instances of old-style schemas in containers", "statement": "Collecting schemas gives for each name the last schema with that name in a Document and does not change the parse. A text <T>...</T> with T the name of a schema is converted to <Placemark>...</Placemark>, and no other text is. When a container becomes a child, the placemarks of such instances among its unknown elements are added behind its features, in order, and nothing else changes.", "quantifier": "every text, every map of schemas, every sequence of events, every container", "why_tests_cant": "unbounded texts, documents and containers", "anchors": ["src/kml/engine/parse_old_schema.cc: ConvertOldSchema, ParseOldSchema", "src/kml/engine/schema_parser_observer.h: SchemaParserObserver", "src/kml/engine/old_schema_parser_observer.h: OldSchemaParserObserver"]}
{"id": "C84", "title": "Requests and headers of an HTTP session", "statement": "Headers of a session are never lost or reordered: User-Agent comes first, and every added header and the Authorization header of every successful login go with all later requests. A login succeeds exactly if the answer has an Auth= token, keeps exactly that token, and otherwise changes nothing. The login form has exactly its five fields, a request has one line per header, and looking up a header gives the first one with the name.", "quantifier": "every history of AddHeader and Login, every answer of the server, all texts", "why_tests_cant": "any history of operations and any answer", "anchors": ["src/kml/convenience/http_client.cc: HttpClient, Login, AddHeader, SendRequest, FindHeader, FormatHeader, AppendHeaders"]}
{"id": "C85", "title": "A KML text gives the same elements however it is cut into pieces", "statement": "Parsing KML from an input stream, which is read and parsed a block at a time, gives the same root element and the same calls to the observer as parsing the whole text as a string, wherever the block boundaries fall and however the XML parser cuts character data. If the text is not accepted, or the stream cannot be read to its end, NULL is returned.", "quantifier": "all texts, all block boundaries, all ways in which the XML parser cuts character data, all observers, all streams including those that fail", "why_tests_cant": "The boundary of a block can fall inside any tag, name or text, and the XML parser may cut text anywhere; a test has one text and one placement.", "anchors": ["src/kml/engine/kml_stream.cc: KmlStream::ParseFromIstream", "src/kml/base/expat_parser.cc: ExpatParser::ParseInternalBuffer, _ParseString", "src/kml/dom/kml_handler.cc: KmlHandler::CharData, PopRoot", "src/kml/dom/parser.cc: Parser::Parse"]}
{"id": "C86", "title": "Namespace-aware parsing knows elements by their namespaces", "statement": "ParseAtom and ParseNS recognise an element by its namespace and local name, whatever prefixes the document declares for the namespaces and wherever it declares them: Atom and KML elements are known, elements of other namespaces are not taken for them.", "quantifier": "all documents, all prefixes and scopes of declarations, all observers", "why_tests_cant": "Prefixes can be chosen and redeclared freely at every level of a document; tests use the usual prefixes.", "anchors": ["src/kml/dom/kml_handler_ns.cc: KmlHandlerNS::StartElement, EndElement", "src/kml/dom/parser.cc: Parser::ParseNS, Parser::ParseAtom", "src/kml/base/expat_handler_ns.cc: ExpatHandlerNs::TranslatePrefixedName", "src/kml/base/xmlns.h: Xmlns"]}
{"id": "C87", "title": "The feature list saver takes each feature once and leaves the rest of the document as it was", "statement": "Parsing with a KmlFeatureListSaver puts every feature of the document that is not a container into the feature list, in document order, and every shared style of a Document with an id into the map if one was given. What was taken is as if it had been parsed by itself, except that a reference to a style in the same file gets the style base. The document that results is the one that parsing without the saver would give had those elements not been there. Features inside an Update are not taken.", "quantifier": "all documents, with and without a style map, all style bases", "why_tests_cant": "Which elements are taken depends on the nesting at every level, and the saver changes the tree while it is being built; a test has a few documents.", "anchors": ["src/kml/convenience/kml_feature_list_saver.h: KmlFeatureListSaver::EndElement, StartElement", "src/kml/dom/kml_handler.cc: KmlHandler::EndElement"]}
{"id": "C88", "title": "Regionating a feature list puts every feature into one file, best first", "statement": "FeatureListRegionator::Regionate succeeds exactly when all positions of the features are on the map. Then every feature with a position is in exactly one file, a file has at most the given number of features (any number if zero), all inside its region and in descending order of score; a file with files below it is full, and no feature below has a higher score than one above. The list given keeps its features, sorted by score. The progress monitor is told strictly growing counts of which the last is the number of features with a position. If it says stop, regionation stops.", "quantifier": "all lists of distinct features without parent, all maxima, all positions, all progress monitors including those that stop", "why_tests_cant": "The distribution over files depends on all positions and scores together and on the recursion over regions; a test has one data set.", "anchors": ["src/kml/regionator/feature_list_regionator.h: FeatureListRegionator::Regionate, HasData, GetFeature", "src/kml/regionator/regionator.cc: Regionator::RegionateAligned, _Regionate", "src/kml/convenience/feature_list.cc: FeatureList::RegionSplit, Sort, ComputeBoundingBox", "src/kml/convenience/convenience.cc: CreateRegion2d"]}
{"id": "C89", "title": "Distances and directions on the globe", "statement": "DistanceBetweenPoints is the length of the shorter arc of the great circle between two places, for all latitudes and longitudes; it is a metric. AzimuthBetweenPoints is the direction from the first place to the second, above -180 and at most 180 degrees. LatLngOnRadialFromPoint gives the place at the given distance in the given direction, so that distance and azimuth read back, and going the distance and azimuth to a place leads there. The height and ground distance of a slope are the sides of a right triangle.", "quantifier": "all real latitudes, longitudes, altitudes, distances and directions; exact arithmetic", "why_tests_cant": "The functions range over a continuum; tests compare a few places to a few digits.", "anchors": ["src/kml/base/math_util.cc: DistanceBetweenPoints, AzimuthBetweenPoints, LatLngOnRadialFromPoint, ElevationBetweenPoints, DistanceBetweenPoints3d, GroundDistanceFromRangeAndElevation, HeightFromRangeAndElevation"]}
{"id": "C90", "title": "The view of a feature has the feature in it", "statement": "ComputeFeatureLookAt gives NULL exactly for features without positions; otherwise a view centered in the bounds of the feature, from at least 1000 meters, such that the feature is within a field of view of 60 degrees.", "quantifier": "all features and boxes on the map; exact arithmetic", "why_tests_cant": "Whether all of the feature is in view depends on its extent and place on the globe; a test compares the numbers of one box.", "anchors": ["src/kml/engine/feature_view.cc: ComputeFeatureLookAt, ComputeBboxLookAt", "src/kml/engine/location_util.cc: GetFeatureBounds"]}
{"id": "C91", "title": "What is posted for a feature is the feature", "statement": "AddFeature makes one POST with the Atom content type of an XML document to the given address; reading the document gives an entry with exactly that feature as its content, all namespace prefixes in it are declared and KML elements are in the KML namespace. PostPlacemarks posts every Placemark with a geometry below the feature once, in document order, and returns the number of posts that succeeded.", "quantifier": "all features, addresses, feature hierarchies and behaviours of the server", "why_tests_cant": "Tests post a few fixed features to a mock server; features are unbounded trees and the server may refuse any of the posts.", "anchors": ["src/kml/convenience/google_maps_data.cc: AddFeature, PostPlacemarks"]}
{"id": "C92", "title": "Requests of the Google service clients", "statement": "A service client is created exactly if there is an HTTP client; it keeps the headers of the client and adds the protocol version, and takes its scope from the environment if set there. The search feed of a map is the feature feed with the last segment of its path replaced; a box is one more parameter of a search; the KML of a map is the alternate link with the parameter output=kml. CreateMap posts an entry with the given title and summary to the meta feed; uploads post the data unchanged with their content type; a download asks for the resource id of the entry.", "quantifier": "all clients, environments, map entries, addresses, boxes, titles, summaries and data", "why_tests_cant": "Addresses and texts are unbounded strings; tests compare a few literals.", "anchors": ["src/kml/convenience/google_maps_data.cc: Create, GetScope, GetFeatureFeedUri, GetSearchFeedUri, AppendBboxParameter, SearchMapByBbox, GetKmlUri, CreateMap", "src/kml/convenience/google_doc_list.cc: Create, UploadSpreadsheet, DownloadSpreadsheet", "src/kml/convenience/google_spreadsheets.cc: Create", "src/kml/convenience/google_picasa_web.cc: Create, GetMetaFeedXml"]}
{"id": "C93", "title": "What is fetched does not depend on what was fetched before", "statement": "With an unchanging network FetchDataRelative, FetchKmlRelative, FetchLink and FetchIcon give after any earlier requests, whatever the caches hold or have evicted, what they give with new caches. A KML file that was fetched is given again for the same link, from the cache and without the network.", "quantifier": "all networks, archives, URI libraries, cache sizes, histories of requests, bases and targets", "why_tests_cant": "The answer depends on the history through three caches with evictions; tests make one or two requests.", "anchors": ["src/kml/engine/kml_cache.cc: KmlCache, FetchKmlRelative, FetchKmlAbsolute, FetchDataRelative", "src/kml/engine/kmz_cache.cc: DoFetchAndReturnUrl, FetchFromCache", "src/kml/engine/link_util.cc: FetchLink, FetchIcon", "src/kml/engine/link_util.h: GetHref, GetLinkParentHref, GetIconParentHref"]}
{"id": "C94", "title": "Fields are optional values with defaults", "statement": "For every field with get_, has_, set_ and clear_: has_ tells whether a value was set and not cleared since; get_ gives the last value set and not cleared, or else the value the field has in a new object; calls on other fields change neither. set_ of an element that belongs to a parent already is ignored, and set_ of NULL clears. The defaults are those of the KML schema.", "quantifier": "all 216 fields of all classes, and all sequences of set_ and clear_ calls on them", "why_tests_cant": "The accessors of each field are written by hand; tests try one set and one clear for some of them and no interleavings.", "anchors": ["src/kml/dom/*.h: get_, has_, set_, clear_ and constructors", "src/kml/dom/element.h: SetComplexChild"]}
{"id": "C95", "title": "Dates and times as text", "statement": "DateTime::Create reads every xsd:dateTime and nothing else; GetXsdDate, GetXsdTime and GetXsdDateTime write what was read, so that reading that again gives the same; ToTimeT gives the POSIX time, and of two texts the lesser one is the earlier time. No text overflows the buffers.", "quantifier": "all texts, and all dates and times", "why_tests_cant": "The domain is all strings and all days of ten thousand years; tests try one or two.", "anchors": ["src/kml/base/date_time.cc: Create, ToTimeT, GetXsdTime, GetXsdDate, GetXsdDateTime, DoStrftime, ParseXsdDateTime"]}
{"id": "C96", "title": "Archives made from KML, end to end", "statement": "An archive made from a text, an element, a KML file or a path to one (WriteKmz, CreateFromElement, CreateFromKmlFile, CreateFromKmlFilepath) holds doc.kml first and then, once each, exactly the files of the relative links below the base that exist; CreateFromParse on its bytes gives the same root as the element, and the same as on the text itself. If no archive can be made, false is returned and nothing is left.", "quantifier": "all elements, texts, disks, paths and link lists", "why_tests_cant": "Writing, collecting links, archiving and reading again must agree for every document; a test writes one archive with two pictures.", "anchors": ["src/kml/engine/kmz_file.cc: WriteKmz, CreateFromKmlFilepath, CreateFromElement, CreateFromKmlFile, ReadKml, AddFileList", "src/kml/engine/kml_file.cc: CreateFromParse, CreateFromStringWithUrl, OpenAndParseKmz"]}
{"id": "C97", "title": "Casts give back exactly the elements of the class", "statement": "Every AsXxx function of kml_cast.h, given an element that the factory or a parser made, returns that same element if it is an object of the class cast to, and NULL otherwise; given NULL it returns NULL. It never returns a pointer to an object of another class.", "quantifier": "all 104 cast functions and all elements, with any content", "why_tests_cant": "A cast is an unchecked static_cast behind a test of a type id; that the test and the class agree is a matter of every pair of function and class, which no test goes through.", "anchors": ["src/kml/dom/kml_cast.h: ElementCast, As*", "src/kml/dom/kml_cast.cc", "src/kml/dom/kml_factory.cc: CreateElementById", "src/kml/dom/schema.h: GxSimpleArrayField"]}
{"id": "C98", "title": "Texts of the XML parser become strings unchanged", "statement": "What expat hands over as names, attributes and character data becomes strings with the same text in UTF-8: unchanged where expat gives bytes, converted where it gives UTF-16 units. All names and values of attributes are taken, in turn, and no memory behind their end is read.", "quantifier": "all texts and attribute lists, and all that may lie behind them in memory, in both builds of expat", "why_tests_cant": "The conversion is bit by bit over every character; tests use ASCII.", "anchors": ["src/kml/base/expat_handler.h: xmlchar_to_utf8, xml_char_to_string, xml_char_to_string_n, xml_char_to_string_vec"]}
{"id": "C99", "title": "File names and URIs", "statement": "FilenameToUri gives, for every file name, a URI whose path is well-formed, with file:// exactly for an absolute name; UriToFilename gives the same name again. Whatever the text, neither writes behind the buffer it allocates, and a URI that names no file is refused.", "quantifier": "all file names, of any bytes and length, and all texts as URIs, on Unix and on Windows", "why_tests_cant": "The escaping is of every byte, and the size of the buffers has to do for every text; tests convert a few names.", "anchors": ["src/kml/base/uri_parser.cc: UriToFilename, UriToUnixFilename, UriToWindowsFilename, FilenameToUri, UnixFilenameToUri, WindowsFilenameToUri", "src/kml/engine/kml_uri.cc: UriToFilename, FilenameToUri"]}
{"id": "C100", "title": "Elements made for the caller", "statement": "What the convenience functions make is KML that can be written and read again as it is, for all their arguments: placemarks with points and polygons, cameras and look-ats, regions and the links and documents with them, waits and animated updates, placemarks with a time. The update made to move a point moves just that point when it is done; a flight to a feature goes to its own view, or to the computed one; an outline of a region is closed; a point made of attributes is there just if both are.", "quantifier": "all names, ids, numbers, positions, modes, features with or without a view, files with the placemark to move, attributes", "why_tests_cant": "The functions compose setters of many classes, and what is made must agree with what the parser and the update accept for every argument; tests make one of each.", "anchors": ["src/kml/convenience/convenience.cc: CreatePointFromVec3, CreateAnimatedUpdateChangePoint, CreateBasicPolygonPlacemark, CreateCamera, CreateLookAt, CreatePointFromLatLonAtts, CreateRegion2d, CreateFlyTo, CreateFlyToForFeature, CreateWait, CreatePointPlacemarkWithTimeStamp", "src/kml/regionator/regionator_util.cc: CreateLineStringBox, CreateRegionNetworkLink, CreateRegionDocument"]}
{"id": "C101", "title": "URIs are taken apart and resolved as the RFC has it", "statement": "A text is accepted as a URI just if it is the text of well formed parts, and these are the only ones. Splitting a URI gives the parts from which it can be put together again as scheme://host:port/path?query#fragment. The fetchable URI is the URI without the fragment. Resolving a reference against a base with scheme and host gives a well formed URI without dot segments; a URI with a scheme stays as it is; a fragment replaces the base's; a relative reference names what lies beside the base, a step up for each `../`; a base without scheme is refused. The target of a model's texture is found relative to the geometry, and that relative to the KML file.", "quantifier": "all texts, bases and references, all depths of directories", "why_tests_cant": "The grammar and the removal of dot segments range over unbounded texts; tests resolve a table of examples.", "anchors": ["src/kml/base/uri_parser.cc: UriParser::CreateFromParse, CreateResolvedUri, ToString, GetScheme, GetHost, GetPort, GetPath, GetQuery, GetFragment", "src/kml/engine/kml_uri.cc: ResolveUri, SplitUri, SplitUriPath, SplitUriFragment, GetFetchableUri, ResolveModelTargetHref"]}
{"id": "C102", "title": "No archive makes the reader leave its buffers", "statement": "Whatever bytes are given to be opened as an archive, and whatever file is asked for, reading stays within the data and the buffers, ends, and gives at most as many bytes as the limit allows; the table of contents is no longer than the data can hold, and the directory used is the one of the last end record.", "quantifier": "all byte strings, all paths, all limits, all decompressors that keep to zlib's contract", "why_tests_cant": "A damaged or hostile archive can have any bytes anywhere; tests have a few good archives and one bad one.", "anchors": ["src/kml/base/zip_file.cc: ZipFile::OpenFromString, ZipFile::ZipFile, ZipFile::GetEntry", "src/kml/base/contrib/minizip/unzip.c: unzAttach, unzlocal_SearchCentralDir, unzlocal_GetCurrentFileInfoInternal, unzGoToFirstFile, unzGoToNextFile, unzLocateFile, unzOpenCurrentFile3, unzReadCurrentFile", "src/kml/base/contrib/minizip/iomem_simple.c: mem_read"]}
{"id": "C103", "title": "Well-formed archives are read as the format has it", "statement": "An archive laid out as the ZIP format has it is opened, its table of contents has the names of its files in order, and each file is read back as it was packed, stored or deflated, whether its sizes are in the local header or after it, and whatever extra fields and comments there are.", "quantifier": "all lists of files with any names, contents, times, extra fields and comments, all archive comments, all paths and limits", "why_tests_cant": "Archives come from other programs with any combination of fields; tests have a few made by one program.", "anchors": ["src/kml/base/zip_file.cc: ZipFile::OpenFromString, ZipFile::ZipFile, ZipFile::GetToc, ZipFile::IsInToc, ZipFile::GetEntry", "src/kml/base/contrib/minizip/unzip.c: unzAttach, unzLocateFile, unzlocal_CheckCurrentFileCoherencyHeader, unzReadCurrentFile"]}
{"id": "C104", "title": "Only undamaged content is given out", "statement": "What is read of an archive's file is what was packed: if its bytes were changed, or cannot be read without a password, the reading fails.", "quantifier": "all archives, all changes of bytes", "why_tests_cant": "Any byte of any archive may be changed; tests do not damage archives.", "anchors": ["src/kml/base/zip_file.cc: ZipFile::GetEntry", "src/kml/base/contrib/minizip/unzip.c: unzOpenCurrentFile3, unzReadCurrentFile, unzCloseCurrentFile"]}
{"id": "C105", "title": "Threads do not disturb one another", "statement": "Threads that open archives at the same time each get the names of their own archive; an element shared by threads is deleted once, when the last pointer of any thread has gone; threads that ask for the factory or the schema are all given the same one, fully made.", "quantifier": "all numbers of threads, all schedules, all archives and histories of pointer operations", "why_tests_cant": "There are unboundedly many schedules, and tests run one thread.", "anchors": ["src/kml/base/zip_file.cc: ZipFile::ZipFile", "src/kml/base/referent.h: Referent::add_ref, Referent::release", "src/kml/base/referent.cc: intrusive_ptr_release", "src/kml/dom/kml_factory.cc: KmlFactory::GetFactory", "src/kml/dom/xsd.cc: Xsd::GetSchema"]}
{"id": "C106", "title": "Files hold what was written", "statement": "What is written to a file is read back byte for byte, whatever its length; all other files stay as they are; when a file cannot be read or written in full the call answers false, and then the output and the disk are as they were. An archive that is a file of the disk is opened with its bytes and names.", "quantifier": "all contents of all lengths, all disks, all points at which reading fails or space runs out", "why_tests_cant": "The reading loop works in pieces of 1024 bytes, and tests neither fill the disk nor make reading fail.", "anchors": ["src/kml/base/file.cc: File::ReadFileToString, File::WriteStringToFile", "src/kml/base/file_posix.cc: File::Exists, File::Delete", "src/kml/base/zip_file.cc: ZipFile::OpenFromFile"]}
{"id": "C107", "title": "A crash leaves the old file or the new", "statement": "Wherever the writing of a file is interrupted, the file has its old content or the whole new one, and no other file is touched.", "quantifier": "all crash points, all old and new contents", "why_tests_cant": "Tests cannot crash at every point of a write.", "anchors": ["src/kml/base/file.cc: File::WriteStringToFile"]}
{"id": "C108", "title": "Temporary files are new and go away", "statement": "A temporary file is made where there was nothing; no two live ones are the same file; when the last pointer to one goes its file is removed and no other.", "quantifier": "all disks and all histories of making, writing, removing and dropping", "why_tests_cant": "Histories are unbounded and names are chosen at random.", "anchors": ["src/kml/base/tempfile.h: TempFile::CreateTempFile, TempFile::~TempFile", "src/kml/base/file_posix.cc: File::CreateNewTempFile, File::Exists, File::Delete"]}
{"id": "C109", "title": "Numbers keep their value when they are parsed and serialized", "statement": "A number in a document is read as the double nearest to it, with its sign. Serializing that double and parsing the result gives the same number again, for every double. In particular a decimal number in the range of doubles is written with the value it was read with, and an int with exactly the value it had.", "quantifier": "every decimal text of any number of digits and any exponent, every finite double, every int", "why_tests_cant": "There are 2^64 doubles and no bound on the length of decimal texts; the hard cases are those half way between two doubles, at powers of ten, among the subnormal numbers and at the end of the range.", "anchors": ["src/kml/base/string_util.cc: FromString, ToString, StringToDouble", "src/kml/base/string_util.h: ToString"]}
{"id": "C110", "title": "The midpoints of doubles keep regions nested and aligned", "statement": "With the arithmetic of doubles, both roundings considered, the center of a box from -180 to 180 degrees lies in the box, and the box of every child region lies within that of its parent. Halving the world again and again gives the cells of the exact quadtree with no rounding error at any depth the library uses, and aligning a box gives such a cell holding the box. A child region is smaller than its parent, and the edges of a region are written exactly.", "quantifier": "every pair of doubles whose sum is far from overflow, every box of doubles from -180 to 180, every level of the quadtree down to 47", "why_tests_cant": "There are 2^128 pairs of doubles, and a rounding error would show only on a few of them; an error in one level would be carried to all levels below.", "anchors": ["src/kml/engine/bbox.h: Bbox::GetCenterLat, Bbox::GetCenterLon, Bbox::AlignBbox", "src/kml/engine/location_util.cc: GetCenter", "src/kml/regionator/regionator_util.cc: CreateChildRegion"]}
{"id": "C111", "title": "Numbers do not depend on the locale of the program", "statement": "Whatever the global locale of the program is, numbers in documents are read and written as in the classic locale, so that a document written in one locale is read in any other. The ids of regions, the names of the files of a regionator and the places in error messages do not depend on the locale either, and the regionator gives different files different names.", "quantifier": "every locale (decimal point, separator and grouping), every text, double and int, every number of a file, line and column", "why_tests_cant": "Tests run in one locale, mostly the classic one.", "anchors": ["src/kml/base/string_util.cc: FromString, ToString", "src/kml/base/string_util.h: ToString", "src/kml/base/expat_parser.cc: ExpatParser::ReportError", "src/kml/regionator/regionator_qid.h: Qid::CreateChild", "src/kml/regionator/regionator.cc: Regionator::RegionFilename"]}
{"id": "C112", "title": "LocaleC gives back the locale", "statement": "In a block with a LocaleC object numbers are those of the classic locale and the other categories are as before; after the block the thread has the locale it had, every locale object that was made is freed, and no other.", "quantifier": "every nesting and sequence of blocks, every locale of the thread or of the process, every success or failure of making a locale", "why_tests_cant": "Nestings are unbounded, and making a locale fails only when memory is short.", "anchors": ["src/kml/base/localec.cc: LocaleC::LocaleC, LocaleC::~LocaleC"]}
{"id": "C113", "title": "The clock tells microseconds", "statement": "The time that GetMicroTime gives, in seconds as a double, is the moment up to less than half a microsecond, so that its microsecond can be read off and a later moment has a greater time.", "quantifier": "every moment from 1970 to 2106 (sec below 2^32, any microsecond); on Windows every file time from 1970 on", "why_tests_cant": "Neighbouring doubles at today's times are a quarter of a microsecond apart, and there are 4*10^15 moments.", "anchors": ["src/kml/base/time_util.cc: GetMicroTime, gettimeofday"]}
{"id": "C114", "title": "Declarations of entities are refused, and failures are told", "statement": "A text or stream that declares an entity is never parsed: NULL is returned, and neither the result nor any observer sees anything of what stands behind the declaration, so that no entity is ever expanded. Whenever parsing fails, the caller who passed a string for errors is told of the failure, with its line and column for errors of XML, and of the right one; if it does not fail, nothing is said. What is parsed does not depend on whether the caller wants to be told.", "quantifier": "all texts and streams of any length, all behaviours of the XML parser and all observers", "why_tests_cant": "Entities can be declared in unboundedly many ways and places, and a parse can fail at any point of any document.", "anchors": ["src/kml/base/expat_parser.cc: entityDeclHandler, ExpatParser::_ParseString, ParseInternalBuffer, ReportError"]}
{"id": "C115", "title": "What a service answers is what is returned", "statement": "The calls that fetch feeds from Google's services or post files to them (GetMetaFeed, GetFeatureFeedByUri, SearchMapByBbox, GetAndParseFeed, GetNextFeed, PostMedia, PostCsv, PostKml) send the one request they are for and return the element that the XML of the answer says, known by its namespaces whatever prefixes are used, if it is of the promised class. In all other cases, a failed request, a text that is not XML, a document of another kind, they return NULL. CreateDocumentOfMapFeatures asks for every page behind a feed, once and in order, and the document has copies of the features of all of them, or the caller learns that pages are missing. What PostMedia and PostCsv say in errors is the answer.", "quantifier": "all calls with all arguments, all behaviours of the service after any earlier requests, all answers", "why_tests_cant": "What a server sends, and after which history, is beyond any set of tests.", "anchors": ["src/kml/convenience/google_maps_data.cc: GetMetaFeed, GetFeatureFeedByUri, SearchMapByBbox, PostMedia, PostCsv, PostKml", "src/kml/convenience/google_doc_list.cc: GetMetaFeed", "src/kml/convenience/google_spreadsheets.cc: GetMetaFeed", "src/kml/convenience/google_picasa_web.cc: GetMetaFeed", "src/kml/convenience/atom_util.cc: GetAndParseFeed, GetNextFeed", "src/kml/dom/parser.cc: Parser::ParseAtom"]}
{"id": "C116", "title": "Names of files on Windows", "statement": "On Windows File::Exists and File::Delete are about the very file that ReadFileToString and WriteStringToFile would open for the same path, and about no other. CreateNewTempFile makes an empty file where nothing was and gives its path, and the TempFile object removes it when it goes.", "quantifier": "all paths of any bytes, all code pages of the system, all contents of the disk and all temporary directories", "why_tests_cant": "Names of files are unbounded, and tests run with the names and the code page of one machine.", "anchors": ["src/kml/base/file_win32.cc: Str2Wstr, Wstr2Str, File::Exists, File::Delete, File::CreateNewTempFile"]}
{"id": "C117", "title": "An archive object under any history of calls", "statement": "A KmzFile opened from bytes gives those bytes back from SaveToString, the same names from List and the same contents from ReadFile and ReadKml after any calls whatever, refuses every AddFile, and reads nothing beyond the limit last set; the saved bytes open as the same archive. List appends to the vector. ReadFile without a place for the result says whether the file can be read. A KmzFile being made lists, reads and saves what was added to it.", "quantifier": "all bytes, all histories of calls on the object, all paths, data and limits, and every decompressor", "why_tests_cant": "Histories of calls are unbounded, and tests use each object for one purpose.", "anchors": ["src/kml/engine/kmz_file.cc: KmzFile::ReadKmlAndGetPath, ReadFile, List, SaveToString, AddFile, set_max_uncompressed_file_size", "src/kml/base/zip_file.cc: ZipFile::GetEntry, GetToc, AddEntry, Create"]}
{"id": "C118", "title": "A UriParser may be used as long as it lives", "statement": "Once CreateFromParse has made a UriParser, its getters give exactly the parts found in the text, whatever is done with other parsers and texts; after Normalize they give the normalised parts and no text is needed any more; what CreateResolvedUri returns has the resolved parts although the parsers it was made of are gone. Destroying all parsers gives all memory back.", "quantifier": "all texts, all histories of making, normalising, resolving, parsing again, destroying and of freeing texts, and every way uriparser splits, normalises and resolves", "why_tests_cant": "Use after free depends on the order of calls and lifetimes of caller buffers; tests parse literals, which live for ever.", "anchors": ["src/kml/base/uri_parser.cc: UriParser::CreateFromParse, CreateResolvedUri, Parse, Normalize, Resolve, GetScheme, GetPath, ~UriParserPrivate", "src/kml/base/uri_parser.h: memory-safe wrapper"]}
{"id": "C119", "title": "The parent of an element", "statement": "GetParent of an element that is a child gives the element that has it, after any history of making, adding, setting, clearing, taking out, copying and forgetting elements; of one never added it gives nothing; and it can be asked of every element the client has. An element lives exactly as long as a smart pointer to it.", "quantifier": "all histories of calls on any number of elements, all orders in which pointers go", "why_tests_cant": "Parents are plain pointers: whether one is used after its element was freed depends on the order in which the client lets elements go.", "anchors": ["src/kml/base/xml_element.h: XmlElement::GetParent, SetParent", "src/kml/dom/element.h: Element::SetComplexChild, AddComplexChild, DeleteFromArrayAt", "src/kml/dom/element.cc: Element::GetParent"]}
{"id": "C120", "title": "Files and the caches they came from", "statement": "A file fetched through a cache is the one the link refers to, is marked with that cache for good, and may be held, with its URL, after the cache is gone; following its links uses that cache and no other, and is defined for every file the client holds.", "quantifier": "all histories of opening and closing caches, parsing, fetching, following links and letting files go; all URLs, links and contents of the network; all limits", "why_tests_cant": "Whether the plain pointer of a file to its cache is used after the cache is gone depends on the order of lifetimes; tests have one cache that outlives its files.", "anchors": ["src/kml/engine/kml_cache.cc: KmlCache::FetchKmlRelative, FetchKmlAbsolute", "src/kml/engine/link_util.cc: FetchLink, FetchIcon", "src/kml/engine/kml_file.h: KmlFile::get_kml_cache", "src/kml/engine/style_merger.cc: StyleMerger::MergeStyleUrl", "src/kml/base/net_cache.h: NetCache (beyond the lifetime of the cache)"]}
{"id": "C121", "title": "XSD schemas, elements and types made by name", "statement": "A schema is made exactly from a prefix and a namespace that are not empty, and has them; an element is always made with the name and type given and nothing else set; a complex type is always made with its name. In a file with such a schema, a type put into it is found as the type of every element made with the prefix, a colon and the type's name, and elements of built-in types have those types in every file.", "quantifier": "all prefixes, namespaces, names and types, any text included; all files", "why_tests_cant": "The pieces are made through attribute lists and namespace lookup over arbitrary text; tests make a handful with tidy names.", "anchors": ["src/kml/xsd/xsd_util.cc: CreateXsdComplexType, CreateXsdElement, CreateXsdSchema", "src/kml/xsd/xsd_file.cc: XsdFile::FindElementType", "src/kml/xsd/xsd_schema.h: XsdSchema::SplitNsName"]}
