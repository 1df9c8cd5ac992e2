{"id": "C01", "title": "Record header encode/decode round trip", "statement": "Encoding a record header and decoding the resulting bytes returns the same tag id, level and size and leaves the stream exactly after the header, whether the size fits the 12-bit inline field or needs the 32-bit extension.", "quantifier": "for all tagid < 1024, level < 1024, size < 2^32 and all bytes that follow the header", "why_tests_cant": "There are 2^52 headers; tests sample a handful and in particular never hit both sides of the 0xfff boundary together with every tag/level.", "anchors": ["src/hwp5/recordstream.py: encode_record_header, decode_record_header"]}
{"id": "C02", "title": "Record stream dump/read round trip", "statement": "Writing any list of records with dump_record and reading the bytes back with read_records yields the same records, in order, numbered 0,1,2,...", "quantifier": "for all finite lists of records whose tag id and level fit 10 bits and whose size equals the payload length (< 2^32)", "why_tests_cant": "Unbounded number of records and payloads; the one shape that breaks it (an empty payload) is absent from the sample documents.", "anchors": ["src/hwp5/recordstream.py: dump_record, read_record, read_records", "src/hwp5/dataio.py: readn"]}
{"id": "C03", "title": "Re-exporting a record stream reproduces the bytes", "statement": "Reading all records of a stream and dumping them again gives back the original bytes (what `hwp5proc records --raw` promises).", "quantifier": "for all byte strings that read_records accepts", "why_tests_cant": "Needs every byte string; only non-canonical size encodings and truncated tails disturb it and no fixture has them.", "anchors": ["src/hwp5/recordstream.py: read_records, dump_record", "src/hwp5/proc/records.py: main"]}
{"id": "C04", "title": "Truncated record streams are not silently accepted", "statement": "If a well-formed record stream is cut at a point that is not a record boundary, reading it reports an error instead of yielding a list of records as if the stream were complete.", "quantifier": "for all well-formed record lists and all cut positions", "why_tests_cant": "A test would have to cut every stream at every position.", "anchors": ["src/hwp5/recordstream.py: decode_record_header, read_record, read_records", "src/hwp5/dataio.py: readn"]}
{"id": "C05", "title": "Top-level grouping is a lossless partition", "statement": "Grouping records by top-level trees loses, duplicates and reorders nothing: the groups are nonempty, their concatenation is the input, every group after the first starts with a level-0 record and no other record of a group has level 0.", "quantifier": "for all finite record sequences", "why_tests_cant": "Quantifies over all level sequences, including ones that do not start at level 0.", "anchors": ["src/hwp5/recordstream.py: group_records_by_toplevel, RecordStream.records_treegrouped"]}
{"id": "C06", "title": "Record selection agrees with slicing the full list", "statement": "records(range=(a,b)) returns exactly records a..b-1 of the full list, record(i) its i-th element, and records(treegroup=n) the n-th group; out-of-range requests yield an empty range / no result, never a wrong record.", "quantifier": "for all record streams and all indices", "why_tests_cant": "All indices and all lists; off-by-one at the end of the stream is not exercised.", "anchors": ["src/hwp5/recordstream.py: RecordStream.records, RecordStream.record, records_treegroup, nth"]}
{"id": "C07", "title": "Lazy grouping equals eager grouping for consumers that drain each group", "statement": "With group_as_list=False, a consumer that exhausts each group before asking for the next sees exactly the groups of the list mode; a consumer that does not drain a group does not get the next group.", "quantifier": "for all record sequences and all consumption schedules (how many records are taken from each group before the next group is requested)", "why_tests_cant": "The result depends on the interleaving of two generators sharing state; tests only look at the type of the first group.", "anchors": ["src/hwp5/recordstream.py: group_records_by_toplevel"]}
{"id": "C08", "title": "Level-prefixed items become a balanced event stream", "statement": "Turning level-prefixed items into start/end events yields a properly nested event stream in which the start events are exactly the items in order, each at nesting depth equal to its level (relative to the first item); it fails exactly when a level is more than one deeper than its predecessor.", "quantifier": "for all sequences of level-prefixed items whose levels are not below the first one", "why_tests_cant": "All level sequences of any length.", "anchors": ["src/hwp5/treeop.py: prefix_event"]}
{"id": "C09", "title": "Trees and event streams are inverse to each other", "statement": "Building a tree from the event stream of a tree returns that tree and consumes exactly its events, leaving whatever follows untouched.", "quantifier": "for all trees of any size and all trailing events", "why_tests_cant": "Unbounded trees and trailing contexts.", "anchors": ["src/hwp5/treeop.py: build_subtree, tree_events, tree_events_multi"]}
{"id": "C10", "title": "Ancestor lists are the true ancestors, however they are computed", "statement": "Computing ancestors from levels directly or from the event stream derived from the levels gives the same list of (ancestors, item) pairs, and the last ancestor is the nearest preceding item with a smaller level.", "quantifier": "for all valid level sequences", "why_tests_cant": "Two independent implementations must agree on all inputs.", "anchors": ["src/hwp5/treeop.py: prefix_ancestors, prefix_ancestors_from_level, prefix_event"]}
{"id": "C11", "title": "Skipping a subtree consumes exactly that subtree", "statement": "After a start event has been consumed, iter_subevents yields the rest of that element up to and including its end event and nothing more.", "quantifier": "for all elements and all trailing events", "why_tests_cant": "Unbounded nesting depth and trailing contexts.", "anchors": ["src/hwp5/treeop.py: iter_subevents", "src/hwp5/bintype.py: pop_subevents"]}
{"id": "C12", "title": "Paragraph text chunks tile the payload", "statement": "Splitting the paragraph text payload yields chunks whose ranges are consecutive, start at 0 and end at the end of the payload, so no code unit is lost, duplicated or reordered.", "quantifier": "for all byte strings of even length on which splitting succeeds", "why_tests_cant": "All payloads, including control codes at odd byte offsets.", "anchors": ["src/hwp5/binmodel/tagid51_para_text.py: ParaTextChunks.parse_chunks", "src/hwp5/binmodel/controlchar.py: ControlChar.find"]}
{"id": "C13", "title": "Text chunks contain no control code and control chunks have their defined width", "statement": "A text chunk never contains a code unit below 0x20; a control chunk starts at an even offset with a control code and spans 1 code unit for character controls and 8 for inline/extended controls.", "quantifier": "for all payloads of even length on which splitting succeeds", "why_tests_cant": "All alignments of the regular expression match; the byte-level search could match across code unit borders.", "anchors": ["src/hwp5/binmodel/controlchar.py: ControlChar.find, ControlChar.chars, ControlChar.kinds"]}
{"id": "C14", "title": "Every control code is handled when splitting paragraph text", "statement": "Splitting succeeds for every paragraph text made of complete code units and complete controls: any code below 0x20 is a known control.", "quantifier": "for all payloads built from text units and complete controls with any code 0..0x1f", "why_tests_cant": "Needs all 32 codes in all contexts; the table of codes has holes no fixture touches.", "anchors": ["src/hwp5/binmodel/controlchar.py: ControlChar.chars, ControlChar.find", "src/hwp5/binmodel/tagid51_para_text.py: parse_chunks"]}
{"id": "C15", "title": "Paragraph text encode/parse round trip", "statement": "Serialising any sequence of text runs and complete known controls to the payload format and splitting it again gives back the same text runs and the same control codes/parameters, with adjacent text merged.", "quantifier": "for all sequences of nonempty text runs (code units >= 0x20) and known controls", "why_tests_cant": "All sequences; parameters of a control may themselves contain bytes that look like control codes.", "anchors": ["src/hwp5/binmodel/controlchar.py: ControlChar.find, ControlChar.decode", "src/hwp5/binmodel/tagid51_para_text.py: parse_chunks"]}
{"id": "C16", "title": "Splitting text by shape preserves the text and applies the right shape", "statement": "Splitting ranged text chunks at shape boundaries yields pieces whose ranges tile the input ranges, whose concatenation is the input text, and each of which lies entirely within the range of the shape it is labelled with.", "quantifier": "for all contiguous chunk lists (positions below 0x7fffffff, the end mark used by the code) and all ascending shape lists that start at or before the first chunk and have no boundary inside a control", "why_tests_cant": "Any relative position of chunk and shape boundaries.", "anchors": ["src/hwp5/xmlmodel.py: make_ranged_shapes, split_and_shape"]}
{"id": "C17", "title": "Every character gets the shape in force at its position", "statement": "Each character of a paragraph is labelled with the character shape whose range contains the character's position in UTF-16 code units.", "quantifier": "for all texts, including characters outside the BMP, and all shape lists", "why_tests_cant": "Positions count UTF-16 units while slicing counts characters; tests use BMP text only.", "anchors": ["src/hwp5/xmlmodel.py: split_and_shape, merge_paragraph_text_charshape_lineseg"]}
{"id": "C18", "title": "Line segmentation is a lossless grouping", "statement": "Grouping shaped chunks by line segment yields nonempty consecutive groups whose concatenation is the input and each group carries one line segment.", "quantifier": "for all chunk sequences", "why_tests_cant": "All interleavings of line boundaries.", "anchors": ["src/hwp5/xmlmodel.py: line_segmented"]}
{"id": "C19", "title": "Language tokenisation is lossless", "statement": "The concatenation of the tokens is the text, no token is empty, and adjacent tokens have different languages.", "quantifier": "for all strings", "why_tests_cant": "All Unicode strings.", "anchors": ["src/hwp5/charsets.py: tokenize_unicode_by_lang, get_unichr_lang", "src/hwp5/xmlmodel.py: tokenize_text_by_lang"]}
{"id": "C20", "title": "Field matching keeps the event stream well nested", "statement": "Pairing field-start controls with field-end characters (closing and reopening fields at line borders) turns a well nested event stream into a well nested one.", "quantifier": "for all well nested event streams", "why_tests_cant": "Requires all combinations of nested paragraphs and unmatched fields.", "anchors": ["src/hwp5/xmlmodel.py: match_field_start_end"]}
{"id": "C21", "title": "Paragraphs become children of their list header", "statement": "Making paragraphs children of the preceding list header keeps all elements and their order, keeps the stream well nested and moves exactly the paragraphs that directly follow a list header (as siblings) into it.", "quantifier": "for all well nested event streams whose list headers are not at the top level", "why_tests_cant": "All trees.", "anchors": ["src/hwp5/xmlmodel.py: make_paragraphs_children_of_listheader"]}
{"id": "C22", "title": "Table cells are grouped into rows as declared", "statement": "Restructuring a table body with row widths r1..rn and r1+...+rn cells puts exactly ri consecutive cells into row i and keeps the event stream well nested.", "quantifier": "for all lists of row widths, including zero-cell rows, and all cell contents", "why_tests_cant": "All row-width lists; rows without own cells (fully covered by row spans) are not in the fixtures.", "anchors": ["src/hwp5/xmlmodel.py: restructure_tablebody"]}
{"id": "C23", "title": "Extended controls are inlined at their anchor characters", "statement": "The n-th extended control character of a paragraph is replaced by the n-th control of that paragraph, and with equally many of both no control is lost or duplicated, at any nesting depth.", "quantifier": "for all paragraphs, including nested ones", "why_tests_cant": "Recursion over nested paragraphs of any depth.", "anchors": ["src/hwp5/xmlmodel.py: make_extended_controls_inline"]}
{"id": "C24", "title": "Section wrapping keeps all content", "statement": "Wrapping a section in its SectionDef element keeps every event outside the SectionDef subtree, in order, and yields one well nested element.", "quantifier": "for all well nested section event streams that contain a section definition", "why_tests_cant": "The position of the section definition in the stream is arbitrary, including absent.", "anchors": ["src/hwp5/xmlmodel.py: wrap_section"]}
{"id": "C25", "title": "Column sets wrap consecutive paragraphs", "statement": "Wrapping paragraphs into column sets keeps all events in order (adding only column-set start/end events) and the stream well nested.", "quantifier": "for all well nested event streams", "why_tests_cant": "All nestings of paragraphs and other elements.", "anchors": ["src/hwp5/xmlmodel.py: wrap_columns"]}
{"id": "C26", "title": "Unique ids are unique and consecutive", "statement": "Each start event of an id-carrying model gets the next number of its model's counter: ids are 0,1,2,... in document order, and all other attributes and events are unchanged.", "quantifier": "for all event streams", "why_tests_cant": "All interleavings of the counted models.", "anchors": ["src/hwp5/xmlmodel.py: give_elements_unique_id"]}
{"id": "C27", "title": "Escaped text and attribute values survive XML parsing", "statement": "Unescaping the serialised text or attribute value gives back the original value without NUL characters, and the serialised form contains no raw '<' and no unescaped quote delimiter.", "quantifier": "for all strings", "why_tests_cant": "All strings; quoting style depends on which quote characters occur.", "anchors": ["src/hwp5/xmlformat.py: xmlevents_to_textchunks"]}
{"id": "C28", "title": "Serialised XML events parse back to the same events", "statement": "Parsing the text produced for a well nested event stream returns the same elements, attributes and text, so the serialised document is well formed.", "quantifier": "for all well nested event streams with valid names", "why_tests_cant": "All event streams.", "anchors": ["src/hwp5/xmlformat.py: xmlevents_to_textchunks, xmlevents_to_bytechunks"]}
{"id": "C29", "title": "Embedded binary data is recoverable", "statement": "The base64 text emitted for embedded binary data decodes to the original bytes and has no line longer than 64 characters.", "quantifier": "for all byte strings", "why_tests_cant": "All lengths mod 3 and mod 48.", "anchors": ["src/hwp5/xmlmodel.py: embed_bindata"]}
{"id": "C30", "title": "Bit groups of a flags value", "statement": "A declared bit group lsb..msb of a flags value equals the number formed by those bits; disjoint groups are independent and a set of groups covering all bits determines the value.", "quantifier": "for all values and all 0 <= lsb <= msb", "why_tests_cant": "All values and group positions.", "anchors": ["src/hwp5/dataio.py: BitGroupDescriptor.__get__, FlagsType"]}
{"id": "C31", "title": "Flags declarations are parsed faithfully", "statement": "Parsing the flat argument list of a Flags declaration recovers each (lsb, msb, type, name) entry for every mix of abbreviated forms.", "quantifier": "for all sequences of entries in any of the four forms", "why_tests_cant": "Any sequence; the parser pushes tokens back.", "anchors": ["src/hwp5/dataio.py: _lex_flags_args, _parse_flags_args, Flags"]}
{"id": "C32", "title": "Enum construction preserves the integer value", "statement": "Constructing an enum from a number gives an object with that number; names map to their number and back, and undefined numbers are preserved without a name.", "quantifier": "for all enum declarations and all integers", "why_tests_cant": "All declarations, including aliases.", "anchors": ["src/hwp5/dataio.py: EnumType.__new__, EnumType.__call__, Enum"]}
{"id": "C33", "title": "Little-endian integers round trip", "statement": "Decoding the little-endian encoding of a number of a primitive type returns that number, and every byte string of the right width decodes to a number in range whose encoding is that byte string.", "quantifier": "for all values of every integer primitive type, signed and unsigned", "why_tests_cant": "Up to 2^32 values.", "anchors": ["src/hwp5/dataio.py: PrimitiveType.decode, PrimitiveType.read, UINT32, INT32, UINT16, INT16, UINT8, INT8"]}
{"id": "C34", "title": "Length-prefixed strings round trip", "statement": "Reading a BSTR written as code-unit count plus UTF-16LE returns the string and leaves the stream right behind it.", "quantifier": "for all strings of fewer than 65536 code units and all following bytes", "why_tests_cant": "All strings, surrogate pairs and the empty string included.", "anchors": ["src/hwp5/dataio.py: BSTR.read"]}
{"id": "C35", "title": "Hex dump is lossless", "statement": "The hexadecimal dump of a byte string determines the byte string and shows 16 bytes per line.", "quantifier": "for all byte strings", "why_tests_cant": "All lengths.", "anchors": ["src/hwp5/dataio.py: dumpbytes, hexdump"]}
{"id": "C36", "title": "Structured reading consumes a prefix and reports the exact rest", "statement": "Reading a typed value consumes a prefix of the payload; the bytes reported as unparsed are exactly the remaining suffix, so parsed bytes and unparsed bytes together are the payload.", "quantifier": "for all type descriptions and all payloads on which reading succeeds", "why_tests_cant": "All types and payloads.", "anchors": ["src/hwp5/bintype.py: read_type_events", "src/hwp5/binmodel/__init__.py: parse_models_intern, resolve_models"]}
{"id": "C37", "title": "Event-driven reading computes the declared structure", "statement": "The event pipeline (definition compilation, version filter, selection/condition/array resolution, value resolution, composite construction) returns the same value and consumes the same bytes as reading the members one after another as the declaration says.", "quantifier": "for all type declarations (structs, fixed/counted/referenced arrays, selective members, conditions, versions), contexts and payloads", "why_tests_cant": "All declarations and payloads; the pipeline is five chained generators mutating shared items.", "anchors": ["src/hwp5/bintype.py: bintype_map_events, filter_with_version, resolve_typedefs, resolve_values_from_stream, construct_composite_values, read_type"]}
{"id": "C38", "title": "Version filtering is exact and monotonic", "statement": "A member declared with a minimum version is read iff the document version is at least that version, its whole subtree is skipped otherwise, and a newer version never drops a member.", "quantifier": "for all type declarations and all version pairs", "why_tests_cant": "All version pairs and nesting positions.", "anchors": ["src/hwp5/bintype.py: filter_with_version", "src/hwp5/dataio.py: StructType.parse_members"]}
{"id": "C39", "title": "Caching of compiled type definitions is transparent", "statement": "For any history of lookups the cached compiled definition equals the freshly compiled one for the requested type and version.", "quantifier": "for all finite histories of lookups with any mix of types and versions", "why_tests_cant": "Depends on the call history.", "anchors": ["src/hwp5/bintype.py: get_compiled_typedef, get_compiled_typedef_with_version"]}
{"id": "C40", "title": "Parametrised array types are interned", "statement": "Requesting an array type twice with the same item type and length gives the same type; different parameters give different types, in any order of requests.", "quantifier": "for all finite histories of requests", "why_tests_cant": "Depends on the call history.", "anchors": ["src/hwp5/dataio.py: ARRAY, N_ARRAY, FixedArrayType, VariableLengthArrayType"]}
{"id": "C41", "title": "Distribution key derivation is total and in range", "statement": "For every 256-byte head the derivation returns an 80-byte digest area and a 16-byte key, and any other length is rejected.", "quantifier": "for all byte strings", "why_tests_cant": "2^2048 heads.", "anchors": ["src/hwp5/distdoc.py: decode_head_to_sha1, decode_head_to_key"]}
{"id": "C42", "title": "Head obfuscation is an involution", "statement": "Applying the head transformation twice gives back the 256-byte head; the first four bytes are never changed.", "quantifier": "for all 256-byte heads", "why_tests_cant": "2^2048 heads.", "anchors": ["src/hwp5/distdoc.py: decode_head_to_sha1, Random"]}
{"id": "C43", "title": "Distribution stream decoding recovers the plaintext", "statement": "Decoding head record plus ciphertext yields exactly the plaintext for every block cipher whose decryption inverts its encryption; a stream not starting with the distribution record is rejected.", "quantifier": "for all plaintexts (whole blocks), keys and inverse cipher pairs", "why_tests_cant": "All plaintexts and any cipher implementation behind the platform switch.", "anchors": ["src/hwp5/distdoc.py: decode, decrypt_tail", "src/hwp5/filestructure.py: Hwp5DistDocStream"]}
{"id": "C44", "title": "Leaf enumeration is complete and every leaf can be opened", "statement": "Enumerating storage leaves yields each stream of the storage tree exactly once, and opening each reported path returns that stream.", "quantifier": "for all storage trees whose names do not contain '/'", "why_tests_cant": "All trees.", "anchors": ["src/hwp5/storage/__init__.py: iter_storage_leafs, open_storage_item"]}
{"id": "C45", "title": "OLE directory listing is complete", "statement": "Walking an OLE file through the storage interface reaches every stream in it.", "quantifier": "for all OLE directory structures", "why_tests_cant": "All directory trees; HWP fixtures are at most two levels deep.", "anchors": ["src/hwp5/plat/olefileio.py: OleStorageItem.__iter__, olefile_listdir"]}
{"id": "C46", "title": "Unpacking writes each stream to its own file", "statement": "Unpacking a storage writes one file per stream: different streams never overwrite each other.", "quantifier": "for all storage trees with distinct sibling names", "why_tests_cant": "All name combinations, including names that collide after control characters are replaced.", "anchors": ["src/hwp5/storage/__init__.py: unpack"]}
{"id": "C47", "title": "Document layers are chosen by the header flags", "statement": "The streams exposed by a document are raw for password-protected documents; otherwise they are decrypted iff distributable and then decompressed iff compressed, in that order, for exactly the documented streams.", "quantifier": "for all header flag values and all storage contents", "why_tests_cant": "All flag combinations times all stream names.", "anchors": ["src/hwp5/filestructure.py: Hwp5File.__init__, Hwp5Compression, Hwp5DistDoc, Hwp5PasswordProtectedDoc"]}
{"id": "C48", "title": "Sections are enumerated in numeric order and can be opened", "statement": "The section list is sorted by section number and every listed section opens the stream it was listed for.", "quantifier": "for all storages with any item names", "why_tests_cant": "All name sets (Section10 vs Section9, non canonical numbers, other names).", "anchors": ["src/hwp5/filestructure.py: Sections.section_indexes, Sections.section, Sections.sections"]}
{"id": "C49", "title": "File version decoding and ordering", "statement": "The version tuple read from the file header orders documents like the 32-bit version number does and determines the four version bytes.", "quantifier": "for all pairs of 4-byte version fields", "why_tests_cant": "2^64 pairs.", "anchors": ["src/hwp5/filestructure.py: VERSION, HwpFileHeader.version"]}
{"id": "C50", "title": "Decompression falls back to the raw bytes", "statement": "Opening a compressed stream yields the inflated data when the stream is a valid deflate stream and the stored bytes unchanged otherwise, positioned at the start.", "quantifier": "for all byte strings and every inflate implementation", "why_tests_cant": "All byte strings.", "anchors": ["src/hwp5/compressed.py: decompress", "src/hwp5/filestructure.py: CompressedStream, CompressedStorage"]}
{"id": "C51", "title": "Generator-backed readers deliver the generated bytes", "statement": "Any sequence of sized reads followed by a final read delivers exactly the concatenation of the generated chunks, and no sized read returns more than the requested number of bytes.", "quantifier": "for all chunk sequences and all read-size schedules", "why_tests_cant": "All schedules.", "anchors": ["src/hwp5/utils.py: GeneratorReader.read, GeneratorTextReader.read"]}
{"id": "C52", "title": "JSON array output is valid JSON", "statement": "The token stream for a list of JSON values is the JSON array of those values.", "quantifier": "for all lists of values, including the empty list", "why_tests_cant": "All lists; the empty stream is not tested.", "anchors": ["src/hwp5/utils.py: generate_json_array"]}
{"id": "C53", "title": "Cached properties are evaluated once", "statement": "In any sequence of accesses, a cached property's function runs until it first returns and never again, and every access from then on returns that value (or a value assigned later).", "quantifier": "for all finite access histories over several objects", "why_tests_cant": "All histories.", "anchors": ["src/hwp5/utils.py: cached_property"]}
{"id": "C54", "title": "Raw deflate reader delivers the inflated bytes", "statement": "Repeatedly reading from the raw-deflate stream reader until it returns nothing delivers the whole inflated stream.", "quantifier": "for all compressed streams, read sizes and chunkings", "why_tests_cant": "All chunkings; fixtures are smaller than one input buffer.", "anchors": ["src/hwp5/zlib_raw_codec.py: StreamReader.read"]}
{"id": "C55", "title": "Summary information properties are found by id", "statement": "Reading a property set and asking for a property id returns the value stored under that id; ids that are not stored are reported as missing.", "quantifier": "for all property sets, with or without a dictionary property", "why_tests_cant": "All property sets.", "anchors": ["src/hwp5/msoleprops.py: PropertySetStreamReader.read, PropertySet.__getitem__", "src/hwp5/summaryinfo.py"]}
{"id": "C56", "title": "Face names are split by language without loss", "statement": "The per-language font lists partition the document's face name list in order, with the sizes declared in the id mappings.", "quantifier": "for all id mappings and face name lists", "why_tests_cant": "All count vectors.", "anchors": ["src/hwp5/binmodel/__init__.py: DocInfo.facenames_by_lang"]}
{"id": "C57", "title": "The record-to-XML event pipeline yields well nested sections", "statement": "Composing all restructuring passes on a section's model events yields a single well nested section definition element with the given section id, whenever the records form a proper section tree: paragraphs whose text, shapes and lines fit, with one control per extended control character, complete tables and properly placed fields. No error occurs; every other element occurs as often as before; every paragraph keeps exactly its own text, in order.", "quantifier": "for all proper section record trees", "why_tests_cant": "All documents.", "anchors": ["src/hwp5/xmlmodel.py: Section.events, wrap_modelevents"]}
{"id": "C58", "title": "Parent links name the enclosing record", "statement": "After linking, every record below the top level that has an enclosing record is linked to it (directly or through its elder sister).", "quantifier": "for all record sequences with proper levels", "why_tests_cant": "All level sequences; levels that decrease are the interesting ones.", "anchors": ["src/hwp5/recordstream.py: link_records"]}
{"id": "C59", "title": "Color references expose their channels", "statement": "The red, green, blue and alpha channels of a color reference are its four bytes and determine it; the #rrggbb text is their hexadecimal form.", "quantifier": "for all 2^32 color values (signed integers)", "why_tests_cant": "2^32 values; the stored type is signed.", "anchors": ["src/hwp5/binmodel/_shared.py: COLORREF"]}
{"id": "C60", "title": "Unreadable content is reported as a parse error", "statement": "When the bytes of a record do not suffice for its declared structure, reading raises ParseError (and nothing else), so callers that handle ParseError handle every malformed record.", "quantifier": "for all type declarations whose references and conditions do not fail, contexts and payloads", "why_tests_cant": "All declarations and truncations.", "anchors": ["src/hwp5/bintype.py: resolve_values_from_stream, evaluate_bin_values, read_type_events"]}
{"id": "C61", "title": "The file test answers for every storage", "statement": "is_hwp5file answers True exactly for storages whose FileHeader stream starts with the HWP signature, False otherwise, and never raises for a readable storage.", "quantifier": "for all storages and FileHeader contents", "why_tests_cant": "All contents, in particular all short ones.", "anchors": ["src/hwp5/filestructure.py: is_hwp5file, storage_is_hwp5file, HwpFileHeader", "src/hwp5/dataio.py: readn"]}
{"id": "C62", "title": "Sections carry the document version and the right text is chosen", "statement": "Every section of an opened document is interpreted with the version of the file header, and the text of a distribution document is its view text while that of any other document is its body text.", "quantifier": "for all documents, flags and versions", "why_tests_cant": "All flag words and all stacks of wrapper objects.", "anchors": ["src/hwp5/filestructure.py: Hwp5File.resolve_conversion_for, Hwp5File.text, Sections.resolve_conversion_for"]}
{"id": "C63", "title": "Paragraph lists are classified by where they stand", "statement": "When records are parsed into models, a list header directly inside a table control is a caption if no table body record came before it directly in that control and a cell otherwise, whatever is nested in between; directly inside a drawing object control it is a caption, in a shape component a text box, in a header or footer control the list of that header or footer; directly inside any other record it is a plain list header.", "quantifier": "for all record sequences (any levels, nesting, number of records), readers and positions", "why_tests_cant": "Tables nest in cells of tables to any depth and the parser keeps one flag per open table; tests have few documents.", "anchors": ["src/hwp5/binmodel/__init__.py: parse_models, resolve_model_events", "src/hwp5/binmodel/controls/table_control.py: TableControl.on_child", "src/hwp5/binmodel/tagid56_list_header.py: ListHeader.get_extension_key"]}
{"id": "C64", "title": "Models are their records, typed and fully accounted for", "statement": "Parsing gives one model per record in record order; its type depends only on the tag, for controls on the control id, and for list headers and control data on the enclosing record; its content is read by the classes of that type from base to derived in order; the bytes they leave are kept as unparsed; records with unknown tags are kept whole.", "quantifier": "for all record sequences and readers", "why_tests_cant": "All payloads, tags and control ids; 51 control classes and several levels of inheritance.", "anchors": ["src/hwp5/binmodel/__init__.py: parse_models, resolve_model_events, get_extension_mro", "src/hwp5/binmodel/_shared.py: tag_models", "src/hwp5/binmodel/controls/_shared.py: control_models"]}
{"id": "C65", "title": "Parsing a stream by groups equals parsing it whole", "statement": "models() of a record stream gives the same models (and exception) as parsing all its records in one go, so the i-th model belongs to the i-th record, and models(treegroup=n) for n = 0, 1, ... are consecutive pieces of it.", "quantifier": "for all streams whose first record has level 0, all readers and group numbers", "why_tests_cant": "All streams; the parser state must not depend on earlier groups.", "anchors": ["src/hwp5/binmodel/__init__.py: ModelStream.models, parse_models, chain_iterables", "src/hwp5/recordstream.py: group_records_by_toplevel"]}
{"id": "C66", "title": "The text records of a paragraph become its lines", "statement": "In the event stream of a section, the text, character shape, line segment and range tag records of every paragraph are replaced by one line element per line, the last children of the paragraph, holding one element per piece of text or control character: nothing of the text is lost, added or reordered, and every piece has the character shape and the line of its position. A paragraph without text gets one empty text; without line segments, one line; without character shapes the pass raises TypeError.", "quantifier": "for all document trees (any nesting of paragraphs in controls), texts, shapes and line positions", "why_tests_cant": "All combinations of boundaries and all nestings; tests have a handful of paragraphs.", "anchors": ["src/hwp5/xmlmodel.py: make_texts_linesegmented_and_charshaped, merge_paragraph_text_charshape_lineseg, range_shaped_textchunk_events, wrap_modelevents"]}
{"id": "C67", "title": "A record's element shows all of its fields", "statement": "The XML element of a record has, in the order of declaration, the attributes and child elements of every field of its content and then the ids given to it: numbers in decimal, flags in hexadecimal with one attribute per bit group, structs as child elements, arrays of structs as Array elements, margins as four attributes. All names are valid XML names, no two attributes have the same name, and the child elements are complete; converting raises no exception. (Binary data of an unknown storage type is the exception.)", "quantifier": "for all 109 record types, contents as their classes declare them, versions and ids", "why_tests_cant": "109 record types with many optional members and all values of them; name clashes of attributes would only show in rare combinations.", "anchors": ["src/hwp5/xmlformat.py: startelement, separate_plainvalues, expanded_xmlattribute, xmlattributes_for_plainvalues, element", "src/hwp5/dataio.py: typed_struct_attributes, Struct.parse_members, Struct.parse_members_with_inherited", "src/hwp5/binmodel/*.py: attributes() of all record classes"]}
{"id": "C68", "title": "Contents are as their classes declare", "statement": "The content of every parsed record consists, class after class from base to derived and in the order of declaration, of exactly one field for each declared member that the document version and the condition of the member allow, with a value of the declared type and range (the selected member of a BinData record is missing if its storage type is unknown); the remaining bytes are kept as unparsed.", "quantifier": "for all record sequences, versions and payloads, and all declared record classes", "why_tests_cant": "All payloads for over a hundred record types; conditions and counts refer to fields read before.", "anchors": ["src/hwp5/binmodel/__init__.py: parse_models, resolve_type_events, resolve_model_events", "src/hwp5/bintype.py: resolve_type_events, read_type_events, filter_with_version, construct_composite_values", "src/hwp5/binmodel/*.py: attributes() of all record classes"]}
{"id": "C69", "title": "Parsing a payload is the inverse of writing it", "statement": "The payload of a parsed record is the byte form of its content followed by its unparsed bytes, so parsing neither loses nor changes anything; and whatever content is written by the class declarations is read back. Strings and HexBytes at the end of a payload may be cut off.", "quantifier": "for all record types, contents, payloads and versions", "why_tests_cant": "All payloads and contents.", "anchors": ["src/hwp5/bintype.py: read_type_events", "src/hwp5/dataio.py: INT types, HexBytes, BSTR, Flags, ARRAY, N_ARRAY, X_ARRAY, SelectiveType", "src/hwp5/binmodel/*.py: attributes() of all record classes"]}
{"id": "C70", "title": "Damaged records raise parse errors only", "statement": "Parsing the records of a stream raises ParseError, and nothing else, if a payload is damaged or a record is misplaced.", "quantifier": "for all record sequences with proper levels and all payloads", "why_tests_cant": "All damages and all places.", "anchors": ["src/hwp5/binmodel/__init__.py: parse_models, resolve_type_events", "src/hwp5/binmodel/_shared.py: ref_parent_member", "src/hwp5/binmodel/tagid60_shape_component.py: parent_must_be_gso"]}
{"id": "C71", "title": "From payload to XML", "statement": "The XML element of a record that was parsed from its payload exists (no exception is raised although the converter does not know the enclosing record), is well formed, and shows exactly the fields that were read; only the first control id of a shape component in a drawing object comes at the end.", "quantifier": "for all record sequences, payloads, versions, ids and record types other than the three that are merged into the text of a paragraph", "why_tests_cant": "Reading and showing evaluate the same conditions in different contexts; they could disagree for any combination of flags.", "anchors": ["src/hwp5/xmlmodel.py: ModelEventStream.modelevents, modelevents_to_xmlevents", "src/hwp5/xmlformat.py: startelement", "src/hwp5/dataio.py: typed_struct_attributes", "src/hwp5/bintype.py: read_type_events"]}
{"id": "C72", "title": "Fields are at the documented places of a record", "statement": "Every field of a parsed record up to its first member of variable size is the little-endian number (signed where documented), bit group, enumerated name, control id or raw bytes at the documented offset of the payload, in documents of every version that has the field; a record type of fixed size is parsed iff the payload has at least that size, and what follows is unparsed.", "quantifier": "for all record sequences, payloads and versions, and 83 record types with about 800 fields", "why_tests_cant": "All payloads; one wrong width or a swapped member shifts every later field.", "anchors": ["src/hwp5/binmodel/*.py: attributes() of all record classes", "src/hwp5/bintype.py: read_type_events", "src/hwp5/dataio.py: INT types, Flags, Enum"]}
{"id": "C73", "title": "The events of a document follow the trees of its streams", "statement": "A record stream that can be read has exactly one tree of models, given by the levels. The events of a document are one HwpDoc element with the summary information, the DocInfo records as this tree, and a BodyText element with one element per section in section order, carrying the section number; no record and no text of a section is lost or made up.", "quantifier": "for all documents whose streams can be read and whose sections are proper", "why_tests_cant": "All streams and all nestings; the parts are made by separate generators that are chained.", "anchors": ["src/hwp5/xmlmodel.py: Hwp5File.events, DocInfo.events, Section.events, Sections.events, prefix_binmodels_with_event, wrap_modelevents", "src/hwp5/treeop.py: prefix_event"]}
{"id": "C74", "title": "A document is converted to well-formed XML", "statement": "Converting a document whose streams can be read and whose sections are proper raises no exception; the XML has one root element, matching tags, valid names and no attribute twice, and parsing it gives the events back (NUL removed, adjacent text joined), provided that its strings have no characters XML does not allow and its text no carriage return.", "quantifier": "for all proper documents, versions, summary information and embedded data", "why_tests_cant": "One unexpected combination of fields in any of 109 record types would make the whole document unusable.", "anchors": ["src/hwp5/xmlmodel.py: XmlEventsMixin.xmlevents, XmlEvents.bytechunks, modelevents_to_xmlevents", "src/hwp5/xmlformat.py: startelement, XmlFormat"]}
{"id": "C75", "title": "Ids in the XML are the positions among elements of a kind", "statement": "Paragraphs, tables, drawing objects and shape components each have ids 0, 1, 2, ... in the order of the whole document, across sections.", "quantifier": "for all documents, also those whose conversion fails later", "why_tests_cant": "All numbers of sections and elements.", "anchors": ["src/hwp5/xmlmodel.py: give_elements_unique_id, Hwp5File.events"]}
{"id": "C76", "title": "Embedded data are in the XML", "statement": "With embedding on, the element of every BinData record of storage kind 1 contains an element with the name of its stream and, as text, the base64 form of exactly its bytes; if the stream is missing a KeyError is raised.", "quantifier": "for all proper documents, ids, extensions and bytes", "why_tests_cant": "All data and ids (the name of the stream is hexadecimal).", "anchors": ["src/hwp5/xmlmodel.py: embed_bindata, DocInfo.events", "src/hwp5/xmlformat.py: startelement"]}
{"id": "C77", "title": "The summary information in the XML is that of the API", "statement": "The XML form shows every property the summary API gives, once, in the order of offsets, with the label of its id, its type and the value that is stored at the offset shown; reading for it fails iff, and as, reading for the API does.", "quantifier": "for all summary streams", "why_tests_cant": "All orders and duplicates of properties.", "anchors": ["src/hwp5/xmlmodel.py: HwpSummaryInfo.events, getPropertySetStreamEvents, getPropertySetEvents, getPropertyEvents", "src/hwp5/msoleprops.py: PropertySetStreamReader.read", "src/hwp5/summaryinfo.py: HWP_PROPERTIES"]}
{"id": "C78", "title": "A document that cannot be read completely is not shown as if it were", "statement": "If converting a document to XML ends without exception, then DocInfo and every section were read to their end and every record in them became a model; an exception in any stream or any element ends the conversion with an exception.", "quantifier": "for all documents (versions, streams, readers of record contents)", "why_tests_cant": "The exception has to pass some ten generators, each of which could swallow it; fixtures are readable.", "anchors": ["src/hwp5/xmlmodel.py: make_texts_linesegmented_and_charshaped, make_extended_controls_inline, match_field_start_end, make_paragraphs_children_of_listheader, restructure_tablebody, tokenize_text_by_lang, wrap_section, embed_bindata, Hwp5File.events", "src/hwp5/treeop.py: prefix_event", "src/hwp5/recordstream.py: group_records_by_toplevel"]}
{"id": "C79", "title": "A record stream that was cut off is reported", "statement": "Reading a record stream without exception means that it consists of complete records.", "quantifier": "for all byte strings", "why_tests_cant": "Every possible place of a cut; two of them go unnoticed.", "anchors": ["src/hwp5/recordstream.py: read_records, read_record, decode_record_header", "src/hwp5/dataio.py: readn"]}
{"id": "C80", "title": "Records are read by the declarations in the source", "statement": "The members by which each kind of record is read and shown (names, order, types down to every bit group and every named value, versions, conditions, base classes), the tags, control ids and kinds of lists are exactly those the classes in the source declare; no class with members is left out.", "quantifier": "for all record classes of the package and all members of each", "why_tests_cant": "Some 60 classes with 500 members, bit groups and named values; fixtures exercise few of them.", "anchors": ["src/hwp5/binmodel/tagid*.py", "src/hwp5/binmodel/controls/*.py", "src/hwp5/binmodel/_shared.py", "src/hwp5/tagids.py", "src/hwp5/xmlmodel.py: HwpDoc"]}
{"id": "C81", "title": "hwp5proc records selects and writes exactly the records asked for", "statement": "--range=N selects the record N, --range=N-M the records N to M-1, --treegroup=N the N-th tree, nothing selects all; any other text is a ValueError. --raw writes the records as they are in the stream, --raw-header and --raw-payload their parts; the outputs of adjacent ranges joined are the output of the joined range; --simple writes a line for each record that determines number, level and tag.", "quantifier": "for all byte strings as streams and all texts as arguments", "why_tests_cant": "All texts accepted by int() (signs, underscores, blanks), all ranges, all streams, all tags (names of unknown tags must not collide with known ones).", "anchors": ["src/hwp5/proc/records.py: main", "src/hwp5/cli.py", "src/hwp5/recordstream.py: RecordStream.records, dump_record, encode_record_header", "src/hwp5/tagids.py: tagnames"]}
{"id": "C82", "title": "The JSON output of hwp5proc records is JSON and shows every record", "statement": "The output of hwp5proc records is a JSON text (RFC 8259): an array with one object per selected record, in order, whose members are the numbers of the record, the name of its tag and the lines of a dump from which the payload can be recovered exactly. If the stream cannot be read to its end the output is not a complete JSON text. The output consists of printable ASCII characters and ends of lines.", "quantifier": "for all selections of records (payloads, tags, levels)", "why_tests_cant": "All payload bytes and sizes; the empty selection, whose output is not JSON.", "anchors": ["src/hwp5/recordstream.py: record_to_json, RecordStream.records_json", "src/hwp5/utils.py: JsonObjects, generate_json_array", "src/hwp5/dataio.py: dumpbytes"]}
{"id": "C83", "title": "The JSON output of hwp5proc models is JSON and shows every member of every model", "statement": "hwp5proc models writes a JSON array (RFC 8259) with one object per selected model, in order: the numbers of the record, the dump of its payload, the name of the type, every member of the content with its value (strings, numbers, nested members and lists, parts of paragraph text), and the dump of what was not parsed. --seqno=N selects exactly the model of record N, --treegroup=N the models of the N-th tree, --simple writes one line per model. Models that can be read can be written; if reading fails the output is not a complete JSON text. The output consists of printable ASCII characters and ends of lines.", "quantifier": "for all byte strings as streams, all versions, all texts as arguments", "why_tests_cant": "All record classes, all payloads, all strings (surrogates, control characters), all floating point numbers.", "anchors": ["src/hwp5/binmodel/__init__.py: model_to_json, ModelJsonEncoder, ModelStream.models, models_json", "src/hwp5/proc/models.py: models_from_args, print_models_json, print_model_simple", "src/hwp5/utils.py: generate_json_array"]}
{"id": "C84", "title": "hwp5proc ls lists every stream once and hwp5proc cat reads exactly what is listed", "statement": "hwp5proc ls prints one line of printable ASCII per stream, from which its path can be recovered, ordered by names from the top down; no stream is missing and none is there twice. With --vstreams each other format of an item is listed too. hwp5proc cat of a path gives the contents of the stream iff the path is listed; virtual streams never hide real ones.", "quantifier": "for all storage trees, names (any characters) and contents", "why_tests_cant": "All depths, all names (control characters, escapes, names equal to a name with an extension).", "anchors": ["src/hwp5/storage/__init__.py: ExtraItemStorage, printstorage, open_storage_item", "src/hwp5/proc/ls.py: main", "src/hwp5/proc/cat.py: main", "src/hwp5/cli.py: open_hwpfile"]}
{"id": "C85", "title": "hwp5proc find prints a line for exactly the record models asked for", "statement": "Without --format and --dump, hwp5proc find prints, file after file, DocInfo first and then the sections of BodyText, one line for exactly those models for which all given conditions hold: the type is the one of --model, the tag of the record has the number or name of --tag, with --incomplete the record was not parsed to its end. A number and a name of a tag mean the same. A file that cannot be parsed does not keep the following files from being searched. From the end of a line the number of the record, its tag and its type can be read.", "quantifier": "for all files, record streams, readers and options", "why_tests_cant": "All option values (spellings of numbers, names of unknown tags) and all combinations of readable and broken files.", "anchors": ["src/hwp5/proc/find.py: main, conditions_from_args, hwp5file_models, flat_models, printer_from_args", "src/hwp5/tagids.py: tagnames"]}
{"id": "C86", "title": "The XML file is UTF-8 that a parser reads back, and nothing is lost silently", "statement": "The XML form of a document as a file is UTF-8 (RFC 3629), with or without the XML declaration, and a parser of the bytes gets back exactly the elements, attributes and text that were written. If writing ends without exception the file is complete; otherwise it has the first part of the text. Opening the XML form as a file succeeds only if it is complete.", "quantifier": "for all strings, event sequences and documents", "why_tests_cant": "All characters (surrogates among them), all places at which reading fails.", "anchors": ["src/hwp5/xmlmodel.py: XmlEvents.bytechunks, dump, open", "src/hwp5/xmlformat.py: XmlFormat, startelement, xmlevents_to_bytechunks"]}
{"id": "C87", "title": "hwp5odt writes a package whose manifest lists what is in it", "statement": "For a document that can be read and transformed, hwp5odt writes an ODT package with styles, content, metadata, each embedded stream under its name with its bytes, and a manifest that lists each of these once with its media type; the names are distinct and the exit status is 0. For a file that is not a HWP document nothing is written and the exit status is 1. A conversion that fails is reported by the exit status and leaves no package.", "quantifier": "for all documents, stream names and contents, and whatever the transformation gives", "why_tests_cant": "All names of streams (quotes, markup, control characters), all kinds of failure.", "anchors": ["src/hwp5/hwp5odt.py: ODTPackage, ODTTransform, main, manifest_xml, mimetypes_xml"]}
{"id": "C88", "title": "Unpacking writes only below the output directory", "statement": "hwp5proc unpack and the extraction of embedded data by hwp5html change nothing outside the output directory, whatever the document contains and whether or not they end with an exception.", "quantifier": "for all storage trees (names and contents) and all states of the file system", "why_tests_cant": "The names come from the document, which may be hostile; all trees.", "anchors": ["src/hwp5/storage/__init__.py: unpack", "src/hwp5/proc/unpack.py: main", "src/hwp5/hwp5html.py: HTMLTransform.extract_bindata_dir"]}
{"id": "C89", "title": "hwp5html writes exactly the directory of the document", "statement": "For a document that can be read and transformed, the destination of hwp5html is afterwards exactly the directory with index.xhtml, styles.css and the embedded streams in bindata, with the results as contents; nothing else in the file system is changed, and the exit status is 0. A file that is not a HWP document, and a file at the place of the destination, leave everything as it was, with exit status 1. Former contents, and above all the document itself, are not lost when the conversion fails.", "quantifier": "for all documents, results of the transformation, destinations and file systems", "why_tests_cant": "All states of the file system before, all kinds of failure; the document may be inside the destination.", "anchors": ["src/hwp5/hwp5html.py: HTMLTransform, main, open_dir", "src/hwp5/storage/__init__.py: unpack"]}
{"id": "C90", "title": "Destinations have the name of the document, and are not the document", "statement": "Without an option for it, the destination of hwp5odt, hwp5html and hwp5proc unpack is in the current directory and has the name of the document without directory and extension; it is never another directory. The destination is never the document itself.", "quantifier": "for all paths of documents", "why_tests_cant": "All names (dots, no extension, hidden files, several extensions).", "anchors": ["src/hwp5/hwp5odt.py: replace_ext, main", "src/hwp5/hwp5html.py: main", "src/hwp5/proc/unpack.py: main"]}
{"id": "C91", "title": "A conversion into one file is complete if the exit status is 0", "statement": "hwp5txt (and hwp5html --html, --css, hwp5odt --styles, --content, --document) write the result to the standard output or to the file given and change nothing else; exit status 0 means that the result is complete; a file that is not a HWP document leaves the destination as it was.", "quantifier": "for all documents, transformations, destinations and file systems", "why_tests_cant": "All kinds of failure and states of the file system.", "anchors": ["src/hwp5/hwp5txt.py: main", "src/hwp5/utils.py: make_open_dest_file", "src/hwp5/transforms/__init__.py: BaseTransform.make_transform_hwp5"]}
{"id": "C92", "title": "hwp5txt prints the text of the document", "statement": "hwp5txt prints, as UTF-8, the text of the paragraphs of the document section after section, in the order of the records, each paragraph ended by a line feed, with the text of a control in the place of its control character; nothing of the summary information, of DocInfo or of the values of records is printed, and no text is lost.", "quantifier": "for all documents (record trees of any size and depth, any text, any controls)", "why_tests_cant": "The text passes through eight tree transformations, the XML file, a parser and a stylesheet; all nestings of controls, fields, tables and lines.", "anchors": ["src/hwp5/xsl/plaintext.xsl", "src/hwp5/hwp5txt.py: TextTransform, main", "src/hwp5/plat/_lxml.py: XSLT._transform", "src/hwp5/xmlmodel.py: XmlEvents, make_texts_linesegmented_and_charshaped, tokenize_text_by_lang"]}
{"id": "C93", "title": "The HTML page shows the text of the document", "statement": "The HTML of a document has the text of its sections, one after the other: every character of every paragraph is in the page of its section exactly once, in the order of the document, and nothing of the summary information, of DocInfo and of the values of records is among it; headers and footers are with the sections they belong to; the title of the page is the title of the document.", "quantifier": "for all documents (record trees of any size and depth, any text, any controls)", "why_tests_cant": "The text passes through the tree transformations, the XML file, a parser and a stylesheet with rules for several dozens of elements; all nestings of tables, drawings, notes, fields and lists.", "anchors": ["src/hwp5/xsl/hwp5html.xsl", "src/hwp5/hwp5html.py: HTMLTransform.transform_hwp5_to_xhtml", "src/hwp5/plat/_lxml.py: XSLT._transform"]}
{"id": "C94", "title": "The ODT document has the text of the document", "statement": "The content of the ODT of a document has the text of its sections, one after the other: every character of every paragraph is in it exactly once, in the order of the document, and nothing of the summary information, of DocInfo and of the values of records.", "quantifier": "for all documents (record trees of any size and depth, any text, any controls)", "why_tests_cant": "As for the HTML page, with rules for the shapes of drawings, boxes, notes and the cells of tables.", "anchors": ["src/hwp5/xsl/odt/common.xsl", "src/hwp5/xsl/odt/content.xsl", "src/hwp5/hwp5odt.py: ODTTransform.transform_hwp5_to_content", "src/hwp5/plat/_lxml.py: XSLT._transform"]}
{"id": "C95", "title": "Times are shown as they are stored", "statement": "The text of a FILETIME of the summary information is the date of the Gregorian calendar and the time of day that is the stored number of 100 nanosecond steps after 1601-01-01, to the microsecond; different microseconds have different texts.", "quantifier": "for all 64 bit values", "why_tests_cant": "All 2^64 values, with all leap years; the program divides in floating point numbers, whose error depends on the size of the value.", "anchors": ["src/hwp5/msoleprops.py: FILETIME", "src/hwp5/filestructure.py: HwpSummaryInfo.plaintext_lines", "src/hwp5/proc/summaryinfo.py: main"]}
{"id": "C96", "title": "The header and version commands print the file header", "statement": "`hwp5proc header` prints every flag of the file header by its bit, the signature and the version, in alphabetical order, one per line; the lines tell all flags. `hwp5proc version` prints the version. For a file that is no document they print nothing and end with status 1.", "quantifier": "for all file headers (all 2^32 flag words, all versions) and all files", "why_tests_cant": "All flag words and versions; that no two flag words with different flags give the same lines.", "anchors": ["src/hwp5/proc/header.py: main", "src/hwp5/proc/version.py: main", "src/hwp5/filestructure.py: HwpFileHeader, Hwp5FileOpener"]}
{"id": "C97", "title": "The summaryinfo command prints the summary information", "statement": "`hwp5proc summaryinfo` prints title, subject and so on, one line each, as they are stored in the property set; what is there is shown, also if other properties are missing; the text form of the stream shows all properties of all sets.", "quantifier": "for all summary information streams (any properties, any values)", "why_tests_cant": "All streams with any properties present, of any type and at any offset.", "anchors": ["src/hwp5/proc/summaryinfo.py: main", "src/hwp5/filestructure.py: HwpSummaryInfo", "src/hwp5/msoleprops.py"]}
{"id": "C98", "title": "The stream commands invert compression and encryption", "statement": "`hwp5proc rawunz` prints the whole contents of a raw deflate stream; `hwp5proc diststream` with `--sha1` and `--key` prints the digest and the key of the head; `hwp5proc cat --ole F ViewText/SectionN | hwp5proc diststream | hwp5proc rawunz` prints what `hwp5proc cat F ViewText/SectionN` prints.", "quantifier": "for all inputs, for any inflate that depends on the bytes fed only, for any block cipher", "why_tests_cant": "The input is read in pieces of 8196 bytes; what happens at the borders depends on sizes no test file has.", "anchors": ["src/hwp5/proc/rawunz.py: main", "src/hwp5/zlib_raw_codec.py: StreamReader", "src/hwp5/proc/diststream.py: main", "src/hwp5/distdoc.py: decode"]}
{"id": "C99", "title": "The preview text in UTF-8 is the preview text", "statement": "The stream `PrvText.utf8` is the text of the stream `PrvText` (UTF-16) in UTF-8, for every text; both forms fail for the same streams.", "quantifier": "for all streams (all byte sequences)", "why_tests_cant": "All UTF-16 texts, including surrogate pairs across the pieces in which the stream is converted, and incomplete ends.", "anchors": ["src/hwp5/filestructure.py: PreviewText", "src/hwp5/utils.py: transcode, transcoder", "src/hwp5/storage/__init__.py"]}
{"id": "C100", "title": "Pictures in the pages are the embedded data", "statement": "The images of the HTML page and of the ODT document are the pictures of the document, each as often as it is there, and each image is the data the picture refers to: its source is a file `bindata/NAME` that is written beside the page (or into the package) with the contents of the stream of the `BinData` record of that number.", "quantifier": "for all documents that can be read (any number of sections, pictures, groups and embedded data, any nesting)", "why_tests_cant": "All nestings of drawings, tables and lists, all numbers of embedded data; the link between a picture and its data goes through record order, XML, a stylesheet and the file system.", "anchors": ["src/hwp5/xsl/hwp5html.xsl", "src/hwp5/xsl/odt/common.xsl", "src/hwp5/hwp5html.py: HTMLTransform.extract_bindata_dir", "src/hwp5/hwp5odt.py: ODTTransform.transform_hwp5_to_package", "src/hwp5/binmodel/tagid18_bin_data.py", "src/hwp5/binmodel/tagid69_shape_component_picture.py"]}
{"id": "C101", "title": "Text in HTML has the formatting of its character shape", "statement": "In the HTML page, a run of text is shown, by the rules of CSS for the style sheet that is written with it, in the color, the weight, the slant and the font that its character shape says.", "quantifier": "for all documents, all runs of text and all character shapes", "why_tests_cant": "What is shown depends on all rules of the sheet together: their selectors, their specificity, their order and inheritance; all names of styles are possible.", "anchors": ["src/hwp5/xsl/hwp5css-common.xsl", "src/hwp5/xsl/hwp5css.xsl", "src/hwp5/xsl/hwp5html.xsl", "src/hwp5/hwp5html.py: HTMLTransform.transform_hwp5_to_css"]}
{"id": "C102", "title": "Tables have the rows and cells of the document", "statement": "The tables of the HTML page and of the ODT document are the tables of the document, each as often as it is there, with the rows and cells of its records; each cell is shown, by the rules of HTML or of OpenDocument, in the row and column its record declares and over as many rows and columns.", "quantifier": "for all documents that can be read, all tables, all numbers of rows and cells and all spans", "why_tests_cant": "All layouts of spans over rows and columns; where a cell is shown depends on all cells before it; tables may be in tables, drawings, notes and headers.", "anchors": ["src/hwp5/xsl/hwp5html.xsl", "src/hwp5/xsl/odt/common.xsl", "src/hwp5/xmlmodel.py: restructure_tablebody, TableRow", "src/hwp5/binmodel/tagid61_table.py", "src/hwp5/binmodel/tagid56_list_header.py"]}
{"id": "C103", "title": "Text in ODT has the formatting of its character shape", "statement": "In the ODT document, a run of text is shown, by the rules of OpenDocument for the styles that are written with it (styles are found by family and name, properties that are not set come from the parent style and the paragraph), with the weight, the slant, the lines under, over and through it, the fonts and the color that its character shape says.", "quantifier": "for all documents, all runs of text and all character shapes", "why_tests_cant": "What is shown depends on all styles of two files together, which are found by names made of numbers; the numbers are counted in different places of the stylesheet for any contents of the lines.", "anchors": ["src/hwp5/xsl/odt/common.xsl", "src/hwp5/xsl/odt/content.xsl", "src/hwp5/xsl/odt/styles.xsl"]}
{"id": "C104", "title": "A directory with the unpacked document is the document", "statement": "A `FileSystemStorage` for the directory into which a storage was unpacked shows the same storage: opening any path of names in it gives the same data, the same names (sorted) or the same exception, and walking through it reports the paths of all streams, each once.", "quantifier": "for all storages (any nesting), all paths and all orders in which the system lists a directory", "why_tests_cant": "All nestings and names; the names go through the rules of paths of the operating system twice, and the order of directories is not specified.", "anchors": ["src/hwp5/storage/fs.py: FileSystemStorage, FileSystemStream", "src/hwp5/storage/__init__.py: unpack, open_storage_item, iter_storage_leafs"]}
{"id": "C105", "title": "Formats are filled in with the members of each model", "statement": "`hwp5proc models --format=F` writes, for each model, the text F with each `%(name)s`, `%(name)10s` or `%(name)04d` replaced by the member of that name and each escape replaced by its character; all other text of F is written as it is. `hwp5proc find --format=F` prints such a line. Escaping a text (as `hwp5proc ls` does) and unescaping it gives the text.", "quantifier": "for all formats (any text, any fields), all models and all texts", "why_tests_cant": "All characters and combinations of escapes, '%' signs, widths and keys in a format.", "anchors": ["src/hwp5/proc/models.py: print_models_from_args, print_model_with_format, transform_model_formattable", "src/hwp5/proc/find.py: printer_from_args", "src/hwp5/utils.py: unicode_escape, unicode_unescape"]}
{"id": "C106", "title": "What the records say about a character shape is what is shown", "statement": "From the bytes of a document to what is seen: a run of text whose character shape is number k is shown, in the page of the HTML conversion, in the color, weight, slant and font that the k-th record CharShape of DocInfo (with the records FaceName and IdMappings) says, and in the ODT document with the lines, weight, slant and Asian font that this record says; paragraphs are numbered 0, 1, 2, ... through the whole document, so that their styles can be told apart.", "quantifier": "for all documents that can be read, all runs of text, all contents of the records", "why_tests_cant": "The statement goes through all layers (bit fields of records, tables by position, XML attributes, the stylesheet, CSS and OpenDocument rules), for any tables and any documents; tests look at one layer and a few files.", "anchors": ["src/hwp5/binmodel/tagid21_char_shape.py", "src/hwp5/binmodel/tagid19_face_name.py", "src/hwp5/binmodel/tagid17_id_mappings.py", "src/hwp5/binmodel/tagid26_style.py", "src/hwp5/xmlmodel.py: give_elements_unique_id", "src/hwp5/xsl/hwp5css-common.xsl", "src/hwp5/xsl/odt/common.xsl"]}
{"id": "C107", "title": "Paragraphs are aligned as their paragraph shapes say", "statement": "In the HTML page and in the ODT document, a paragraph is aligned to the left, to the right, in the center or to both sides as the record of its paragraph shape says, by the rules of CSS and of OpenDocument for the styles that are written; in the ODT document it begins a new page if and only if its record says so.", "quantifier": "for all documents, all paragraphs, all paragraph shapes and all styles", "why_tests_cant": "What is shown depends on all rules or styles of the document together: which of the style and the paragraph shape wins depends on specificity, order, and on names that may be anything.", "anchors": ["src/hwp5/xsl/hwp5css-common.xsl", "src/hwp5/xsl/hwp5html.xsl", "src/hwp5/xsl/odt/common.xsl", "src/hwp5/binmodel/tagid25_para_shape.py", "src/hwp5/binmodel/tagid26_style.py"]}
{"id": "C108", "title": "Pages have the size and margins their section says", "statement": "In the HTML page, all text of a section is within an element as wide as the paper of the section (which may be turned), with the margins of the section; in the ODT document, the paragraphs of a section are on pages of a master page whose layout has the size, orientation and margins of the section. Lengths in HWP units (1/7200 inch) are written as the closest number of hundredths of a millimetre or centimetre, in spite of double precision arithmetic.", "quantifier": "for all documents, all sections, all paragraphs and all lengths below 2^32", "why_tests_cant": "All of the 2^32 lengths with four roundings of doubles each; which pages a paragraph is on depends on the styles of all paragraphs before it, and what size an element has on all rules.", "anchors": ["src/hwp5/xsl/hwp5css-common.xsl", "src/hwp5/xsl/hwp5html.xsl", "src/hwp5/xsl/odt/common.xsl", "src/hwp5/binmodel/tagid57_page_def.py"]}
{"id": "C109", "title": "The dump of a record accounts for every byte of its payload", "statement": "The items that are reported about the reading of a record (model['binevents'], printed by hwp5proc find --dump and carried by ParseError) lie one after another in the payload, without gap or overlap, from offset 0 to where the unparsed rest begins; each has the value that its type has at its offset, starts and ends of structs and arrays are nested properly, and every value in the content is one of the reported ones under its name. If the record cannot be parsed, the last event names the item that could not be read and the offset at which nothing of its type is.", "quantifier": "for every record (any tag, any payload, truncated or not), every parent model, every document version, every declared class with its extensions, versions, conditions, arrays and selections", "why_tests_cant": "Tests look at a few records that parse; that offsets have no gap for any combination of conditional members, counted arrays, selected structs and extension classes, or that the reported offset of a failure is right for every truncation, is a statement about all payloads.", "anchors": ["src/hwp5/bintype.py:186-283", "src/hwp5/bintype.py:326-377", "src/hwp5/bintype.py:426-455", "src/hwp5/binmodel/__init__.py:303-331", "src/hwp5/binmodel/__init__.py:357-387", "src/hwp5/proc/find.py:231-235"]}
{"id": "C110", "title": "Paragraphs have the margins and indents their paragraph shapes say", "statement": "In the HTML page and in the ODT document, the first line and the other lines of a paragraph begin where the record of its paragraph shape says (its left margin, with the indent for the first line if it is positive, and for all other lines if it is negative), and the room to its right, above and below it is that of the record, exactly, in points.", "quantifier": "for all documents, all paragraphs, all paragraph shapes (all 2^32 values of each margin and indent), all styles", "why_tests_cant": "Where a line begins in a browser depends on three properties, each of which may come from another rule of the style sheet; that they add up for each combination of the shape of a paragraph and the one of its style is not seen by looking at single rules. The values are signed and have up to three decimals.", "anchors": ["src/hwp5/xsl/hwp5css-common.xsl", "src/hwp5/xsl/hwp5html.xsl", "src/hwp5/xsl/odt/common.xsl", "src/hwp5/binmodel/tagid25_para_shape.py"]}
{"id": "C111", "title": "Lines have the distance their paragraph shapes say", "statement": "In the HTML page and in the ODT document, the lines of a paragraph are as high as the record of its paragraph shape says: so many percent of the size of the letters, or a fixed distance in points, or at least so much, or with so much space between them.", "quantifier": "for all documents, all runs of text, all kinds and all 2^32 amounts of distances, all styles", "why_tests_cant": "Whether the declaration of a paragraph or the one of its style holds depends on the specificity of selectors for the runs within paragraphs, and on whether each of the two shapes is of a kind for which anything is written; all combinations of kinds are needed.", "anchors": ["src/hwp5/xsl/hwp5css-common.xsl", "src/hwp5/xsl/hwp5html.xsl", "src/hwp5/xsl/odt/common.xsl", "src/hwp5/binmodel/tagid25_para_shape.py"]}
{"id": "C112", "title": "Letters are as large as their character shapes say", "statement": "In the HTML page and in the ODT document, the letters of a run of text have the size that the record of its character shape says for their language: the size in hundredths of points times the percents for the language (10 to 250, one byte for each of the seven languages), exactly.", "quantifier": "for all documents, all runs of text, all character shapes (all 2^32 sizes and all percents for each language), all languages and styles", "why_tests_cant": "Whether the rule of the style or the one of the shape holds, and for which language, depends on the classes of all rules together; that the product is written exactly is needed for all sizes; and the sizes of the test documents all have 100 percent, so that how the byte is read is never seen.", "anchors": ["src/hwp5/xsl/hwp5css-common.xsl", "src/hwp5/xsl/hwp5html.xsl", "src/hwp5/xsl/odt/common.xsl", "src/hwp5/binmodel/tagid21_char_shape.py"]}
{"id": "C113", "title": "Names of record streams open the streams they name", "statement": "hwp5proc records and hwp5proc models open the stream that the given name stands for: docinfo is the document information, bodytext/N (N a number in any spelling of int()) is section N of the text of the document (the one that the conversions use), and any other name is a path of names separated by '/', each looked up in the item before; what is delivered is decrypted and decompressed as for all other readers. A name that stands for nothing is an error and never another stream.", "quantifier": "for all documents (all flags, all contents) and all names", "why_tests_cant": "The names are any strings, with three overlapping readings (bodytext/x is a path if x is no number), and the document has several layers, chosen by its flags; tests try single names on documents of one kind.", "anchors": ["src/hwp5/cli.py:98-109", "src/hwp5/storage/__init__.py:147-156", "src/hwp5/filestructure.py:575-602", "src/hwp5/proc/records.py:44-48", "src/hwp5/proc/models.py:158-164"]}
{"id": "C114", "title": "Lines under, over and through the text are those of the character shapes", "statement": "In the HTML page, a run of text whose character shape has a line under, over or through the text is shown with this line, in the color and the style of the record of the shape, and with no other line; a run whose character shape has no line is shown without one.", "quantifier": "for all documents, all runs of text (in paragraphs, tables, headers and footers), all character shapes (all flags and colors), all styles", "why_tests_cant": "The lines of all elements around a run are drawn at it, and the rules of styles apply to runs with shapes of their own; which lines are drawn depends on all rules and on all elements around a run together.", "anchors": ["src/hwp5/xsl/hwp5css-common.xsl:281-305", "src/hwp5/xsl/hwp5css-common.xsl:886-980", "src/hwp5/xsl/hwp5html.xsl:104-156", "src/hwp5/binmodel/tagid21_char_shape.py"]}
