# Formal model of pyhwp in Lean 4 — design

## What this is

`/verif/lean` contains a hand-written Lean 4 model of the parsing and
conversion core of pyhwp (`/repo/src/hwp5`) and machine-checked theorems about
it.  The Python code is never run; the only link between the code and the model
is reading, so every definition cites the file and lines it models.

## Layout

* `Verif/Model/*.lean` — the model, function by function, each definition with a
  `/repo` citation and its simplifications.
* `Verif/Spec/*.lean` — small independent specifications (well nested event
  streams, trees, tilings, hex/base64/XML decoders, ...). They do not use the
  model's helpers.
* `Verif/Proofs/*.lean` — helper lemmas.
* `Verif/Props/*.lean` — the property theorems only, each with a non-vacuity
  `example`.

## Conventions of the model

* Bytes are `List UInt8`; Python integers are `Nat`/`Int`.
* Python exceptions are values: `Except PyErr α`, one `PyErr` constructor per
  exception class that the modelled code can raise (or let escape).
* A generator is modelled by the list of yielded values plus an optional final
  exception (`Gen α`), so partial output before a failure is visible.
  Generators whose behaviour depends on the consumer's schedule are modelled as
  step functions over an explicit state.
* Stream objects are modelled as `BytesIO`: contents and position.
* Code points and UTF-16 units are `Nat`/`UInt16`; Python `str` is a list of code points.
* External code (AES, zlib, olefile, struct, re) is either modelled directly
  (struct, the one regular expression used) or a parameter whose assumed behaviour is stated
  as a hypothesis of the theorem: AES is a block function with an inverse (C43), zlib a
  partial function (C50) or a monotonic function of what was fed (`Inflater`, C54),
  `int()` covers ASCII strings only (C48), OLE names are compared exactly while `olefile`
  ignores case (C45), UUIDs are their 16 bytes (C55).

## Trusted base

* The Lean 4.33.0 kernel. Theorems depend at most on `propext`,
  `Classical.choice` and `Quot.sound`.
* The faithfulness of the model to the Python source as read (citations).
* `tools/pysource.py`, as far as C80 is concerned: it writes the class bodies of the source
  down as Lean terms without evaluating them. What it cannot write down as an expression are
  `ref_parent_member`, `parent_must_be_gso` and `n_entries` (functions with statements, known
  by name in `Spec/PyDecl`), `LanguageStruct` (seven members of one type) and the `attributes`
  of three classes that consist of `if False: yield` (no members).
* Not modelled: see the section "Not modelled" at the end.

## Properties: what is modelled and how it is proved

(Plan; the final state of each is in `MANIFEST.json`.)

| id | modelled | proof idea |
|----|----------|-----------|
| C01 | header codec on byte lists | arithmetic on bit fields, `omega` |
| C02 | dump/read loops | induction over records; witness that an empty payload breaks it |
| C03 | read then dump | induction over the read loop; canonical-size hypothesis, witnesses for the rest |
| C04 | cut streams | characterise every cut position; witness for silent acceptance |
| C05 | grouping loop | induction |
| C06 | islice/nth selection | list lemmas |
| C07 | two generators sharing a context as a state machine | simulation against eager grouping |
| C08 | prefix_event | refinement to forest flattening; stack invariant |
| C09 | build_subtree/tree_events | mutual induction on trees |
| C10 | both ancestor computations | lock-step simulation |
| C11 | iter_subevents | induction on well nested words |
| C12–C15 | regex search, find, parse_chunks, decode | induction on remaining length; explicit search spec |
| C16–C18 | shape splitting, line segmentation | lock-step invariant on ranges |
| C19 | language tokeniser | fold invariant |
| C20 | field matching pass | witness of ill-nested output; proof under a local condition |
| C21–C25 | XML event passes | refinement to functions on forests |
| C26 | id generator | induction with counters |
| C27–C28 | escaping, serialiser | own XML reader in Spec, inverse theorem |
| C29 | base64 with wrapping | own decoder in Spec |
| C30–C33 | bit groups, flag declarations, enums, struct formats | bit lemmas, induction |
| C34 | BSTR, UTF-16 | codec round trip |
| C35 | hex dump | inverse parser |
| C36–C39 | bintype pipeline over a deep embedding of type declarations | refinement to a recursive reader |
| C40 | interning tables | invariant over histories |
| C41–C43 | distdoc | keystream independence, involution; AES as inverse pair |
| C44–C46 | storage trees, OLE listing, unpack | tree induction; witnesses |
| C47–C50 | file structure | decision tables, order isomorphism |
| C51–C54 | readers, JSON array, cached property | state machines, invariants over histories |
| C55 | property sets | lookup lemmas, witness |
| C56 | face names | list slicing |
| C57 | pipeline composition | invariants carried from pass to pass, composition of the pass refinements, conservation of elements and of the text of every paragraph |
| C58 | link_records | witness, partial theorem |
| C59 | color channels | arithmetic |
| C60 | failures of typed reading | induction over the recursive reader |
| C61–C62 | file recognition, versions of sections | decision tables |
| C63–C64 | parse_models with its context stack; member reading is a parameter | one invariant: the stack holds the enclosing records and, per table, whether its body was seen |
| C65 | ModelStream | the state at a level 0 record is the initial one |
| C66 | text pass | refinement to a relation on forests, composition of the C16 and C18 cuts |
| C67 | `startelement` with typed attributes; the declarations of all record classes as data (`Model/Decls.lean`) | refinement to a direct description of the element (`Spec/XmlFormat.lean`); names checked by evaluation over all declarations |
| C68 | `parse_models` with the declared classes | the event pipeline (C36) reads members one after the other; well-formedness of all declarations by evaluation |
| C69 | the same | a writer in the specification, inverse to the reader by mutual induction on types |
| C70 | the same | case analysis of all failures; witnesses |
| C71 | both | composition of C67 and C68; independence of the declarations from the parent record |
| C72 | `Spec/LayoutTable` (offsets of fields, taken from the `attributes()` of the source by a separate script, not from `Model/Decls`) | a walk over declared types gives the places; induction over reading that the value is the datum there; the walk of all declarations gives the table by kernel evaluation |
| C73 | `Spec/Document` (`StreamTree`: depths are levels; `SectionBody`; elements as start, content, stop) | a forest is determined by its depths; the passes over a section (C57); attributes of items through `concItem` of the model |
| C74 | `Spec/Xml` (`OneRoot`, `parseDocument`), `Spec/Decls` (`NamesOk`) | every item that can come out of the passes can be shown (case analysis over all passes and declarations); induction over the forest of names |
| C75 | `Spec/Document.idNameOf` | induction over the events with the counters |
| C76 | `Spec/Xml` (RFC 4648 decoding) | C29 and the element of a `BinData` record |
| C77 | `Spec/Document` (`InOffsetOrder`, `summaryLabels` taken from the source by a script) | insertion sort is stable; case analysis of reading |
| C78 | the number of records of each stream | each pass ends with the exception of its input |
| C79 | `Spec/StreamLayout` (`Whole`, `CutOff`) | inversion of header and payload reading |
| C80 | `Spec/PySource` (the class bodies as Python expressions, made from the text by `tools/pysource.py` with `ast`), `Spec/PyDecl` (what the expressions mean) | evaluation of the declarations |
| C81 | `Spec/Commands` (what texts are integers and ranges, tag names from the text of tagids.py, lines of the listing) | inversion of the splitting at `-`; C02, C06 for the records |
| C82 | `Spec/Json` (a reader of JSON texts after RFC 8259, independent of the encoder) | the reader inverts the encoder, by mutual induction on values; the dump by C35 |
| C83 | `Spec/ModelJson` (`ShowsModel`: which JSON value shows a model), `Spec/Json` | every value read by the declarations has distinct member names, valid strings and no classes (induction on the types); the reader of C82 inverts the encoder |
| C84 | `Spec/Listing` (real and virtual streams of a tree, order of paths, a reader of the escapes) | induction on the depth over the sorted items, for both kinds of storage at once |
| C85 | `Spec/Find` (models asked for, streams of a file, lines) | inductive relations between models and lines; the loop over files and streams up to the first exception |
| C86 | `Spec/Utf8` (a decoder by the table of RFC 3629, a reader of the declaration) | decoding inverts encoding character by character and accepts nothing else; composition with C73, C74 |
| C87 | `Spec/Package` (files of the package, a reader of manifests by the XML parser) | the names inserted are followed through the steps; the XML parser reads the manifest text back |
| C88 | `Spec/Storage` (plain names, directories in a proper file system) | resolution of plain paths; every write is at the path it names |
| C89–C91 | `Spec/Html` (proper file systems, the nodes of the directory, parts of a path) | steps on the file system composed; each step changes only what is below the destination |
| C92 | `Spec/Plaintext` (text of records by their tree, text of the tree of a section) | each pass keeps the text in order; elements of the members of records have no text and none of the names of the stylesheet; text read off the events of the XML; `C92_order` says where the text of the section definition is |
| C93, C94 | `Spec/Pages` (a map of the places of the XML: where each element leads, what is out of view) | general theorem on sheets of rules and maps that agree (`walk_all`): the text printed and the text out of view are all the text; order if nothing is moved after its paragraph (`walk_order`); agreement of the two stylesheets by cases on the names; sections of the file as a list of trees (`doc_sections`) |
| C95 | `Spec/Filetime` (`Moment`: leap years, lengths of months; number of microseconds since 1601) | the ordinals of `datetime` against a count of days by years and months; the double nearest to v / 10 and the one with the microseconds added, with bounds of the error |
| C96, C97 | `Spec/Info` (lines of the header by bits, lines of the summary, `PropertyShown`) | inversion of reading the property set (C77); the loop over the thirteen properties up to the first exception |
| C98 | `Spec/Rawunz` (`InflateState`: a stream of stored blocks by RFC 1951; `hexBytes`) | `ZInflater`: what comes out depends on the bytes fed and grows with them; induction over the pieces of 8196 bytes; the witness is inflated by a proof, not by evaluation |
| C99 | `Spec/Utf8` | UTF-16 decoding is inverted by encoding (C61); the incremental decoder keeps at most three bytes |
| C100 | `Spec/Pictures` (pictures out of view by the map of C93/C94; numbers of picture records; streams of `BinData` records by their number) | pictures met and pictures out of view are all pictures (`walkPictures_all`); picture elements are exactly the picture records, through all passes (`derived_picture`); the `n`-th element `BinData` is the `n`-th record; composition with C87 and C89 for the files |
| C101 | `Spec/Css` (a small browser: selectors, specificity, cascade and inheritance; tables of the document by their place) | the rules of the sheet that say something of a property are listed once (`pageRules`), each with its class; for each run the rule of its shape or its style is the most specific one on the innermost element; the boxes around a run are followed through the stylesheet (`htmlRuns_path`) |
| C102 | `Spec/Tables` (the table model of HTML: each cell at the first free column; the one of OpenDocument: each cell behind the one before; tables of records from rows per body and the numbers of the cells) | tables met and tables out of view are all tables; the elements of a table are followed from the records through all passes (`sectionOf_tables`); for cells that fill a grid in reading order the first free column is the declared one (`htmlLayout_eq`) |
| C103 | `Spec/OdtStyles` (style lookup of OpenDocument: family and name, parent styles, the paragraph around a span) | each run is traced back to its paragraph, its line and its number among the texts of the line (`walkSpans_from`); names of styles are injective in these three numbers (`ownTextName_inj`), so that lookup finds the style written for this run (`find_text`, `find_paragraph`, `find_style`) |
| C104 | `Spec/FsStorage` (same result of opening a path; listing in any order) | the tree of an item stands at a path (`TreeAt`, from `unpack_spec`); induction over the path (`fsOpen_same`) and over the depth (`fsLeafs_perm`) |
| C105 | `Spec/Format` (parts of a format and what is shown for them), `Spec/Escapes` (`Unescaped`: what each escape stands for) | the codec `unicode_escape` character by character (`unescape_escChar`); `str % dict` part by part (`pyFormat_part`); the state of the argument does not matter behind a key |
| C106 | `Spec/InfoRecords` (the tables of `DocInfo` as lists of records, and their fields) | the tables of the XML file are the records in their order (`tables_of_records`), attributes are fields (`record_int`, `record_str`, `shape_flags`, `shape_faces`); `doc_paragraphs` counts paragraph numbers through all passes; with C101 and C103 |
| C107 | `Spec/Align` (alignments as they are shown; `paraValue`: the lookup of OpenDocument for properties of paragraphs) | what the rules declare for the element of a paragraph (`declared_shape`, `declared_paragraph`), its classes (`paragraph_classes_shape`), the cascade (`winning_two`); `para_value` for the styles of an office program; `entry_align`, `entry_parashape`, `entry_kind` for the records |
| C108 | `Spec/Lengths` (the number a length stands for; an HWP unit in mm), `Spec/PageSetup` (`valueWithin`: CSS with descendant selectors; `PaperIs`; `pageValue`, `pagesFrom`: master pages in OpenDocument) | `double_close`: the error of a rounding to 53 bits; `odt_nearest`, `html_nearest`, `html_near`; `declared_head`: which rules are for which part of a section; `runs_on_paper`; `master_found`: the master page of the style of a paragraph; `pages_sections`: induction over the sections; from records: `Below`, kept by every pass: definitions of pages stay directly below the section definition (`below_section`), so `section_page`, `papers_of_records` |
| C109 | `Spec/BinEvents` (`ItemTiles`: each item is read at its offset and the next begins where it ends; `Opens`: nesting; `HasLeaf`, `Reports`), `Spec/EventNames` (`Declares`: names and types of the items of a declaration) | `pstep_named`: a round keeps names and types; `step_inv`: every round of the pipeline keeps: what was yielded tiles the payload up to the stream position, the open structs are the stack, the values on the stack were reported; `error_event`: which rounds yield an ERROREVENT; `final_stack`: at the end nothing is open (from the refinement of C37) |
| C110 | `Spec/Margins` (`Margins.room`: where lines begin by a shape; `browserRoom`, `officeRoom`: where they begin by the properties of CSS and OpenDocument; `signedLength`) | `placesStr` reads back as the number (`signedLength_places`); `declared_paragraph`: what the rules declare for a paragraph, for any property; `winning_two`: the cascade; `browser_room`, `office_room`; `entry_margins` for the records |
| C111 | `Spec/Spacing` (`browserLines`: the height of lines declared for a run of text; `officeLines`: the one set for a paragraph; `flagsSpacing`: the kind by the record) | `declared_lines`: what the rules of styles and shapes with `> span` declare for a run; `para_select`: of all rules, only those of the style and of the own shape; `own_lines`; `para_kept`: what a paragraph has from its style; `entry_spacing` from the records |
| C112 | `Spec/Sizes` (`browserSize`, `officeSize`: the size of the letters of a run of text; `shapePercent`: the byte for the language) | `styled_lang`: what a run has of the rules for its language; `size_value`; `shape_sizes` and `percent_read`: the elements of the records, and the bytes (by C72) |
| C113 | `Spec/StreamNames` (`NamesPath`: the path a name stands for; `Leads`: going along a path) | `recordStream_path`: a name is resolved as its path (items never raise `ValueError`, so that only `int()` is caught); `namesPath_exists`; the bytes by C47; the records by C81 (`leads_versioned`: only DocInfo and sections are record streams) |
| C114 | `Spec/Decoration` (`drawnLines`: the lines of all elements around a run are drawn at it; `declaredValue`) | `declared_nothing`: rules of shapes and styles say nothing of elements that are no `span`; `declared_own`, `drawn_around`; the attributes by the records (`entry_line`, `entry_line_color`) |

## Disagreements found between code and properties

Each entry names the theorem that proves the disagreement for a concrete (or general)
input; the property itself is then proved under the condition that excludes it.

* C02 — a record with an empty payload at the end of a stream is read as the end of the
  stream, because reading zero bytes raises `Eof` (`C02_roundtrip_fails_on_empty_payload`).
* C03 — a record whose size is stored in the extended form although it is below 4095 is
  re-exported differently (`C03_reexport_fails`).
* C04 — a payload cut short but not empty is accepted silently
  (`C04_truncation_silently_accepted`).
* C08 — a level below the first one makes `prefix_event` fail
  (`C08_below_base_witness`, `C08_prefix_event_fails_iff`).
* C12 — a truncated last control is accepted with a range beyond the payload
  (`C12_tiling_fails_on_truncated_control`).
* C14 — codes 0x19–0x1d are matched by the regular expression but missing in the table:
  `KeyError` (`C14_missing_codes`, `C14_fails_on_missing_codes`).
* C16 — a shape starting behind the first chunk: `AssertionError`; no shapes:
  `UnboundLocalError`; a boundary inside a control: `TypeError`
  (`C16_late_first_shape`, `C16_no_shapes`, `C16_boundary_inside_control`).
* C17 — positions count UTF-16 units but text is cut by code points, so text behind a
  character outside the BMP gets the wrong shape (`C17_fails_outside_bmp`).
* C20 — a field end in a nested paragraph closes the field of the outer one: ill-nested
  output (`C20_counterexample`).
* C21 — a list header at the top level is never closed (`C21_toplevel_unclosed`).
* C22 — a row declared with no cells takes two (`C22_zero_width_counterexample`); more cells
  than declared: `IndexError` (`C22_extra_cell`).
* C23 — an extended control character without control: `AttributeError`/`IndexError`
  (`C23_missing_control`).
* C24 — without a section definition all content is lost and `(ENDEVENT, None)` is yielded
  (`C24_no_section_definition`).
* C25 — a column-starting paragraph inside another paragraph gives ill-nested output
  (`C25_counterexample`); at the top level: `IndexError` (`C25_toplevel`).
* C28 — a carriage return in text is read back as a line feed by an XML processor
  (`C28_carriage_return_lost`); control characters make the document ill-formed
  (`C28_control_character_not_well_formed`).
* C34 — a string cut short is accepted (`C34_truncated_string_accepted`).
* C45 — streams more than two storages deep are not reached by walking an OLE file
  (`C45_deep_stream_not_reached`).
* C46 — `'\x05X'` and `'_05X'` are unpacked to one file (`C46_collision`); a storage whose name
  contains `'\x05'` makes unpacking fail (`C46_storage_name_fails`).
* C48 — `Section01` is announced as section 1 and then not found, or gives a duplicate
  (`C48_leading_zero_fails`, `C48_duplicate`).
* C51 — when the generator is exhausted a sized read returns the whole buffer, whatever the
  size (`C51_oversized`).
* C52 — no tokens give `'\n]'`, which is not JSON (`C52_empty_not_json`).
* C54 — `final` is always true, so a sized read returns less than asked for although more
  data would follow (`C54_early_end`).
* C55 — property set without dictionary: `AttributeError` (`C55_without_dictionary`); value types
  other than I4, LPWSTR and FILETIME (even the standard I2 code page): `KeyError`
  (`C55_unknown_value_type`); the type code takes 17 bits (`C55_type_code_has_17_bits`).
* C56 — no id mappings: `TypeError` (`C56_no_idmappings`); face names beyond the declared
  counts are dropped (`C56_prefix`).
* C58 — `link_records` gives a record behind a level decrease no parent
  (`C58_parent_link_missing`).
* C60 — an unreadable `Flags` member raises `KeyError` instead of `ParseError`
  (`C60_flags_raise_KeyError`).
* C61 — a `FileHeader` of at most 40 bytes raises instead of giving "no"
  (`C61_short_header_raises`).
* C63 — a list header or control data record that no record encloses raises `KeyError`
  (`C63_top_level_list_header_fails`).
* C65 — on a damaged stream `models()` loses the whole last group before the damage
  (`C65_damaged_stream_loses_group`).
* C67 — binary data of an unknown storage type is shown with an attribute
  `bindata="<hwp5.dataio.Struct object at 0x...>"` (`C67_unknown_storage`).
* C69 — a string or `HexBytes` value cut off by the end of the payload is accepted, and the
  announced length forgotten (`C69_cut_off_string`).
* C70 — a shape component or paragraph part at the top level and flags cut off raise
  `KeyError`; a paragraph part inside a character shape record raises `TypeError`
  (`C70_not_only_parse_errors`).
* C79 — a stream that ends within the payload of a record, or between the two words of a long
  header, is read without exception: the last record has too little payload, or is missing
  (`C79_cut_unnoticed`).
* C82 — when no record is selected the output is `'\n]'`, which is not JSON
  (`C82_empty_not_json`).
* C83 — as C82 for `hwp5proc models` (`C83_empty_not_json`), and a floating point number that is
  not finite is written as `NaN` or `Infinity`, which is not JSON (`C83_not_finite_not_json`).
* C84 — a stream whose name is that of another item with an extension (`DocInfo.xml`) is listed
  twice with `--vstreams`, and the virtual stream cannot be read (`C84_same_name`).
* C85 — `find --tag=29`: a number without a name in `tagnames` raises `KeyError`, although such records exist
  and are found by the name that is shown, `HWPTAG13` (`C85_unknown_tag_number`).  Exceptions other than
  `ParseError` (such as the `KeyError` of C60) end the command, the files behind are not searched
  (`C85_other_error`).  `ViewText` is never searched, so the text of distribution documents is not found
  (`C85_view_text`).
* C86 — the character of a bullet is shown with `chr`; if it is half of a surrogate pair writing ends with
  `UnicodeEncodeError` in the middle of the file, although everything was read (`C86_surrogate`).
* C87 — `mimetype` is the last file of the package, ODF 1.2 part 3 (3.3) wants it first (`C87_mimetype_last`).  A stream
  name with a control character gives a manifest that is not well-formed (`C87_control_name`).  A storage inside
  `BinData` raises `AttributeError` and an incomplete package is left (`C87_substorage`).  A document that cannot be
  read leaves a package without content, and after `ParseError` the exit status is 0 (`C87_unreadable`).
* C88 — a storage with the name `..` makes `unpack` write outside the output directory, over existing files
  (`C88_parent_directory`).
* C89 — `hwp5html` deletes the destination directory before the document is read: the former contents are lost if
  reading fails (exit status 0 after `ParseError`; `C89_former_contents_lost`), and a document inside of it is deleted:
  `hwp5html report/report.hwp` (`C89_input_deleted`).  `--output=.` deletes everything in the current directory
  (`C89_current_directory`).
* C90 — `hwp5odt a.odt` (a HWP document with that name) overwrites the document (`C90_input_overwritten`).
* C91 — after a `ParseError` the destination is empty and the exit status 0 (`C91_parse_error`).
* C92 — `hwp5txt` prints a mark for tables and drawings and not the text in them, and no tabs, line breaks and
  non-breaking spaces: the words beside them run together (`C92_lost`).  The text of the section definition (master
  pages) comes first, wherever its record is (`C92_order`).  A control character in any value, such as the title, makes
  the XML not well-formed: nothing is printed, a file at the destination is emptied (`C92_control_character`, `C92_not_parsed`).
* C93 — the HTML does not have the text of hyperlinks and other fields, of foot- and endnotes and of hidden comments; headers
  and footers are repeated with every section, also those they do not belong to (`C93_lost`).  The title of the page
  is always empty: the template looks for `Property` among the children of `HwpSummaryInfo`, with an attribute `name`; they are two
  levels below, with `id-label` (`C93_title`).
* C94 — the ODT does not have the text of hyperlinks and other fields, of headers and footers (`C94_lost`) and of the captions of
  tables (example for `tableTree`); tables come after the text of their paragraph.
* C95 — FILETIMEs are divided by 10 in floating point numbers: some times of today are shown one microsecond off
  (`C95_inexact`); the error grows to 16 microseconds.  Times after the year 9999 are an `OverflowError` (`C95_range`).
* C97 — `hwp5proc summaryinfo` stops at the first property that is missing (`C97_missing_property`); a line feed in a title
  cannot be told from the next line (`C97_ambiguous`).
* C98 — `hwp5proc rawunz` ends silently at a piece of 8196 bytes of the stream that adds nothing to the contents (`C98_early_end`),
  prints a stream that breaks off as if it were complete (`C98_truncated_silently`), and fails with `zlib.error` for bytes in a piece
  after the end of the stream (`C98_bytes_after_the_end`).  `hwp5proc diststream` of an empty input is a `TypeError` (`C98_no_head`).
* C99 — for a preview text that ends within a character `PrvText.utf8` drops the last bytes, the text of the stream
  cannot be read (`C99_incomplete_end`).
* C100 — a picture in a footnote is not in the HTML, a picture in a header is not in the ODT; the pictures of headers are repeated with
  every section of the HTML; linked data give an image without a source (`C100_pictures_lost`).  Pictures of fills
  (hwp5css-common.xsl:605-639) are not modelled.
* C101 — a run with a character shape that is not bold (or italic) in a paragraph with a bold (italic) style is shown in bold: the rules only ever
  switch on (`C101_not_overridden`).  Text with the character shape of its style has no formatting if the English name of the style is empty or
  no CSS identifier (`C101_style_lost`).
* C102 — the text document has no `table:covered-table-cell`: behind or below a cell that spans columns or rows the cells are put into wrong columns, on
  top of it (`C102_spans_shift`).  Tables in notes are not in the HTML, those in headers not in the ODT.
* C103 — in a line, text after a tab, another control character, a drawing or a note refers to a style that is not there or to that of another
  text: styles are numbered among texts (odt/common.xsl:722-733), references among all that is selected (900, 909) (`C103_after_tab`).  No text has a color
  (`C103_no_color`, for all documents).  The font for western scripts is taken from the faces for Korean (`C103_western_font`).  A run
  that is not bold in a paragraph with a bold style is bold (`C103_not_overridden`).  Different styles get the same name (`C103_same_name`).
* C104 — names with control character 5 are not found in a directory into which the document was unpacked (`C104_control_names`, for all
  storages; `C104_summary`: the summary information).  `stg['..']` and `stg['/name']` leave the directory (`C104_parent`, `C104_absolute`).
* C107 — in HTML a paragraph with the paragraph shape of its style is not aligned if the English name of the style is empty or no class
  (`C107_style_lost`), or if the style is one of characters: rules for paragraph shapes are only written for styles of paragraphs
  (hwp5css-common.xsl:32-48), but the class of the paragraph shape is left out for any style (hwp5html.xsl:112-121) (`C107_char_style`).
* C108 — in ODT a section whose first paragraph has the paragraph shape of its style and no page break is on the pages of the section before it, whatever
  its size: the master page is only written in a style of the paragraph of its own (odt/common.xsl:757-780), which such a paragraph does not get (`C108_master_lost`, `C108_by_shape`,
  from records `C108_turned_lost`).  In HTML lengths of more than 42 m may be off by a hundredth of a millimetre, as 25.4/72 is written with nine digits (`C108_mm_far`).
* C109 — flags that cannot be read raise `KeyError` in `evaluate_bin_values` (bintype.py:286-291) before their item is yielded: no event and no `ParseError` says at which offset reading failed (`C109_flags_without_offset`: every record of tag 30 with less than four bytes).
* C110 — in HTML a paragraph whose own shape has no hanging lines is moved to the right by the indent of its style, if the shape of the style has hanging lines: the padding is only
  declared for negative indents (hwp5css-common.xsl:874-883), so that the one of the style still holds (`C110_hanging_lost`, for all such paragraphs; `C110_hanging_example`).
* C111 — in HTML only distances of lines in percent are written (hwp5css-common.xsl:129-140): for a paragraph shape with a fixed distance, the lines have the height of the style, or none is declared (`C111_html_kept`, `C111_html_lost`,
  for all such paragraphs).  In ODT nothing takes back the height that the style sets if the own shape says only the least distance or the space between lines (odt/common.xsl:461-513; `C111_odt_kept`, `C111_odt_example`).
* C112 — the percents of the size of letters go up to 250, but are read as a number with a sign (tagid21_char_shape.py:79): letters of 128 percent or more are declared to have a negative size, for all such runs of text
  (`C112_html_negative`, `C112_example`: 200 percent of 10pt become -5.6pt).
* C113 — `bodytext/N` looks into the storage BodyText (cli.py:107) also in distribution documents, whose text is in ViewText (filestructure.py:597-602): it opens what is not the text, or is a `KeyError`
  (`C113_distribution` for all such documents, `C113_no_body`, `C113_distribution_example`). `ViewText/SectionN` works.
* C114 — a run without a line in a paragraph whose style has one is shown with that of the style: the rules only ever switch on (`C114_not_overridden`).
  The rule of a style for `> span` also selects the `span` of an inline table in a paragraph, whose line is drawn at all the text of the table
  (`C114_inline_table`).
* C105 — a format with a character outside of ASCII is not used as it is given: `unicode_unescape` (utils.py:117-129) reads the bytes of its UTF-8 form as
  Latin-1 (`C105_other_characters`, for all such formats).

## Not modelled

Floating-point unit conversions, the format of dates outside of the summary information (in the XML it is a parameter), logging, localisation, the
XSLT/RelaxNG back-ends (XSLT only as far as plaintext.xsl, the templates for text, pictures,
tables and styles of text of hwp5html.xsl and odt/common.xsl and the rules of hwp5css.xsl for text need it), UNO/OXT integration, GUI viewer, subprocess handling,
the OLE2 file format itself (olefile), zlib and AES.
