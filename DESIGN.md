# Formal model of MillionConcepts/pdr in Lean 4

## Layout

* `lean/Verif/Model/*.lean` – executable, total models, one file per area of `/repo/pdr`. Every
  definition cites the file and lines it models, and says where it simplifies.
* `lean/Verif/Spec/*.lean`  – small specifications, written from the English properties, that do
  not use the helpers of the model.
* `lean/Verif/Lemmas/*.lean` – helper lemmas.
* `lean/Verif/Props/*.lean` – the property theorems, each with a non-vacuity `example` beside it.

Python exceptions are values (`Except PyErr α` or `Option`). Python loops are folds or structural
recursion; a loop that may not terminate takes fuel, and the theorem says how much fuel suffices.

## Plan, property by property

| id | model | proof |
|----|-------|-------|
| C01 | `BlockParser` as a stack machine on statement lists | induction over label trees (serialise/parse round trip), for any stack context |
| C02 | `split_before`, `split("=")`, `strip` on `List Char` | induction over statement lists |
| C03 | `multidict_dig_and_edit` on ordered multi-dicts | structural induction on nesting |
| C04 | `parse_non_base_10` with a model of Python `int(s, base)` | induction over digits, round trip with an independent numeral writer |
| C05 | `index_duplicate_pointers`, a shared mutable index list threaded through the edit | induction over the tree; negations for collisions and crash |
| C06 | `trim_label` over a byte list with chunked reads | strong induction over chunks |
| C07 | `unpack_to_multidict` work-list | measure induction against the recursive flattening |
| C08 | `factor_to_dtype`, `convert_byte_column_to_bits` | induction on field length, arithmetic of big-endian numerals |
| C09 | `split_bits`, `get_bit_start_and_size` | list slicing lemmas |
| C10 | `sample_types`, `integer_code`, with a model of numpy's dtype-string grammar | case analysis over all strings |
| C11 | reshape/moveaxis/slicing as index functions | index arithmetic over arbitrary sizes |
| C12 | `data_start_byte` etc. with targets as an inductive type | case analysis |
| C13 | `compute_offsets`, `read_format_block` | list induction |
| C14 | `_scaling.py`, `Data.get_scaled` over exact integers and rationals with IEEE rounding (Model/Float, Model/Scaling) | exactness of each step where the dtype holds the results; special constants by membership in the tables; limits in C56, C57 |
| C15 | `get_min_integer_numpy_type`, `get_scaled_numpy_type`, `adjust_array_data_type`, `apply_scaling_and_value_offset` for integer data over `Int`; NumPy 2 wrap-around, promotion and same-kind casting in Model/NumPy | interval and modular arithmetic: the type chosen holds the extremes, so operations modulo 2^bits give the exact value |
| C16 | `ibm_to_np`, `convert_ibm_reals` over `Nat` words; IEEE operations are exact results followed by an arbitrary round-to-nearest `Rounding` (Model/Float) | every intermediate is representable; error of the 56-bit fraction bounded by the nearest-ness of the rounding |
| C17 | `Metadata.metaget` with the memo table as state | invariant over lookup histories |
| C18 | `Data.load` & co. as a state machine with an arbitrary loader oracle | invariants over operation histories |
| C19 | `check_cases` over an abstract filesystem | list induction |
| C20 | `softquery`, `specialize`, with functions as (parameter list, body) pairs | induction over query lists |
| C21 | `pointer_to_loader` decision logic | case analysis |
| C22 | Huffman walk, predictor, sync search of `msl_edr.py` | table facts by kernel evaluation lifted to all streams by induction |
| C23 | header decoding, `read_raw_image` | arithmetic |
| C24 | `formats/mgs_moc.py`: Huffman tree building, tables, bit reader, line decoders, markers, fragments (Model/Moc; tables copied by tools/moc_tables.py) | tables hold the tree (induction over trees), trees of the eight codes computed by the kernel (`decide +kernel`), then induction over pixels, lines, sections, fragments |
| C25 | `browsify.py`: band choice, `find_*_bounds`, `normalize_range`, `eightbit`, `colorfill_maskedarray`, size reduction (Model/Browse; float results rounded by any correct rounding of the format, `np.percentile` any function, PIL not modelled) | monotonicity of rounding and of `round`; case analysis of band choice |
| C26 | `inject_format_files`, `append_repeated_object`, `read_format_block` | list induction |
| C27 | `reindex_df_values`, `unpack_fits_headers` | list induction, negation for collisions |
| C28 | `canonicalize_line_endings` on `List Char` | functional induction |
| C29 | `chunk_statements` (Model/Pvl) | list induction over the lines of a value |
| C30, C31, C33 | `BlockParser.parse_statements`, `parse_pvl`, `chunk_statements` | general theorems over every label of the stated shape: the wrong result follows for all of them |
| C32 | `index_duplicate_pointers` | same induction as C05, with a name already in use |
| C34, C35 | `parse_non_base_10`, `literalize_pvl`, quantities (Model/Literal) | case analysis of the text, round trip with an independent writer |
| C36 | `trim_label` | strong induction over chunks, as C06 |
| C37 | `factor_to_dtype`, `convert_byte_column_to_bits` | position arithmetic for every odd length |
| C38 | `integer_code` and its callers | every width outside 1, 2, 4, 8 |
| C39, C40 | `extract_axplanes`, `extract_bil_linefix`, `generic_qube_properties` | index functions, all sizes |
| C41, C42 | `table_position`, `_check_delimiter_stream`, `skeptically_load_header`, `head_file` (Model/Locate) | case analysis; slicing lemmas over any file |
| C43 | `_agnostic_fits_index`, `hdu_byte_index` | list induction over HDU tables |
| C44, C45 | `read_format_block`, `inject_format_files`, `compute_offsets` | list induction; non-termination shown as failure for every amount of fuel |
| C46 | `metaget`, `metablock`, `refresh_cache`, `fieldcounts` | invariants over histories |
| C47 | `Data.load`, `_add_loaded_objects`, `load_all` | state-machine steps for any loader |
| C48 | `stem_path`, `check_cases` | any directory |
| C49 | `softquery` | any query list |
| C50 | `pointer_to_loader`, `file_extension_to_loader` | case analysis |
| C51 | `multidict_dig_and_edit` with arbitrary predicate and edit | structural induction |
| C52, C53 | MSL bit reader, `read_raw_image` | failure for every fuel; arithmetic |
| C54 | `convert_ibm_reals`; with the table reader of C62 (Model/Table `ibmColumn`) for items and empty tables | interval arithmetic with any rounding; the placed column is shown to fail |
| C55 | `apply_scaling_and_value_offset` | modular arithmetic |
| C56, C57 | `scale_array`, `_inplace_scale`, `find_special_constants`, `mask_specials` | rounding and wrap-around arithmetic |
| C58 | `normalize_range`, `eightbit` | arithmetic with any rounding |
| C59 | `pred_decode`, `find_sync` | computation on every section list of the stated shape |
| C60, C61 | transform-coded MOC images: trees, coefficients, inverse cosine transform, block layout (Model/MocDct) | trees by kernel evaluation, decoding by induction, transform by exact rational arithmetic plus accumulated rounding bounds |
| C62, C63 | `read_table`, `_interpret_as_binary`, `np_from_buffered_io`, `fmtdef_to_dtype`, conversions of cells (Model/Table) | refinement to a specification by byte addresses; induction over records and columns; IBM reals through C53, VAX reals under the hypothesis `ReadsVax` that `vax.from_vax32` (not part of pdr) is right |
| C64 – C67 | the same | general theorems on the stated label shapes |
| C68, C69 | `read_image`, `read_array` (Model/ImageFile over Model/Image) | refinement to byte addresses per pixel |
| C70, C71 | `pds4_tools` arrays: byte reading, bit masks, special constants (Model/Pds4Array) | refinement to byte addresses per element; bit arithmetic |
| C72, C73 | `pds4_tools` fixed-width tables: label tree, names, extraction, conversion, data frame (Model/Pds4Table) | induction over the tree of groups; the three extraction loops refined to byte addresses; names by induction over the path |
| C74, C75 | `pds4_tools` delimited tables: records, quotes, start bytes, columns of repeated fields, masks (Model/Pds4Delim) | the order of values by recursion over the label (`valueSlots`) against the offset and skip-factor arithmetic of the code, by induction over the tree; the parser against the grammar of records by induction over the values |
| C76–C80 | the objects of a product when it is opened: `_init_pds4` with `read_structures`, `_find_objects` with `_associate_prefix_tables`, frames of image files (Model/Objects) | a flat numbering of the structures by induction over file areas; induction over the images; the frame number by the lemma that `int` reads back what f-strings write |
| C81–C83 | `read_table` for text: `_interpret_as_ascii`, `_read_table_from_stringio`, `_read_as_delimited`, `_read_fwf_with_colspecs`, `check_explicit_delimiter` (Model/AsciiTable over Model/Table, Model/Format, Model/Locate) | the tokenizer of `read_csv` against a grammar of quoted fields, by induction over fields and lines; slices of lines against the bytes of the label |
| C84, C85 | FITS files: names of HDUs, headers, data by name and by start byte, PDS4 labels (Model/Fits over Model/Load) | the numbering by induction over the list of names; an invariant of the product over all histories; uniqueness in the dictionary of start bytes from the order of HDUs |
| C86, C87 | opening: `Data.__init__` up to the standard, `check_primary_fmt`; `_object_to_filename`, `_check_compressed_file_pointer`, `_target_path` (Model/Open over Model/Files) | composition with the theorems on file lookup (C19); suffix rules by induction over `split` |
| C88, C89 | ARRAY objects that are text: `read_array` (Model/AsciiArray): the regular expression, `float`, reshape, astype; rounding as in Model/Float, numpy's text of a float is a parameter | the scanner splits at every character that is in no number; induction over the numbers |
| C90, C91 | `_make_uniformly_sampled_field` (Model/Uniform), with the operations on numbers as a parameter: Python's integers and correctly rounded doubles, or real numbers; columns by C72 | induction over the records; errors of rounding add up; neighbours of a double |
| C92 | XML documents as trees with namespaces; reading of labels, `xml_to_dict`, unpacking, `meta_data`, function by function (`Model/Xml`) | induction over documents; texts by counting lines and words; names by replacing; grouping as a formula; the search as a permutation of the elements |
| C93 | the same model | general theorems with examples |
| C94 | `add_bit_column_info`, `set_bit_string_data_type`, `expand_bit_strings` and the special cases for bit columns, composed with the binary table reader (C62, C63) and the per-column results (C08, C09) | lifts the result of the table without bit columns (columns as raw bytes) to the table with bit columns, by induction on the columns |
| C95 | the same model | what a table that could be read implies about each column, contradicted case by case; congruence for the ignored DATA_TYPE |
| C96 | `literalize_pvl` with a concrete model of `ast.literal_eval` (tokenizer, expression grammar with 200 bracket levels, `_convert`) | token by token (`Lx`: a text followed by anything that may end it has these tokens), parser by induction on the nesting depth, evaluation; texts that are no literals: leftmost name, `T` after digits, `<` or `#` after a number |
| C97 | same model, the other way round | general theorems over all such texts, with literal examples |
| C98 | `read_pvl` as a whole: `trim_label`, UTF-8 (strict and with replacement, byte by byte) and Latin-1 decoding, `looks_pvl`, `check_special_label`, `parse_pvl` | composition of C01, C02, C03, C05, C06 and C96; decoding is inverse to encoding, by cases on the code point and strong induction on the bytes |
| C99 | same model | composition of C03, C05 and C97 |
| C100 | `Model/Special`, `Model/SpecialBlock`: all the checks as one decision each over the record `Ids` of identifying values | `Ordinary` (Spec/Special): none of the listed missions, hosts, spacecraft, instruments, words; each check is shown to fall through, so each decision is the general one |
| C101 | `specialOffset`, `startByte` | case analysis of the rule order; precedence of `and` over `or` as written |
| C102 | `Model/SpecialBlock`: corrections as functions on definitions, `readBlock`, `readTimes` | each correction outside C103 is shown idempotent; induction on the number of readings |
| C103 | the same | induction on the number of readings: the value after k readings in closed form |
| C104 | `specialFiles`, `themisFiles` | case analysis |
| C105 | `specialPosition`, `position` | specification `LongTable`; each constructor is followed through the order of rules |
| C106 | `specialSample`, `imageSample` | case analysis, meaning of the dtype by C10 |
| C107 | `specialOffset`, `laterOffset`, `startByte` | specification `StartsAt` (Spec/SpecialPlaces): each constructor is followed through the order of rules |
| C108 | `specialHdu`, `uvsStart`, `lampRdr` | specifications `InHdu` (HDU numbers as positions in a list), `lampHdus`, `Part` |
| C109 | `specialReader`, `specialStructure`, `loaderOf` | lists of data sets and objects; no earlier rule raises |
| C110 | `specialFiles`, `pathStem` | specification `BesideLabel` |
| C111, C112 | `_convert_fits_table_to_df`, `reindex_dupe_names`, `structured_array_to_df` (Model/FitsTable) | induction over the fields with the buffer of plain fields; bytes of each element followed through the swap |
| C113, C114 | `_fix_up_line_prefix_table_block`, `get_block` (Model/PrefixTable), composed with the binary table reader (C62) | the size of the records follows from the last column and the samples; then C62 |
| C115, C116 | `get_histogram_fields` and reading HISTOGRAMs (Model/Histogram over Model/Table) | shown to be read as a table with one column of ITEMS, then C62/C63 |
| C117, C118 | `read_array` with `parse_array_structure`, `insert_sample_types_into_df`, `construct_nested_array_format` (the part ARRAYs can reach), `fmtdef_to_dtype` without offsets (Model/ArrayRecords), composed with the definitions of Model/Format and the decoding of Model/Table | the fields of the structure are the slots of the specification (as in C62); packed offsets by induction; index arithmetic as in C68 |
| C119 | Model/Product composes the models of labels, lookups, locations, format definitions and tables | the label's block and pointer are specified as entries (`TableSays`, `Starts`), the model's lookups are shown to find them (C14, C15), format files are put in by finitely many rounds (induction on `Defines`: pointers to files are replaced, in place, by what the files say), and then C94 gives the values; `C119_product` starts from the bytes of the label |
| C120 | the same for images | as C119, with C68 for the values |
| C121 | Model/ProductText: the same for text tables and spreadsheets | as C119 (`TextAt` says where the text is, independently of the code's case distinctions), with C81 and C82 for the columns; `C119_label` gives the state for a label's bytes |
| C122 | `Model/Read`: composition of Open, Files, Label, Objects, Metadata, Dispatch, Load, Product and ProductText into `pdr.read` followed by any history of operations. | `open_ok` and `read_ok` from C86, C98 and C79; `file_ok` from C07 and C87; invariant over histories (`Good`: nothing in the cache but the value of the object) by induction on `Load.Run`; values from C119, C120 and C121, which hold for all metadata lookups. |
| C123 | `dump_browse` as a loop over the listed names on a state of loaded objects and files; drawing and scaling are parameters | induction over the names; a specification relation for the files of an object (equivalent to the model), names with endings are apart |
| C124 | the same model | general theorems for each loss |
| C125 | `Model/Pds4Read.lean`: label XML → descriptions of structures → names → array; the specification speaks about the XML document | lemmas about `xml_to_dict` of elements with children and texts, induction over the elements, areas and structures, then C76 and C70 |
| C126 | the same model | errors of one structure or area pass through the loops (induction) |
| C127 | Pds4Read composed with Pds4Table: XML element → convenient dictionaries → Meta_Field trees → C72 | induction over the document tree (`Contents`) matched with `rawL`/`forestOf` |
| C128 | the same, error cases | a spoiling element at any depth of the tree spoils the whole list of fields |
| C129 | Pds4Read composed with Pds4Delim: the same trees of fields, delimiters and sizes from the label → C74 | as C127; the delimiters by their names without regard to case |
| C130 | Pds4Read: the header's element → offset and length → bytes | as C125, then the bytes of `read_byte_data` one by one |
| C131 | the same, error cases and the meaning of a stop byte 0 | as C126 |
| C132 | `Model/DesktopXml.lean`: XML as ElementTree has it → nested mapping; the specification speaks about the document | induction over the document (mutual with its children); the result relation `Shows`, and `Found` in the result iff `Says` in the document |
| C133 | the same model | the error of an element passes through all its ancestors (induction); assignment of one key twice |
| C134 | `Model/McsTable.lean`: bytes → lines → records → columns; the specification writes the records as text | induction over the records with the lines that remain; columns by a general lemma about `table` |
| C135 | the same model | where the loop goes on after a record with wrong or missing lines, at any place of the file |
| C136, C137 | `Model/Prettify.lean`: the two attempts at every block, the text wrapped by a parameter; the specification is the label on one line and the entries by depth | mutual induction over the tree: content of every text that is made, existence if long strings can be wrapped, no text otherwise |
| C138 | `Model/Fuzzy.lean`: longest common subsequence, ratio, maximum, then `metaget` | the recursion gives the longest common sublist; ratio 1 only for equal texts |
| C139, C140 | `Model/RowText.lean`: the text that is made of the file, then `read_fwf` as for other text tables | induction over the rows: the text has the rows as lines; columns by the lemmas of C81 |
| C141, C142 | `Model/LooseText.lean`: `read_csv` with white space as separator (implicit row labels included); `read_csv` with `skiprows`, `nrows` and commas | words of lines by the lemmas of C66; lines of the file that are dropped, tokens of the rest by the lemmas of C81, rows that are finished are a prefix |
| C143, C144 | `Model/MissionCsv.lean`: `read_csv` with `usecols`, `names`, `header`, `skiprows` | tokens of the lines by the lemmas of C81; lines of the file that are dropped as for C142 |
| C145, C146, C147 | `Model/NamedText.lean`: names that each reader uses, then `read_csv` at white space or commas | as C141 and C142: words and fields of lines; names by induction over the list |
| C148, C149 | `Model/HeadedText.lean`: `read_csv` with `skiprows` and `nrows`, with three names, with a header | as C142 and C144; lengths of the lines before the table |
| C150 | `Model/CommentText.lean`: lines without comments, then `read_csv` with a header | induction over the lines: the text without comments has their visible parts as lines; then as C149 |

## Trusted base

* **Lean's kernel** (Lean 4.33.0) and the statements in `Verif/Spec` and `Verif/Props`.
* **Axioms.** At most `propext`, `Classical.choice`, `Quot.sound`. `AXIOMS.md` lists them theorem by
  theorem (made by `tools/axioms.py` from `#print axioms`). No axiom is declared in `/verif`. No
  `native_decide`, no `bv_decide`. `decide +kernel` is used only for closed facts about constant
  tables of the code and for examples; the kernel itself evaluates them (Lemmas/Msl, Lemmas/MocTree,
  Lemmas/MocDctTree; name tables in Props/Scaling; examples and constants in Props/Moc, MocDct, MocPixels,
  Browse, Pds4Array, Pds4Table, Pds4TableLimits, Pds4Delim, Pds4DelimLimits,
  Objects, ObjectsPds3, ObjectsFiles).
* **The reading of `/repo`** recorded in the comments of `Verif/Model`: nothing links the Python text to
  the model mechanically. The code was never run.
* **Generated files.** `Model/MocTables.lean`, `Lemmas/MocTree.lean`, `Lemmas/MocDctTree.lean`,
  `Lemmas/MocCosine.lean` are produced by `tools/moc_tables.py`, `tools/moc_dct.py`,
  `tools/moc_cosine.py` (tables copied from `formats/mgs_moc.py`); the lemma files are proofs and need no
  trust, the tables are part of the reading of `/repo`.

### Assumptions about libraries

* Python: `str`, `int(s, base)`, slicing, `dict` order, exceptions, as in CPython 3.
* NumPy 2: Python scalars are weak in promotion; integer operations wrap; `astype` to a smaller integer
  type wraps; same-kind casting for in-place operations; `frombuffer`/`fromfile` read elements at
  consecutive addresses in the dtype's byte order; float operations are the exact result followed by a
  round-to-nearest (any tie rule: `Rounding` in Model/Float). `Model/Pds4Array` has a flag for the change
  of NumPy 2.1 in `bytes -> int` comparisons; theorems hold for both or say which.
* pandas without `numexpr`.
* `np.percentile` is an arbitrary function (C25, C58), PIL's drawing and saving are not modelled.
* `dustgoggles`: `dig_and_edit`-style helpers are modelled where the code calls them; `naturals()` counts
  from 1. `multidict.MultiDict` is an ordered list of pairs.
* Python's `float` of bytes and UTF-8 decoding are parameters (any function) of the PDS4 table model.  For delimited tables, UTF-8 decoding is assumed to satisfy `CutsAscii`: what is before and after an ASCII byte of a decodable text is decodable.
* `pd.read_csv` (C engine, `header=None`, default options) tokenizes as pandas 2's `tokenizer.c` does, rejects lines longer than the first and fills up shorter ones; `pd.read_fwf` with column positions slices lines, strips them and drops empty rows. What either makes of the cells of a column (types, missing values), and `read_fwf` without positions, are parameters (any function).
* `vax` and `cp500` decoding are parameters (any function) of the table model.
* `astropy.io.fits`, `pvl`, `rms-vax`, image decoders (`PIL`, `rasterio`) are not modelled: where a loader
  hands over to them the model stops at the arguments passed.

### Modelled

| model file | code |
|------------|------|
| Py, Float, NumPy | library behaviour listed above |
| Pvl, Literal, MultiDict | `parselabel/pds3.py` whole, `parselabel/pds4.py` whole, `pdr.py` Metadata flattening |
| Trim | `parselabel/utils.py` |
| Metadata, Load | `pdr.py` Metadata lookups, `Data.load`/`load_all`/`__getitem__`/`__getattribute__` |
| Files | `utils.py` `check_cases`, `decompress` suffixes, `read_hdu...` name tests, `pdr.py` file lookup |
| Query | `func.py` whole |
| Dispatch | `loaders/dispatch.py`, `loaders/utility.py` name tests |
| Locate | `loaders/_helpers.py`, start bytes, table positions and lengths of `loaders/queries.py`, `loaders/text.py`, FITS indices |
| Format | `read_format_block`, `inject_format_files`, `append_repeated_object`, `compute_offsets`, `reindex_df_values` |
| Bits | `bit_handling.py` |
| Datatypes | `datatypes.py` |
| Image, ImageFile | `loaders/image.py`, the image/qube properties of `loaders/queries.py`, `read_array` |
| Table | `loaders/table.py` `read_table`, `_interpret_as_binary`; conversions in `pd_utils.py`, `np_utils.py` |
| AsciiTable | `loaders/table.py` for text tables; SPREADSHEET formats without START_BYTE; the tokenizer of `read_csv` and the line slicing of `read_fwf` (pandas 2) |
| Scaling | `_scaling.py`, `Data.get_scaled` |
| Ibm | IBM reals of `np_utils.py`, `convert_ibm_reals` |
| Browse | `browsify.py` array rendering |
| LineEnd | `_helpers.py` `canonicalize_line_endings` |
| Msl | `formats/msl_edr.py` whole |
| Moc, MocDct, MocTables | `formats/mgs_moc.py` whole |
| Pds4Array, Pds4Scale | `pds4_tools` arrays: reading, bit masks, special constants, scaling, data types |
| Pds4Table | `pds4_tools` Table_Character and Table_Binary: manifest, names, extraction, conversion, structured array, `structured_array_to_df` |
| Pds4Delim | `pds4_tools` Table_Delimited: `_read_table_byte_data`, `_get_delimited_records_and_start_bytes`, `_extract_delimited_field_data`, offsets and skip factors, `mask_nulls`; contents of `np.empty` arrays are an arbitrary `Memory`; what pandas makes of a masked array is not modelled |
| Objects | `Data._init_pds4`, `_load_pds4` (the dictionary lookup), `read_structures` (all structures can be created; `local_identifier` and `name` are given per element), `_find_objects`, `_associate_prefix_tables`, `standalone_start_byte` (the queries for the object IMAGE are one unknown value), `_add_compressed_image_objects` and the choice of frame in `load`; special objects of instruments, special PDS4 cases and FITS are left out |
| Fits | `handle_fits_file`, `hdu_byte_index`, `handle_fits_header`, `unpack_fits_headers`, `_load_primary_fits`, `_init_primary_format`, `_find_fits_header_pds4_id`, FITS branch of `_load_pds4`. What astropy makes of the file is given: names, cards (value, comment, or VerifyError), data and locations of HDUs, and the cards after `verify('silentfix')` |
| Open | `Data.__init__` (pdr.py 233-304), `check_primary_fmt`, `looks_like_this_kind_of_file`, `_object_to_filename`, `_check_compressed_file_pointer`, `_target_path`; what pillow finds in a file is given; the order of a set of two words is arbitrary; special cases of file names (`check_special_fn`) are a given list of names |
| AsciiArray | `read_array` for text. Left out: decoding of the file's bytes, digits of other scripts, numpy's text of a float (parameter), conversion of numbers outside the range of an integer type |
| Uniform | `_make_uniformly_sampled_field`. Parameters: powers and logarithms of the C library, the memory `np.empty` gives. Left out: signs of infinities |
| `pds4_tools/reader/read_label.py`, `pds4_tools/utils/helpers.py` (`xml_to_dict`, `cast_int_float_string`), `label_objects.py` `to_dict`, `general_objects.py` `_load_keys_from_xml` | `Model/Xml` (the XML parser itself is not modelled: documents are trees of elements with namespaces, attributes, texts; `float(text)` is a parameter) |
| BitTable | bit_handling.py 21-55, 111-187, handlers.py 262-289, checkers.py 748-801, cassini.py 230-249, galileo.py 182-205, table.py 97-134 |
| `ast.literal_eval` (CPython, library) | `Model/PyLit.lean`: tokens, expressions, values of texts of one line; compared with CPython 3.11 on 50074 generated texts without a difference (outside the proofs). Not modelled: `\N{...}` escapes, line feeds, warnings, memory limits of the parser |
| Label | `parselabel/pds3.py` 134-171, the decoding of `parselabel/utils.py` 65-69, `check_special_label`, `special_label` of `formats/change.py` and `formats/vex_mag.py`; not `decompress` and the GB 18030 table (parameters) |
| Special | pdr/formats/checkers.py (offset, position, sample type, file, trivial, reader, structure, band, constants, objects and FITS checks) with the functions they call that decide a place, length, type or file; pdr/func.py `specialize` | regular expressions are written as lists of words; special loaders and readers themselves are not modelled, only when they are chosen |
| SpecialBlock | pdr/formats/checkers.py `check_special_block` with the corrections it calls (galileo, phoenix, ulysses, voyager, mex, ground, mgs, kaguya, msl_edr, pvo, ...) | definitions are ordered lists of keys and values or blocks; corrections that read files (`Around`) get what they read as an argument |
| FitsTable | `loaders/handlers.py` 102-176, `pd_utils.py` 271-318, `np_utils.py` 17-53: FITS tables as data frames; the arrays that astropy affords for the fields are inputs |
| PrefixTable | `loaders/queries.py` 284-321: blocks of line prefix tables |
| Histogram | `get_histogram_fields`, `_fill_empty_byte_rows` and `parse_table_structure` of `loaders/queries.py` for HISTOGRAMs |
| Model/ArrayRecords | `queries.py` 642-664, `pd_utils.py` 157-239, `loaders/table.py` 37-52 for BINARY ARRAYs with subobjects; the ASCII branch of `read_array` is not modelled |
| Product | `Data.load` of a TABLE or IMAGE from the label on: get_block, get_target, data_start_byte, the label-wide identifiers, the format definition with format files (their contents given by a function: finding them is C110, reading them C98) and bit columns; the file that holds the object is given, and there are no special cases |
| ProductText | `Data.load` of a text TABLE or SPREADSHEET from the label on; the decoded file is given, one character per byte; FIELDs without DATA_TYPE, and spreadsheets with CONTAINERs or some FIELDs with BYTES and some without, are left out |
| `Model/Read` | `pdr/pdr.py` 217-325, 410-528, 535-600, 762-854, `pdr/loaders/queries.py` 846-875, `pdr/loaders/datawrap.py` 77-119 | the files do not change; special cases, prefix tables, labels with COMPRESSED_FILE and readers other than those of tables and images may do anything (`Machine.other`) as long as they give nothing for the name of another object |
| Dump | pdr/pdr.py 989-1126 `dump_browse`, pdr/browsify.py 157-257 `browsify`, `_browsify_recarray`, `_browsify_array`: files and memory; `save=False`, negative `slice_axis`, object names with slashes left out |
| `Model/Pds4Read.lean` | `core.py` 200-309, `array_objects.py` 352-400 and 445-470, `read_arrays.py` 174-220, `general_objects.py` 582-654, `pdr.py` 335-348 and 714-750, `checkers.py` 1340-1403: `table_objects.py` 495-557, 660-694, 1030-1088, 1298-1412, 1610-1880, `read_tables.py` 817-957, `header_objects.py` 226-234, `read_headers.py` 28-68: a PDS4 product with arrays, tables and headers from its XML to the values. Parameters: `float(text)`, memory that is not initialized. Left out: FITS files, special readers, tables with masked values, Uniformly_Sampled fields, display settings |
| `Model/DesktopXml.lean` | `pil_utils.py` 27, 72-98, 118-134: `unpack_xml`, `pick_text_attrib`, `strip_ns`. Left out: Pillow (tags of the image, `XMLPacket`), the parser of XML, tails of elements (which the code does not look at) |
| `Model/McsTable.lean` | `formats/mro.py` 46-150: `mcs_ddr_table_loader`. Parameter: `astype` of a text. Left out: warnings, the printed line; `REPETITIONS` below 0 or missing |
| `Model/Prettify.lean` | `utils.py` 196-224: `prettify_multidict`; `pdr.py` 199-205. Parameters: the text that an f-string makes of a value; `textwrap.wrap` (assumed: it keeps the characters that are not white space, in order, and gives no line for a blank text) |
| `Model/Fuzzy.lean` | `pdr.py` 141-151: `metaget_fuzzy`. `Levenshtein.ratio` from its documentation, as a fraction instead of a float |
| `Model/RowText.lean` | `formats/ihw.py` 19-54: `add_newlines_table_loader`; `formats/mgn.py` 55-93: `occultation_loader`. Files are ASCII text; pandas as in `Model/AsciiTable.lean` |
| `Model/LooseText.lean` | `formats/change.py` 54-98: `read_table_using_spaces`; `formats/phoenix.py` 50-84: `afm_table_loader`. Lines end with LF or CRLF; line feeds between quotes in skipped lines end them; pandas as in `Model/AsciiTable.lean`, with the Python engine for white space |
| `Model/MissionCsv.lean` | `formats/mex.py` 19-41: `aspera_table_loader`; `formats/cassini.py` 14-51: `spreadsheet_loader`. Parameters: how pandas makes names in a header differ, types of columns; line feeds between quotes in skipped lines end them |
| `Model/NamedText.lean` | the readers of `formats/ihw.py` 3-16, `odyssey.py` 3-18, `ulysses.py` 4-21, `voyager.py` 112-133, `mex.py` 129-145, `viking.py` 4-42, `mer.py` 3-17, `mgn.py` 8-31. Tables divided at white space have no quotes; lines end with LF or CRLF; file names are ASCII |
| `Model/HeadedText.lean` | `formats/msl_rems.py` 3-26, `lro.py` 91-109, `msl_places.py` 3-15, `galileo.py` 156-168. Line feeds between quotes in skipped lines end them (REMS) |
| `Model/CommentText.lean` | `formats/voyager.py` 136-155. No quotes in the file |

### Not modelled

what `astropy` does to decode FITS headers and data; JPEG/TIFF/GIF decoding; ISIS projections; those special table
readers of single missions that call pandas with their own options and are not named in the table above, and constants of `formats/*.py` that
no modelled function uses (which missions' checks, block edits and file name rules are modelled is said under
`Special*`, `Histogram`, `ArrayRecords` and `Decompress` above); the type inference of `pd.read_csv`/`read_fwf`; `browsify` of
non-arrays; the `pds4_tools` viewer, label display and XML library; `pdrtestsuite`; command line; logging and warnings
text; performance; concurrency (the library has none: a `Data` object is a sequential state machine, and
schedules in C17/C18/C46/C47 are histories of calls).

### Findings

Properties titled "Limit: ..." state behaviour that a user would not expect, as a general theorem with a
concrete instance beside it. They were separated from the positive properties, whose quantifiers exclude
exactly those inputs; together the two describe the code on all inputs of the area.

## Testing the theorems

`seeded/LOG.jsonl` records every seeded edit of the model, the claims it breaks and the theorems that
stopped proving. Edits that survived led to stronger theorems (field `tightened`).
