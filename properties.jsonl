{"id": "C01", "title": "Nested label blocks parse back to the tree that was written", "statement": "If a PDS3 label is the statement list of a tree of parameters and (arbitrarily nested, possibly empty, possibly same-named) OBJECT/GROUP blocks, each closed by an END_OBJECT/END_GROUP statement (with or without an END statement at its end), then parsing it yields exactly that tree (same nesting, order and duplicates) and the flat parameter list has every key of every level exactly once, a block's name following its contents.", "quantifier": "every finite tree of label blocks, every parameter name that is not a block keyword, every value string", "why_tests_cant": "nesting depth, width and duplicate structure are unbounded; tests fix a handful of labels", "anchors": ["pdr/parselabel/pds3.py: BlockParser.parse_statements, _step_in, _step_out, add_statement"]}
{"id": "C02", "title": "Label text splits into statements without losing or merging any", "statement": "For label text whose lines are assignment lines (one '=', first 8 characters upper case) followed by continuation lines, and block terminators, pdr recovers for each assignment the parameter and the value formed from the head and every continuation line, in order.", "quantifier": "every list of well-formed statements, with any number of continuation lines, any amount of surrounding blank space and blank lines", "why_tests_cant": "line contents and statement counts are unbounded", "anchors": ["pdr/parselabel/pds3.py: parse_pvl, chunk_statements, is_an_assignment_line, extract_pvl_block_terminal"]}
{"id": "C03", "title": "Interpreting label values never changes keys, order or nesting", "statement": "Turning the raw strings of a label into Python values touches values only: the sequence of keys at each level, their multiplicity and the nesting are those of the raw label, and every leaf is the interpretation of the leaf that was there.", "quantifier": "every nested multi-valued mapping and every value interpreter", "why_tests_cant": "unbounded nesting; tests inspect a few keys", "anchors": ["pdr/parselabel/pds3.py: literalize_pvl_block, multidict_dig_and_edit"]}
{"id": "C04", "title": "Non-base-10 integers in labels read back as the integer written", "statement": "A PVL radix integer B#digits# with base 2..36 is read as exactly the integer those digits denote, with either sign and for any number of digits; alone or as an element of a parenthesised or braced collection. Whatever the radix reader accepts is a decimal base, '#', digits denoting the returned integer, and one more character (see C34); letters and digits that are not all digits of the base are rejected.", "quantifier": "every base 2..36 and every integer", "why_tests_cant": "unbounded integers times 35 bases", "anchors": ["pdr/parselabel/pds3.py: parse_non_base_10, literalize_pvl"]}
{"id": "C05", "title": "Duplicate pointers become distinguishable keys", "statement": "When a label has the same pointer n>1 times, after loading the label those pointers are named P_0..P_(n-1) in label order, the object definitions of the same name are renamed in the same way, and every other key is unchanged; the label keeps its shape. Pointers whose names contain STRUCTURE or PDS_OBJECT are left alone, and pointers whose names contain DESCRIPTION are numbered without any object definitions. Loading fails (IndexError) exactly when there are more object definitions of a numbered name than pointers.", "quantifier": "every nested label with any number of duplicates of any number of pointers", "why_tests_cant": "unbounded labels and multiplicities", "anchors": ["pdr/parselabel/pds3.py: index_duplicate_pointers, set_key_index, get_pds3_pointers, pointerize, depointerize"]}
{"id": "C06", "title": "Attached-label trimming returns exactly the head of the file up to a label ending", "statement": "The bytes returned by the label trimmer are always a prefix of the file; if the trimmer stops before the size limit and before end of file then the prefix ends in a recognised label ending; the first 51200-byte window (from byte 20) with an ending decides, at the first ending of the first kind present; when no window below the size limit has an ending either the whole scanned region is returned or InvalidAttachedLabel is raised, as requested; nothing else is raised.", "quantifier": "every file content, every size limit and every flag combination", "why_tests_cant": "file contents are unbounded; chunk-boundary alignments are rarely sampled", "anchors": ["pdr/parselabel/utils.py: trim_label, _scan_to_end_of_label"]}
{"id": "C07", "title": "PDS4 label unpacking preserves document order", "statement": "Unpacking a PDS4 label gives, at every level, the children in document order, each list-valued child becoming consecutive entries of the same key (lists within lists flattened), with no child lost or duplicated.", "quantifier": "every nested mapping/list structure", "why_tests_cant": "unbounded nesting; order defects need particular shapes", "anchors": ["pdr/parselabel/pds4.py: unpack_to_multidict, reformat_pds4_tools_label"]}
{"id": "C08", "title": "Bit columns show the bits stored in the file", "statement": "For a big-endian bit column the bit string of every row is the concatenation of the 8-bit representations of the row's bytes, always 8*length bits; for a little-endian column the bytes of each machine word of the field are reversed first.", "quantifier": "every row, every byte content, every field length >= 1, every number of rows", "why_tests_cant": "2^(8n) contents for every field length n", "anchors": ["pdr/bit_handling.py: factor_to_dtype, convert_byte_column_to_bits, convert_to_full_bit_string"]}
{"id": "C09", "title": "Bit fields are cut at the label's one-based positions", "statement": "The i-th value of a split bit column is bits START_BIT..START_BIT+BITS-1 (one-based) of the bit string; an ITEMS group yields ITEMS consecutive non-overlapping fields of ITEM_BITS; fields tiling the string reassemble to it.", "quantifier": "every bit string, every list of bit-column definitions", "why_tests_cant": "unbounded definitions; off-by-one errors only show at particular layouts", "anchors": ["pdr/bit_handling.py: splice_bit_string, split_bits, get_bit_start_and_size", "pdr/formats/checkers.py: check_special_bit_start_case"]}
{"id": "C10", "title": "PDS sample types map to element types of the stated width and byte order", "statement": "Every PDS3 sample type name and byte width with a defined meaning is accepted for numpy, and the resulting element type occupies exactly that many bytes and has the byte order, signedness and kind the type name says; every other combination is an error, except integer types of odd widths (C38).", "quantifier": "every sample type name and every byte width", "why_tests_cant": "type names times all widths; a wrong-width answer shifts every later element", "anchors": ["pdr/datatypes.py: sample_types, integer_code, determine_byte_order"]}
{"id": "C11", "title": "Image pixels land at their band, line and sample", "statement": "For band-sequential, line-interleaved and pixel-interleaved images the returned array element [band][line][sample] is the pixel stored at that band/line/sample position of the file, once row prefixes and suffixes are removed, for any image size.", "quantifier": "every image dimension, band count, storage order, prefix and suffix width and pixel content", "why_tests_cant": "index arithmetic must hold for every shape; tests use a few shapes", "anchors": ["pdr/loaders/image.py: read_image, process_single_band_image, process_multiband_image, extract_single_band_linefix, extract_bil_linefix, extract_axplanes", "pdr/loaders/queries.py: get_image_properties, extract_linefix_metadata, extract_axplane_metadata"]}
{"id": "C12", "title": "Data location is never before the start of the file and honours label units", "statement": "The byte offset computed from a pointer (number, quantity with units, tuple, string) is (n-1)*record size for record-based pointers (n>=1; n<=0 is read as the start of the file), n-1 for byte-based ones (n<1 is an error), 0 for bare file names, counted from the end of the file when only rows and row size are known, and is never negative; a list of file name and place is its place. A table read by bytes starts there and its length is BYTES, or records times record length; a stream table starts at its row.", "quantifier": "every pointer target form, record size and number", "why_tests_cant": "numeric domain unbounded and many target shapes", "anchors": ["pdr/loaders/queries.py: data_start_byte, table_position", "pdr/loaders/_helpers.py: quantity_start_byte, count_from_bottom_of_file"]}
{"id": "C13", "title": "Table column offsets match the label's start bytes", "statement": "In a table of columns and unnested containers that starts with a column, whose containers start directly after the (unrepeated) entry before them and whose multi-item columns are listed in byte order, every value is looked for at START_BYTE-1 (+ row prefix, + start of the container, + item and container repetition strides) with its declared width. Items and repetitions that fit their strides do not overlap. Without row prefix, a record is ROW_BYTES + ROW_SUFFIX_BYTES long if its values lie within ROW_BYTES and the last column has no items.", "quantifier": "every such table: any columns, item counts, repetition counts, sizes", "why_tests_cant": "unbounded column lists, item and repetition counts", "anchors": ["pdr/pd_utils.py: compute_offsets, insert_sample_types_into_df", "pdr/loaders/queries.py: read_format_block, append_repeated_object"]}
{"id": "C14", "title": "Scaling changes values by exactly value*scale+offset and nothing else", "statement": "get_scaled masks exactly the special constants of a PDS3 array (those the label declares, pdr's own for the array's type, and numbers that are not finite), which keep their value, and every other element becomes exactly value*SCALING_FACTOR+OFFSET whenever the array's type holds the factor, the offset and the results; integers with a factor that is not an integer become float64 or the float type asked for, with the same exact results if it holds them. Lists of factors and offsets are applied plane by plane. Factor 1 and offset 0, missing or null entries, arrays scaled on loading and products that are neither PDS3 nor PDS4 give the values back unchanged. (NULL is subject to C57, results the type does not hold to C56.)", "quantifier": "every array, scale, offset and special constant set", "why_tests_cant": "numeric domain; overflow/widening choices depend on extremes", "anchors": ["pdr/_scaling.py: scale_array, mask_specials, find_special_constants, fit_to_scale, overflow_wrap"]}
{"id": "C15", "title": "PDS4 integers are scaled without wrapping around", "statement": "The integer type chosen for a list of Python integers holds every one of them. Whenever scaling PDS4 integer data (any of the eight integer types or object) by integer factor and offset returns, every element that is neither masked nor a special constant has become exactly value*factor+offset, masked elements and special constants keep their value, and the type of the result holds all of them: nothing wraps around. An unmasked array gets exactly its special constants masked if it is scaled; one that had masked elements keeps its mask. Scaling succeeds for factors and offsets below 2^63 in magnitude if some value is negative before or after (for the others see C55).", "quantifier": "every array of integers and every scale/offset", "why_tests_cant": "extreme values and boundaries", "anchors": ["pdr/pds4_tools/reader/data_types.py: get_min_integer_numpy_type, get_scaled_numpy_type, adjust_array_data_type, apply_scaling_and_value_offset"]}
{"id": "C16", "title": "IBM hexadecimal floats decode to their value, exactly or correctly rounded", "statement": "Every 32-bit IBM System/360 floating point word is decoded to exactly (-1)^s * 16^(e-64) * f with f the fraction; a 64-bit word to within half a unit of the 53rd bit of that value, and exactly when its fraction is a number of at most 53 bits followed by zeros. A table column of 32-bit words is returned with exactly those values, whether stored as float32 or float64, if each is zero or at least 2^-126 in magnitude.", "quantifier": "all 2^32 and 2^64 words", "why_tests_cant": "the domain is far beyond enumeration", "anchors": ["pdr/np_utils.py: ibm32_to_np_f32, ibm64_to_np_f64, ibm_to_np"]}
{"id": "C17", "title": "Metadata lookup is first-match, repeatable and independent of history", "statement": "metaget returns the first value of a parameter: the first entry of that name on the top level, otherwise the first value inside the first block that holds one at any depth; it returns the default if the label has no such parameter or its first value is None (the default is then returned up to Python equality). The answer does not depend on which lookups came before, and a lookup keeps its answer until refresh_cache even if the mapping was changed. metablock returns None for an absent name, the block if the first value is one and the whole label otherwise. A warning is issued exactly when asked for and the label holds the parameter more than once.", "quantifier": "every label and every sequence of lookups", "why_tests_cant": "histories of lookups are unbounded; cached results could go stale", "anchors": ["pdr/pdr.py: Metadata.metaget, metaget_, metablock, metablock_, fieldcounts, refresh_cache"]}
{"id": "C18", "title": "Loading never loses or silently replaces data", "statement": "Over any sequence of load, getitem, del and load('all') calls: a name not in the index raises KeyError (AttributeError for getitem) and changes nothing; loading a loaded object without reload raises AlreadyLoadedError and changes nothing; keys() never shrinks, keeps its order and gets no duplicates; objects not named by a loader's result keep their value; a loaded object stays loaded until deleted, and getting it again gives the same value without reading anything. If reading fails or its file is missing, a PDS3 object becomes its label value with a warning (FileNotFoundError in debug mode for missing files); errors reach the caller for FITS, image and PDS4 products. load('all') always ends although the list grows while it is gone through, and afterwards every object that is not left out by default is loaded unless its loader gave no value for it. unloaded() lists, in order, exactly the names of the index whose attribute is not set.", "quantifier": "every sequence of operations and every loader outcome (value, several values, None, failure)", "why_tests_cant": "operation histories are unbounded", "anchors": ["pdr/pdr.py: Data.load, _add_loaded_objects, load_all, unloaded, __getitem__, _target_path, load_from_pointer"]}
{"id": "C19", "title": "File lookup returns an existing file, preferring the exact name", "statement": "When pdr resolves a file name: the result exists and lies in the directory of a candidate; the first candidate (search paths in order) for which anything is there decides; an exact-case match is preferred to variants of the same candidate; otherwise the first entry that is the requested name in other letter case, or that with .gz, .bz2 or .zip added, with a warning if there are several; FileNotFoundError is raised exactly when there is nothing for any candidate. A label is looked for under the data file's name with .xml, .lbl, .lblx, in this order, and is absent exactly if there is nothing under any of them; a label named by the user must exist unless existence checks are off.", "quantifier": "every directory content and every list of candidate paths", "why_tests_cant": "directory contents are unbounded", "anchors": ["pdr/utils.py: check_cases, with_extension, associate_label_file", "pdr/pdr.py: _target_path, check_primary_fmt"]}
{"id": "C20", "title": "Derived loader arguments: explicit values win and nothing is computed twice or missing", "statement": "When a loader is called through the query system: arguments passed explicitly are never overwritten; exactly the queries whose answer is needed and not given are run, once each, in the order of the query table, on the arguments known at that time; a needed argument that is neither given nor provided by a query is a TypeError before any query runs; afterwards everything needed is there. Calls receive exactly those arguments they have parameters for. A special-case check that applies preempts the loader function, otherwise the function's result is returned. The joint signature of functions has every parameter name once, or is a TypeError exactly if annotations differ.", "quantifier": "every set of queries, every signature and every set of given arguments", "why_tests_cant": "combinatorially many argument sets and orders", "anchors": ["pdr/func.py: softquery, specialize, call_kwargfiltered, filterkwargs, sig_union, get_argnames"]}
{"id": "C21", "title": "Every object name gets the loader its words and file say", "statement": "TIFF parts, structures and PDS_OBJECTs are never read on their own; objects in files with a FITS or image suffix are read as FITS or images whatever their name; otherwise the words in the name decide: text words, ARRAY, table words (unless combined with HEADER, NAME, IMAGE), HEADER, image words; exactly the names with none of these get the 'not supported' answer; numbered objects are treated like unnumbered ones.", "quantifier": "every pointer string and file name", "why_tests_cant": "the domain is all strings", "anchors": ["pdr/loaders/dispatch.py: pointer_to_loader, image_lib_dispatch", "pdr/loaders/handlers.py", "pdr/loaders/utility.py: is_trivial, looks_like_this_kind_of_file"]}
{"id": "C22", "title": "MSL lossless EDR images decompress to the pixels that were compressed", "statement": "For every image of the size in the header, and every number of its eight-row groups that the file holds, coding the differences of neighbouring samples of its four half-resolution planes with the instrument's code table (each plane after anything without the sync word - such as the file header -, a sync word and before padding to a 32-bit boundary) and reading the file with pdr yields the original 8-bit pixels, with zero rows for what is missing; every image can be coded like this; no code is the beginning of another. Without a sync word the result is an IOError, and for files of whole 32-bit words decompression always ends.", "quantifier": "every sequence of differences / pixel bytes, every length", "why_tests_cant": "2^(8n) images; the table has hundreds of codes", "anchors": ["pdr/formats/msl_edr.py: tree, next_value, next_bit, find_sync, decode_x, pdecom"]}
{"id": "C23", "title": "MSL EDR images have the size and pixels the header says", "statement": "The header is the first one whose magic number ends within the first 1000 windows, and width, height, pixel size, compression and thumbnail flag are what its bytes say. Uncompressed images have height x width pixels, which are the bytes (or big-endian pairs) from byte 64 on, zero where the file is too short; excess bytes are dropped. Uncompressed thumbnails have the size in the header if so many bytes are there, otherwise the first size up to 7 rows and 7 columns larger that leaves 32 or 56 bytes, otherwise (8 bits) 150 x 206.", "quantifier": "every data file and header", "why_tests_cant": "file contents unbounded", "anchors": ["pdr/formats/msl_edr.py: read_raw_image, decode_dat_header, read_header"]}
{"id": "C24", "title": "MOC predictive decompression inverts compression", "statement": "For every image, coding it with MOC's predictive scheme (differences along the line or to the line above, in codes 0 to 6; sections of 128 lines, each starting on an even byte with a marker and an uncoded line) and decoding with pdr gives the same pixels; with code 7 each coded difference counts as the coarser value the code stands for; data coded without prediction (raw) decode to the coded values. Bytes after the data are ignored; damage to a section never reaches the lines of earlier sections. With any bytes at all decoding only fails if there is no line to show (IOError), and never gives a line of another width or more lines than announced. In a file, the fragments' bytes up to the one marked as last are decoded together, however they are cut into fragments; without a last fragment, what is there is decoded.", "quantifier": "every image of 16n lines of 16m pixels, each of the eight codes, both predictors and none, every trailing or damaged data, every way to cut the data into fragments (headers complete, lengths right; not transform compressed, see C60)", "why_tests_cant": "unbounded lines", "anchors": ["pdr/formats/mgs_moc.py: pred_decode, pred_line_decompressor, next_value, decomp_xpred, decomp_ypred, decomp_sync, ht_insert, ht_tablefy"]}
{"id": "C25", "title": "Browse images show an existing band, stretched over 0 to 255 in order", "statement": "Band choice: whatever arguments are given, only bands that exist in the array are shown. Without rgb_channels an array with at least one band always gives an image: 3 or 4 bands (unless overridden) are shown as red, green, blue; otherwise 'burst' shows every band in order, and any other band_ix shows the band it names (negative from the end) or, if it names none, the middle one. Values: with default bounds the lowest and highest values that are not masked are the black and white points; the map from values to bytes then stays within 0..255, keeps the order, sends everything up to the low point to 0 and everything from the high point on to 255, in both the copying and the in-place variant. Masked elements get the mask color whatever value is below the mask, and change no other pixel. Size: no saved side exceeds 65500; larger arrays shrink by 1/n with the least sufficient n.", "quantifier": "every band count and band choice; every float array whose bounds are not too close or too far apart for the float format (within a factor 2^9 of its extremes) and every integer array whose difference of bounds (times 255 in place) fits its type (8- and 16-bit arrays always do); every mask, every percentile clipping", "why_tests_cant": "band counts and values unbounded", "anchors": ["pdr/browsify.py: _format_multiband_image, find_masked_bounds, normalize_range, colorfill_maskedarray"]}
{"id": "C26", "title": "Repeated columns and format files expand in label order", "statement": "Whenever the expansion of ^STRUCTURE references ends (it does when files do not refer to themselves, directly or indirectly), every reference is replaced in place, to any depth, by the definitions of the file it names. A table definition made of columns and nested containers then expands to its columns in label order, ITEMS/REPETITIONS producing exactly that many consecutive copies (counts below 1 count as 1); without containers inside containers nothing else is added.", "quantifier": "every definition list and format-file contents, every nesting of containers (ARRAY definitions: see C44)", "why_tests_cant": "unbounded lists", "anchors": ["pdr/loaders/queries.py: read_table_structure, load_format_file, inject_format_files, read_format_block, append_repeated_object"]}
{"id": "C27", "title": "Column names are made unique", "statement": "Names that occur once stay unchanged; the k-th of several equal names (from 0) gets _k appended (for repeated table columns called RESERVED, the first start byte of the group and then _k). The resulting names are all different exactly if no unique name already equals one of the numbered names.", "quantifier": "every list of names", "why_tests_cant": "collisions between generated and existing names are rare in samples", "anchors": ["pdr/pd_utils.py: reindex_df_values", "pdr/loaders/handlers.py: unpack_fits_headers"]}
{"id": "C28", "title": "Line-ending normalisation is lossless apart from CR", "statement": "Canonicalised text has no carriage returns, equals the input if it had none, is unchanged by a second pass, and has one LF per CRLF, lone CR or LF of the input.", "quantifier": "every text", "why_tests_cant": "all strings, including CR CR LF runs and chunk edges", "anchors": ["pdr/loaders/_helpers.py: canonicalize_line_endings, canonicalized, HETERODOX_ENDING"]}
{"id": "C29", "title": "Words of a multi-line text value stay separated", "statement": "When a label value starts on the line after its 'KEY =' and goes on over several lines, the parsed value is the lines joined by single spaces: no two words of the label run together. (For values starting on the 'KEY =' line see C33.)", "quantifier": "every multi-line value that starts on the line after the parameter name, any number of lines", "why_tests_cant": "needs all splittings of a value over lines", "anchors": ["pdr/parselabel/pds3.py: chunk_statements"]}
{"id": "C30", "title": "Limit: a parameter whose name begins with END is read as the end of a block", "statement": "A statement whose parameter begins with END (END_TIME, ENDIAN, ...) is never returned as a parameter: at top level it is dropped, inside a block it closes the block, exactly as END_OBJECT would. Nor does END end a label: statements after it are read like those before it.", "quantifier": "every label, every position in it, every parameter name beginning with END, every value", "why_tests_cant": "quantifies over all labels and positions", "anchors": ["pdr/parselabel/pds3.py: BlockParser.parse_statements"]}
{"id": "C31", "title": "Limit: only the first line of a comment is removed", "statement": "A /* comment that extends over a line end is removed only up to that line end; the remaining comment text stays in the label and is parsed as label text.", "quantifier": "every text before, inside and after the comment", "why_tests_cant": "quantifies over all label texts", "anchors": ["pdr/parselabel/pds3.py: parse_pvl"]}
{"id": "C32", "title": "Limit: numbering does not avoid names the label already uses", "statement": "If a label has a pointer P more than once and also already has the key P_j (j below the number of P's), then after loading the key P_j occurs at least twice and is ambiguous.", "quantifier": "every nested label, every duplicated pointer, every index", "why_tests_cant": "quantifies over all labels", "anchors": ["pdr/parselabel/pds3.py: index_duplicate_pointers"]}
{"id": "C33", "title": "Limit: a value starting on the 'KEY =' line is glued to its second line", "statement": "When a multi-line value starts on the 'KEY =' line, the parsed value is that text followed immediately by the continuation lines, without a separator between the first and second line.", "quantifier": "every multi-line value that starts on the 'KEY =' line", "why_tests_cant": "needs all splittings of a value over lines", "anchors": ["pdr/parselabel/pds3.py: chunk_statements"]}
{"id": "C34", "title": "Limit: the last character of a radix integer is never looked at, and a leading sign bypasses the radix reader", "statement": "B#digits with any one character after it, not only '#', is read as if it ended in '#'; without a terminator the last digit is silently dropped and the value is that of the shorter numeral. A radix integer written with a sign before a two-digit base is not read as a radix integer.", "quantifier": "every radix integer text and every final character", "why_tests_cant": "quantifies over all radix integers", "anchors": ["pdr/parselabel/pds3.py: parse_non_base_10, literalize_pvl"]}
{"id": "C35", "title": "Quantities with units keep number and units", "statement": "A label value made of comma-separated parts of which at least one is 'number <units>' is read part by part, in order: a quantity becomes a pair of its interpreted number and its interpreted units, other parts are interpreted as ordinary values; a single part is not wrapped in a tuple; surrounding parentheses are ignored.", "quantifier": "every list of parts, every unit string without line feed, every interpretation of plain literals", "why_tests_cant": "unbounded lists and strings, recursion through nested interpretation", "anchors": ["pdr/parselabel/pds3.py: literalize_pvl, parse_pvl_quantity_statement, parse_pvl_quantity_object"]}
{"id": "C36", "title": "Limit: label endings outside the search windows are not seen, and NUL runs win over an earlier END line", "statement": "A label ending that starts in the first 20 bytes, or lies across one of the offsets 20+51200*i, is not recognised: the trimmer then reports no ending or returns everything scanned. Within one 51200-byte window three NUL bytes win over an earlier LF-only END line, so data is taken for label.", "quantifier": "every file content whose endings lie there, every size limit and flag combination", "why_tests_cant": "needs particular alignments in files of any size", "anchors": ["pdr/parselabel/utils.py: trim_label, _scan_to_end_of_label, KNOWN_LABEL_ENDINGS"]}
{"id": "C37", "title": "Limit: little-endian bit columns of odd length show their bytes in mixed order", "statement": "For a little-endian bit column whose field length is not 1, 2, 4 or 8 bytes, the bits shown do not start with the field's last byte but with the last byte of its first 2-, 4- or 8-byte machine word.", "quantifier": "every such field length, every row content and number of rows", "why_tests_cant": "quantifies over all lengths and contents", "anchors": ["pdr/bit_handling.py: factor_to_dtype, convert_byte_column_to_bits"]}
{"id": "C38", "title": "Limit: integer sample types of unsupported widths are silently read with the wrong width", "statement": "An integer sample type with a width other than 1, 2, 4 or 8 bytes is accepted and read as one byte per element; for QUBE objects, 4-byte integers are read as 8-byte elements and 8-byte integers as 1-byte elements (on platforms with an 8-byte C long).", "quantifier": "every integer type name and every width", "why_tests_cant": "quantifies over all names and widths", "anchors": ["pdr/datatypes.py: sample_types, integer_code", "pdr/loaders/queries.py: generic_qube_properties"]}
{"id": "C39", "title": "Limit: zero side planes at the end of the line axis empty the image", "statement": "A qube label that declares a group of zero planes after the core along the line axis gives an image with no lines at all, whatever the file contains, without any error.", "quantifier": "every cube size, storage order and file content", "why_tests_cant": "quantifies over all sizes and contents", "anchors": ["pdr/loaders/image.py: extract_axplanes", "pdr/loaders/queries.py: extract_axplane_metadata"]}
{"id": "C40", "title": "Limit: line-interleaved cubes with line prefixes, and qubes without axis names, are not readable", "statement": "A line-interleaved image of several bands with line prefixes or suffixes raises ValueError whenever further data follows it in the file (it is read correctly when it is the last object); a qube whose label has no AXIS_NAME always raises KeyError.", "quantifier": "every size, prefix and suffix width, file content", "why_tests_cant": "quantifies over all sizes and contents", "anchors": ["pdr/loaders/image.py: extract_bil_linefix, process_multiband_image", "pdr/loaders/queries.py: get_image_properties, generic_qube_properties"]}
{"id": "C41", "title": "Limit: stream tables without a file name, and lengths in records without a record size", "statement": "An ASCII table, spreadsheet or header of a stream file whose pointer is a row number or non-byte quantity without a file name raises TypeError or KeyError. In a label without RECORD_BYTES, an object that gives a number of records but no byte size gets the empty string as its length; reading its text then fails with TypeError instead of reporting an unknown length.", "quantifier": "every label of that shape, every row number and quantity, every file content", "why_tests_cant": "quantifies over all labels and contents", "anchors": ["pdr/loaders/queries.py: table_position, _table_row_position, _table_length", "pdr/loaders/_helpers.py: _check_delimiter_stream", "pdr/loaders/text.py: skeptically_load_header"]}
{"id": "C42", "title": "Text headers and ASCII tables are read from exactly their rows or bytes", "statement": "A header located by rows is exactly the text lines start..start+n-1 of the file, with LF line breaks; a header located by bytes is exactly its byte range (at most 80000 bytes of it), with LF line breaks; the text of an ASCII table located by bytes is exactly its byte range, or everything from its start if no length is known; the text of an ASCII table located by rows has, apart from blank lines (which the table parser skips), exactly its rows (or all rows from its first on if no length is known), and rows beyond the end of the file are an error.", "quantifier": "every file content with any mixture of line breaks, every start and length", "why_tests_cant": "unbounded text and positions", "anchors": ["pdr/loaders/text.py: skeptically_load_header", "pdr/loaders/table.py: _interpret_as_ascii", "pdr/utils.py: head_file"]}
{"id": "C43", "title": "FITS objects resolve to an HDU part of the kind asked for", "statement": "The offset computed for a FITS object is the offset of a header in the file if a header is asked for and of a data part otherwise; of the 1-based and 0-based readings in bytes and in 2880-byte records the first that fits is taken; ValueError is raised exactly when none fits.", "quantifier": "every list of HDU offsets, every pointer value", "why_tests_cant": "quantifies over all files and pointers", "anchors": ["pdr/loaders/queries.py: _agnostic_fits_index", "pdr/loaders/handlers.py: hdu_byte_index"]}
{"id": "C44", "title": "Limit: an ARRAY after a column with ITEMS is repeated, and a self-referencing format file never ends", "statement": "An ARRAY definition that follows a column with ITEMS = k is expanded k times although it declares no repetition; a format file that refers to itself is expanded forever (no number of rounds ends the loop).", "quantifier": "every count, every array definition, every self-referencing file", "why_tests_cant": "quantifies over all counts and numbers of rounds", "anchors": ["pdr/loaders/queries.py: read_format_block, inject_format_files"]}
{"id": "C45", "title": "Limit: tables whose columns are looked for at the wrong bytes", "statement": "The START_BYTE of a container is not looked at (its columns are placed directly after the previous column). In a table that consists of one container all repetitions are read from the same bytes. Of two multi-item columns listed against their byte order each gets the other's place. If a last column with k>=2 items is followed by at most k-1 items' worth of spare bytes, the record is taken to be shorter than ROW_BYTES. In an unrepeated container after a repeated one, later columns are looked for too far.", "quantifier": "every such table, all sizes and counts", "why_tests_cant": "quantifies over all sizes and counts", "anchors": ["pdr/pd_utils.py: compute_offsets", "pdr/loaders/queries.py: read_format_block"]}
{"id": "C46", "title": "Limit: unhashable defaults fail and parameters added later are never found", "statement": "metaget with an unhashable default (list, dict) raises TypeError for every parameter the label has. A parameter that was not in the label when it was read is never found by metaget or metablock, whatever is added to the mapping later and however often refresh_cache is called.", "quantifier": "every label, every history of lookups, edits and refreshes", "why_tests_cant": "quantifies over all histories", "anchors": ["pdr/pdr.py: Metadata.metaget, metablock, refresh_cache, fieldcounts"]}
{"id": "C47", "title": "Limit: loading can replace other objects, and some listed objects cannot be got", "statement": "A loader result that names an already loaded object silently replaces it without reload. An object whose loader gives None raises AttributeError on every access and is read again each time. An object whose name is that of a Data attribute or method is never loaded: data[name] gives the attribute. In debug mode one missing file ends load('all') before the objects after it.", "quantifier": "every product, state and loader outcome of that shape", "why_tests_cant": "quantifies over all states and loader results", "anchors": ["pdr/pdr.py: Data.load, _add_loaded_objects, load_all, __getattribute__, _file_not_found"]}
{"id": "C48", "title": "Limit: compressed files in other letter case are not found and dotted names answer wrong requests", "statement": "A request for a compressed file (x.img.gz) is never answered by the same name in other letter case. A hidden file .anything.ext answers requests for .ext; a file whose name ends with a dot answers requests for the part before its first dot.", "quantifier": "every file name of that shape", "why_tests_cant": "quantifies over all names", "anchors": ["pdr/utils.py: stem_path, check_cases"]}
{"id": "C49", "title": "Limit: queries see only earlier answers, and answers nobody uses are computed", "statement": "A query never receives the answer of a query later in the table, even if that query is going to be run. A query is run if another query needs its answer, even if that other query is not run because its own answer was given.", "quantifier": "every query table and argument set of that shape", "why_tests_cant": "quantifies over all query tables", "anchors": ["pdr/func.py: softquery"]}
{"id": "C50", "title": "Limit: FILE_NAME objects are never supported and inner suffixes count", "statement": "An object named by a FILE_NAME pointer gets the 'not supported' answer whatever its file is (the extension examined is that of the pointer's name). A file named base.fits.rest is read as FITS whatever rest is.", "quantifier": "every file and pointer number", "why_tests_cant": "quantifies over all names", "anchors": ["pdr/loaders/dispatch.py: pointer_to_loader, file_extension_to_loader", "pdr/loaders/utility.py: looks_like_this_kind_of_file"]}
{"id": "C51", "title": "Editing a nested mapping changes the matching entries and nothing else", "statement": "multidict_dig_and_edit with a setter that has no side effects, on any nested multi-valued mapping: editing values changes exactly the parameters the predicate accepts, each at its own path and place, and leaves every other parameter and every block as it was; with keep_values=False exactly the accepted parameters are returned (edited, in order, at their paths) and every block is still there; editing keys replaces exactly the accepted keys along every path and changes no value or place; a setter that fails on any accepted parameter, at any depth, makes the whole call fail.", "quantifier": "all nested mappings of any depth and size with repeated keys, all predicates on parameters (or keys) and all setters", "why_tests_cant": "A test edits a few mappings; the claim is about every nesting, key repetition and predicate.", "anchors": ["pdr/parselabel/pds3.py:multidict_dig_and_edit"]}
{"id": "C52", "title": "Limit: MSL lossless decompression never ends on files that end within a 32-bit word", "statement": "If the last plane of a losslessly compressed MSL image, whichever it is, is followed by nothing but the rest of its last byte and the file length is not a multiple of four, reading the image never returns.", "quantifier": "All files of this form: all planes, junk, complete planes before and paddings below eight bits.", "why_tests_cant": "Tests cannot show that a call never returns, nor cover all files.", "anchors": ["pdr/formats/msl_edr.py: decode_x, next_bit, pdecom"]}
{"id": "C53", "title": "Limit: 16-bit MSL images", "statement": "A losslessly compressed MSL image that the header declares 16-bit is never read (ValueError if decompression works); nor is a 16-bit uncompressed thumbnail whose size does not match the data (the replacement size is counted in bytes). In a 16-bit uncompressed image cut off within a pixel, the last byte becomes the least significant byte of its pixel although it is the most significant one.", "quantifier": "All files with such headers.", "why_tests_cant": "Universally quantified over files; the failures need headers for which no test products exist.", "anchors": ["pdr/formats/msl_edr.py: read_raw_image, msl_edr_image_loader"]}
{"id": "C54", "title": "Limit: IBM reals in tables: small ones are squeezed into float32, items and tables without rows are not read", "statement": "A non-empty table column of 4-byte IBM reals, none beyond the range of float32 and none nearer to zero than 2^-146 (except zeros), is stored as float32, so every value in it becomes an integer multiple of 2^-149; a value below 2^-126 that is no such multiple is returned wrong although float64 could hold it. A table with no rows that has a column of IBM reals cannot be read, nor can a table with ITEMS of 4-byte IBM reals (pdr goes by the size of the whole column).", "quantifier": "all columns of 32-bit words and every round-to-nearest rule", "why_tests_cant": "the set of words in the subnormal range and of columns containing them is not enumerable by tests", "anchors": ["pdr/pd_utils.py: convert_ibm_reals", "pdr/np_utils.py: ibm32_to_np_f32"]}
{"id": "C55", "title": "Limit: PDS4 data that stay unsigned cannot be scaled by small integers", "statement": "Under NumPy 2, PDS4 integers none of which is negative before or after scaling, and whose largest value (before or after) needs all 8, 16, 32 or 64 bits of an unsigned type, cannot be multiplied by an integer of at most 127 in magnitude (other than 1), nor can an offset of at most 127 be added: TypeError. The type chosen for an int16 array with smallest value -32768 and largest value between -127 and 127 is int8, which does not hold its values.", "quantifier": "every array of such integers, every such factor and offset, any special constants", "why_tests_cant": "the failing region depends on the extremes of the data and the size class of the factor", "anchors": ["pdr/pds4_tools/reader/data_types.py: apply_scaling_and_value_offset, get_min_integer_numpy_type, adjust_array_data_type"]}
{"id": "C56", "title": "Limit: scaling in place, and results the type of the array does not hold", "statement": "get_scaled(inplace=True) with one factor and one offset that change something fails with TypeError unless integers become floats. Integer arrays without masked elements and with an integer factor and offset keep their type, and every element is the low bits of value*factor+offset, without a warning; with a non-integer offset the product alone is reduced to its low bits first. An unsigned array with a 0 among its elements cannot be scaled with a negative offset (OverflowError); one with a small positive minimum is made int8 first, so that large values come out wrong without an error.", "quantifier": "every integer type, array, factor and offset as described", "why_tests_cant": "extreme values and silent wrap-around", "anchors": ["pdr/_scaling.py: overflow_wrap, fit_to_scale, _inplace_scale, _copy_scale, scale_array"]}
{"id": "C57", "title": "Limit: special constants that are not masked", "statement": "A constant in the label that float32 does not hold exactly masks nothing in a float32 array (NumPy 2); without constants in the label, the float32 nearest to -1e32 and the int32 -2147483648 (not applicable) are not masked, while the int32 -214743648 is; a value the label declares for NULL is not masked in a uint16 array that has a 0; PDS3 arrays of unsigned 64-bit integers cannot be scaled (KeyError).", "quantifier": "every label and array of the kinds named", "why_tests_cant": "needs particular values in particular array types", "anchors": ["pdr/_scaling.py: find_special_constants, mask_specials", "pdr/datatypes.py: IMPLICIT_PDS3_CONSTANTS"]}
{"id": "C58", "title": "Limit: browse images of constant and of very wide integer arrays", "statement": "If the black and white points are equal, integer images are not normalised but shown by the low eight bits of their values. For signed 32-bit arrays with bounds 2^31 or more apart the difference wraps around: values in the lower half of the range are scaled to numbers from 0 down to -254 or less, which are not bytes.", "quantifier": "every integer array with equal bounds; every signed 32-bit array with bounds at least 2^31 apart", "why_tests_cant": "arrays and bounds unbounded", "anchors": ["pdr/browsify.py: normalize_range, eightbit, _render_array"]}
{"id": "C59", "title": "Limit: a MOC section found by searching is shown again if the next marker is lost too", "statement": "When the marker of a section is not where it is expected, pdr searches from the last marker that was in its place, and does not remember what it finds. If the marker of the next section is lost too, the search finds the same marker again: that section shows the same first line as the one before, instead of going on in the file.", "quantifier": "every data and every two searches between which no marker was found in its place", "why_tests_cant": "damaged files with two lost markers are rare; the result is plausible image lines", "anchors": ["pdr/formats/mgs_moc.py: pred_decode, find_sync"]}
{"id": "C60", "title": "Transform-compressed MOC images", "statement": "Reading a transform-coded MGS MOC file gives, for every sequence of fragments an encoder can write (any size in blocks, any number of levels up to 8, any coefficients the codes can express, any bytes after them) the images of the fragments below each other, each made of its blocks in their places, without a warning. Every pixel is the value at its place of the inverse cosine transform of the coefficients of its block, on a scale of 127 and limited to 0 to 255, to the nearest integer (within 1/1000 for the error of double arithmetic). Blocks that are completely within the bytes of a truncated fragment are right. Blocks on levels the header does not announce, or transforms other than the cosine transform, give an image of zeros and a warning. Whatever the bytes are, decoding gives an image of the announced size with pixels from 0 to 255, or a ValueError.", "quantifier": "every coded fragment (sizes, levels, means, coefficients and escape codes of any block), every prefix of it and every byte string", "why_tests_cant": "The codes are eight tables of up to 609 variable-length words; the fragments are unbounded, and reading is by a queue of bits whose state depends on everything before.", "anchors": ["pdr/formats/mgs_moc.py: decompress, read_bits, make_tree, init_block, read_coef, reorder, read_groups, read_block, decompress_transform_image"]}
{"id": "C61", "title": "Limit: transform-coded fragments that end early are read from the beginning again", "statement": "A transform-coded fragment with fewer bytes than its image needs is not always noticed: reading goes round to its first byte, so whenever the bytes repeated for ever begin with the bits of an image, that image is returned, or (only if bytes are missing) there is a ValueError, or an incomplete image with a warning, which has 0 where it is not as in that image.", "quantifier": "every byte string and every coded fragment its infinite repetition begins with", "why_tests_cant": "Whether the end is noticed depends on how many bits the queue has at that point, so on every code read before.", "anchors": ["pdr/formats/mgs_moc.py: read_bits, decompress"]}
{"id": "C62", "title": "Binary tables are read as stored", "statement": "For every binary PDS3 table whose columns can be placed (columns, items and unnested containers; see C13) and whose records are whole, read from a compressed or uncompressed file, the result has one column per stored value in label order, under the names of C27, and the value in each row and column is the one whose bytes lie, according to START_BYTE, BYTES, ITEMS and the row number, at that place in the file: integers in two's complement in the byte order of their type, IEEE 754 reals of either width, characters without trailing NULs, truth values, EBCDIC texts, raw bytes, IBM hexadecimal reals, VAX F-floating reals.", "quantifier": "every regular table definition with any number of columns, items, containers and rows (one row if ROWS is not given), any start byte, any file contents, any row prefix or suffix for which the record length is that of the rows; no SCALING_FACTOR or OFFSET (see C63); IBM reals of 4 bytes that float32 and of 8 bytes that float64 hold exactly, VAX reals of 4 bytes provided the vax library converts them rightly, both only in columns without ITEMS and in tables with a row (see C54)", "why_tests_cant": "file contents, layouts and sizes are unbounded; tests decode a few sample products", "anchors": ["pdr/loaders/table.py: read_table, _interpret_as_binary", "pdr/loaders/queries.py: read_table_structure, parse_table_structure", "pdr/pd_utils.py: compute_offsets, insert_sample_types_into_df, fmtdef_to_dtype, convert_ebcdic, booleanize_booleans", "pdr/np_utils.py: np_from_buffered_io"]}
{"id": "C63", "title": "SCALING_FACTOR and OFFSET of table columns", "statement": "In the tables of C62, a column with SCALING_FACTOR and OFFSET (integers or reals, each optional) holds in every row the stored value times the factor plus the offset, whenever factor, offset and the results can be represented: float32 columns stay float32, integer columns keep their type for integer factors and offsets and become float64 otherwise. Values that are not finite stay so; columns without factor and offset are left alone, whatever the other columns have.", "quantifier": "every table of C62 and any numbers of scaled columns for which the results are exact; factor not 0; not boolean columns; columns of IBM and VAX reals only without factor and offset", "why_tests_cant": "contents, columns and factors unbounded; whether factors are integers depends on all columns together", "anchors": ["pdr/loaders/table.py: read_table, _interpret_as_binary", "pdr/loaders/queries.py: read_table_structure, parse_table_structure, _probably_ascii", "pdr/pd_utils.py: compute_offsets", "pdr/np_utils.py: np_from_buffered_io"]}
{"id": "C64", "title": "Limit: records of tables with ROW_PREFIX_BYTES", "statement": "In a table with ROW_PREFIX_BYTES whose rows do not end with a value (there are ROW_SUFFIX_BYTES, or unused bytes at the end of the row), pdr takes records to be shorter than prefix plus row plus suffix, and reads the values of every row from where they would be if records were that short: no error.", "quantifier": "every table with a positive row prefix whose values all end before prefix plus ROW_BYTES plus suffix", "why_tests_cant": "layouts unbounded; needs a particular combination of three keywords", "anchors": ["pdr/loaders/table.py: read_table, _interpret_as_binary", "pdr/loaders/queries.py: read_table_structure, parse_table_structure, _probably_ascii", "pdr/pd_utils.py: compute_offsets", "pdr/np_utils.py: np_from_buffered_io"]}
{"id": "C65", "title": "Limit: missing ROWS and truncated tables", "statement": "Without ROWS, one row is read. If an uncompressed file ends before the table does, the result has as many rows as there are whole records, without an error; if a compressed file ends within a record, nothing is read (ValueError).", "quantifier": "every table definition, file and start byte", "why_tests_cant": "lengths unbounded", "anchors": ["pdr/loaders/table.py: read_table, _interpret_as_binary", "pdr/loaders/queries.py: read_table_structure, parse_table_structure, _probably_ascii", "pdr/pd_utils.py: compute_offsets", "pdr/np_utils.py: np_from_buffered_io"]}
{"id": "C66", "title": "Limit: binary tables taken for text", "statement": "If one column has an ASCII type, or the name of the object contains ASCII or SPREADSHEET, the whole table is taken to be text, whatever its other columns are and whatever INTERCHANGE_FORMAT says.", "quantifier": "every table whose definition can be read", "why_tests_cant": "definitions unbounded", "anchors": ["pdr/loaders/table.py: read_table, _interpret_as_binary", "pdr/loaders/queries.py: read_table_structure, parse_table_structure, _probably_ascii", "pdr/pd_utils.py: compute_offsets", "pdr/np_utils.py: np_from_buffered_io"]}
{"id": "C67", "title": "Limit: integer SCALING_FACTORs", "statement": "An integer SCALING_FACTOR of an integer column (every column of the table having an integer one) is applied in the type of the column: each result is the product modulo 2^bits, so it is the product only if the type holds it; a factor the type does not hold is an OverflowError; a factor of 0 is ignored. As soon as one column of the table has no SCALING_FACTOR, or one that is not an integer, scaled integer columns become float64 columns.", "quantifier": "every integer type, column and factor", "why_tests_cant": "columns and factors unbounded", "anchors": ["pdr/loaders/table.py: read_table, _interpret_as_binary", "pdr/loaders/queries.py: read_table_structure, parse_table_structure, _probably_ascii", "pdr/pd_utils.py: compute_offsets", "pdr/np_utils.py: np_from_buffered_io"]}
{"id": "C68", "title": "Images, qubes and binary arrays are read as stored", "statement": "For every IMAGE with one band (with or without line prefixes and suffixes of whole samples), every IMAGE with several bands stored band-sequential, line-interleaved or sample-interleaved, every QUBE in one of the three axis orders with suffix planes along at most one axis, and every BINARY ARRAY of any number of axes, the result has the shape the label gives (bands, lines, samples; axes in order), and the element at each index is the value whose bytes lie at that element's place in the file according to START_BYTE, sample size and storage order: integers in two's complement in the byte order of their type, IEEE 754 reals of either width. Prefix and suffix arrays have the prefix and suffix samples of each line. A file that ends before the image does is an error, not a short image.", "quantifier": "every size, storage order, start byte and file contents, compressed or not (arrays: not compressed, see C69); not IBM reals (C69), VAX reals only in images of SAMPLE_TYPE VAX_REAL with 4 bytes per sample, for values that a 32-bit float holds and provided that the vax library converts a word as it should, not line prefixes with several bands, qubes as C12 limits them", "why_tests_cant": "files, sizes and layouts unbounded; tests decode a few sample products", "anchors": ["pdr/loaders/image.py: read_image, process_single_band_image, process_multiband_image, make_format_specifications", "pdr/loaders/queries.py: generic_image_properties, generic_qube_properties, parse_array_structure", "pdr/loaders/table.py: read_array", "pdr/np_utils.py: np_from_buffered_io"]}
{"id": "C69", "title": "Limit: IBM reals and some VAX reals in images, and compressed binary arrays", "statement": "The pixels of an image with SAMPLE_TYPE IBM_REAL are not converted: they are the stored words as unsigned big-endian integers. Where SAMPLE_TYPE is VAX_REAL, the line prefixes and suffixes are not converted, and where it is VAX REAL with a blank the pixels are not: they are the stored words as unsigned little-endian integers. A BINARY ARRAY (without subobjects) in a compressed file cannot be read (AttributeError).", "quantifier": "every image of this type and every file; every array and file", "why_tests_cant": "files unbounded", "anchors": ["pdr/loaders/image.py: read_image, process_single_band_image, process_multiband_image, make_format_specifications", "pdr/loaders/queries.py: generic_image_properties, generic_qube_properties, parse_array_structure", "pdr/loaders/table.py: read_array", "pdr/np_utils.py: np_from_buffered_io"]}
{"id": "C70", "title": "PDS4 arrays are read as stored", "statement": "For every PDS4 Array of any number of axes (its Axis_Arrays listed in any order) of any binary integer or IEEE 754 real type at any offset, the result has the shape that the sequence numbers give, and the element at each index is the value stored at its place in the file, the last axis varying fastest. If there is a bit_mask, each element has exactly the bits that the mask lets through; elements that are Special_Constants are left as stored (given that at least one is there, see C71).", "quantifier": "every axis count, shape, type, offset and file contents; bit masks for integer types with one digit for each bit (signed types: all ones, or the first digit 0, see C71)", "why_tests_cant": "files, shapes, masks unbounded; tests decode a few sample products", "anchors": ["pdr/pds4_tools/reader/read_arrays.py: _read_array_byte_data, _apply_bitmask, new_array, read_array_data", "pdr/pds4_tools/reader/array_objects.py: Meta_ArrayStructure.dimensions, get_axis_arrays", "pdr/pds4_tools/reader/data_types.py: PDS_NUMERIC_TYPES, pds_to_numpy_type, data_type_convert_array, mask_special_constants", "pdr/pdr.py: Data.load (PDS4)"]}
{"id": "C71", "title": "Limit: PDS4 arrays: bit masks and truncated files", "statement": "A signed array whose bit_mask starts with 1 and contains a 0 cannot be read (OverflowError). With a bit_mask that contains a 0 and Special_Constants: if no constant is an integer other than the valid_ limits, AttributeError; if there are, but none stands in the array, ValueError with NumPy from 2.1 on, and before that only the first element is masked. A file that ends within an array of several axes is an error; a file that ends after k whole elements of an array of one axis gives an array of k elements without an error.", "quantifier": "every array, mask, constants and file", "why_tests_cant": "files and labels unbounded; need particular combinations of keywords and data", "anchors": ["pdr/pds4_tools/reader/read_arrays.py: _read_array_byte_data, _apply_bitmask, new_array, read_array_data", "pdr/pds4_tools/reader/array_objects.py: Meta_ArrayStructure.dimensions, get_axis_arrays", "pdr/pds4_tools/reader/data_types.py: PDS_NUMERIC_TYPES, pds_to_numpy_type, data_type_convert_array, mask_special_constants", "pdr/pdr.py: Data.load (PDS4)"]}
{"id": "C72", "title": "PDS4 tables with records of fixed length are read as stored", "statement": "For every Table_Character and Table_Binary whose values lie within their records, the result is a data frame with, after the uniformly sampled fields, for every field in the order of the label one column for each repetition of the groups around it (the last group fastest), named after the groups and the field (a group without a name leaves an empty place, or nothing if no name comes before it; fields in groups have their repetition appended). In each record the value of the column is the one that the bytes at field location, group locations, repetitions and record length stand for: binary integers in two's complement and IEEE 754 reals in the byte order of their type, ASCII integers in base 10, 2, 8 and 16 (with spaces around), true and false, texts without their trailing NULs, bit strings as bytes.", "quantifier": "every label (any fields and groups, at most two groups around a field, any locations, lengths and repetitions that divide the group's length), every file that holds all records, at least one record; fields and groups beside each other have different names, names have no comma or colon, no spaces at their ends and do not contain GROUP; ASCII_Integer above -2^63; ASCII_Real as Python's float reads it (not modelled), texts as UTF-8 decoding gives them (not modelled); the values of uniformly sampled fields are not modelled", "why_tests_cant": "labels, nesting, repetitions, records and file contents unbounded; tests decode a few sample products", "anchors": ["pdr/pds4_tools/reader/read_tables.py: _read_table_byte_data, _extract_fixed_width_field_data, new_table, read_table_data", "pdr/pds4_tools/reader/table_objects.py: TableManifest, Meta_Field.full_name, Meta_TableStructure", "pdr/pds4_tools/reader/data_types.py: data_type_convert_table_ascii, data_type_convert_table_binary, pds_to_numpy_type, pds_to_numpy_name", "pdr/pd_utils.py: structured_array_to_df", "pdr/pdr.py: Data.load (PDS4)"]}
{"id": "C73", "title": "Limit: PDS4 tables with records of fixed length", "statement": "A table with a field in three or more nested groups cannot be read (NotImplementedError). A group whose repetitions do not divide its length, or with 0 repetitions, makes the table unreadable. Fields of the same name in different groups without names give columns of the same name. A Table_Binary without groups of which the file has only the first record is read without an error, and all its records show the values of the first. In a field of ASCII_Integer, -2^63 is shown as 0 (if no value is 2^31 or greater and one is above -2^31).", "quantifier": "every label and file of these kinds", "why_tests_cant": "need particular labels or values; labels and files unbounded", "anchors": ["pdr/pds4_tools/reader/read_tables.py: _read_table_byte_data, _extract_fixed_width_field_data, new_table, read_table_data", "pdr/pds4_tools/reader/table_objects.py: TableManifest, Meta_Field.full_name, Meta_TableStructure", "pdr/pds4_tools/reader/data_types.py: data_type_convert_table_ascii, data_type_convert_table_binary, pds_to_numpy_type, pds_to_numpy_name", "pdr/pd_utils.py: structured_array_to_df", "pdr/pdr.py: Data.load (PDS4)"]}
{"id": "C74", "title": "PDS4 delimited tables are read as written", "statement": "For every Table_Delimited whose records have one value for each repetition of each field, the result is a data frame with, for every field in the order of the label, one column for each repetition of the groups around it (the last group fastest), named as in C72; in each record, the value of the column is the one that is written for this repetition of this field. The values of a record are in the order of the label, a group's fields repeated together as often as the group is; each value is written as it is (then it has no delimiter and does not start with a quote), or between quotes (then it may have delimiters, but no quotes). What comes after the last record is ignored.", "quantifier": "every label (any fields and groups, at most two groups around a field, any repetitions from 1, the four field delimiters and two record delimiters, any object_length or maximum_record_length), every file, at least one record; no uniformly sampled fields and no missing numbers (see C75); names as in C72; records with quotes are UTF-8; values as in C72; labels without Special_Constants", "why_tests_cant": "labels, nesting, repetitions, records, quoting and file contents unbounded; tests decode a few sample products", "anchors": ["pdr/pds4_tools/reader/read_tables.py: _read_table_byte_data, _extract_delimited_field_data, _get_delimited_records_and_start_bytes, new_table, read_table_data", "pdr/pds4_tools/reader/table_objects.py: TableManifest.get_field_offset, get_field_skip_factors", "pdr/pds4_tools/reader/data_types.py: data_type_convert_table_ascii", "pdr/pd_utils.py: structured_array_to_df", "pdr/pdr.py: Data.load (PDS4)"]}
{"id": "C75", "title": "Limit: PDS4 delimited tables", "statement": "A delimited table without records cannot be read (ValueError), nor one whose file has fewer records than the label says (IndexError), nor one with a record that has two or more values too many (IndexError). But one value too many is not noticed: it is added to the last value of the record, with the delimiter between them. If a number is missing anywhere, the table is not a data frame of the kind of C74 but a masked array (its values are those written, masked exactly where numbers are missing). If the table has u uniformly sampled fields, the column of its first field has in each record the value with number u instead of the first.", "quantifier": "every label, file and contents of uninitialised memory of these kinds", "why_tests_cant": "need particular labels or values; labels and files unbounded", "anchors": ["pdr/pds4_tools/reader/read_tables.py: _read_table_byte_data, _extract_delimited_field_data, _get_delimited_records_and_start_bytes, new_table, read_table_data", "pdr/pds4_tools/reader/table_objects.py: TableManifest.get_field_offset, get_field_skip_factors", "pdr/pds4_tools/reader/data_types.py: data_type_convert_table_ascii", "pdr/pd_utils.py: structured_array_to_df", "pdr/pdr.py: Data.load (PDS4)"]}
{"id": "C76", "title": "PDS4 product lists all data structures of its label, by name", "statement": "Opening a PDS4 label lists, in order, every data structure (element whose tag says Header or Array, or is one of the four table kinds) of the observational, supplemental, ancillary, browse and inventory file areas, and then 'label'. A structure is listed under its local identifier, else its name, else its kind and the number of structures of that kind before it, with underscores for spaces; made-up names of two structures are never the same. Each name that no later structure has, except 'label', gives that structure, to be read from the named file in the label's directory (or at the absolute path); 'label' gives the label.", "quantifier": "every label (any file areas with file names, any elements in them), every directory, every structure of it", "why_tests_cant": "tests open a few products; names depend on everything that came before in any number of areas and files", "anchors": ["pdr/pdr.py:Data._init_pds4", "pdr/pds4_tools/reader/core.py:read_structures", "pdr/pds4_tools/reader/general_objects.py:Meta_Structure.id"]}
{"id": "C77", "title": "Limit: PDS4 structures that cannot be had", "statement": "Limit: if several structures of a PDS4 label have the same name after the replacement of spaces, the name is listed for each but only the last one can be had; a structure called 'label' cannot be had at all; if one of the file areas has no file_name, the product cannot be opened (TypeError).", "quantifier": "every label with such structures or such an area", "why_tests_cant": "a general statement about all such labels; the cases are rare in test products", "anchors": ["pdr/pdr.py:Data._init_pds4, Data._load_pds4", "pdr/pds4_tools/reader/core.py:read_structures"]}
{"id": "C78", "title": "PDS3 product lists all objects of its label and the tables in image lines", "statement": "Opening a PDS3 product whose objects named LINE_PREFIX have their own blocks and in which no image's block has several structure pointers lists LABEL, then the targets of all pointers of the label (those of a block before those of the blocks in it), except TIFF tags, STRUCTUREs and PDS_OBJECTs, then <image>_LINE_PREFIX_TABLE for each image whose block has a structure pointer (unless ^LINE_PREFIX_STRUCTURE is empty text); each such table, and nothing else, is known to be interleaved with its image.", "quantifier": "every label (any nesting of blocks), any files there or not, outside the instruments with special object lists", "why_tests_cant": "labels nest to any depth and have any number of pointers and images", "anchors": ["pdr/pdr.py:Data._find_objects, Data._associate_prefix_tables", "pdr/loaders/utility.py:is_trivial", "pdr/parselabel/pds3.py:depointerize, get_pds3_pointers"]}
{"id": "C79", "title": "Limit: line prefixes that are attached wrongly or stop a product from opening", "statement": "Limit: if the block of an image has two or more structure pointers (line prefix and suffix, say), the whole product cannot be opened. Objects named LINE_PREFIX without a block are attached to every image with a structure pointer (the last one counts), wherever they start, because the start byte of IMAGE is compared with itself; and if the first such image is not called IMAGE, or its file is not there, opening the product fails with KeyError.", "quantifier": "every label with such blocks or objects; any start byte, any files there or not", "why_tests_cant": "a general statement about all such labels; no test product has them", "anchors": ["pdr/pdr.py:Data._associate_prefix_tables", "pdr/loaders/queries.py:standalone_start_byte"]}
{"id": "C80", "title": "Names of the frames of an image file give those frames", "statement": "For an image file (GIF, WebP, MPO) with several frames, the listed names are all different, there is one for each frame (each MPO entry), and loading the i-th name reads the i-th frame. A file with a single frame has the one object IMAGE.", "quantifier": "every number of frames, every list of MPO picture types, every position", "why_tests_cant": "the frame number is recovered from the made-up name by splitting at underscores; picture types are arbitrary text", "anchors": ["pdr/pdr.py:Data._add_compressed_image_objects, Data.load"]}
{"id": "C81", "title": "Fixed-width text tables show the characters at the places of the label", "statement": "Reading a text TABLE whose lines do not all have as many separated fields as the label has columns gives one column per column of the label (ITEMS and CONTAINERs expanded), with its name: it shows, for every line of the table with something in it, the characters from START_BYTE on for BYTES characters, without the padding around them (blanks, tabs, quotes, commas), understood as pandas understands such cells, and then multiplied by SCALING_FACTOR with OFFSET added when all numbers involved can be represented. Fillers for the rest of the row do not appear, and blank lines are left out.", "quantifier": "for every label of regular columns taken to be text (an ASCII column type, name, or INTERCHANGE_FORMAT), every file, every part of it by bytes or by rows, with LF or CRLF, every number of lines, every choice of pandas' types", "why_tests_cant": "labels and texts are unbounded, and the reader tries delimited reading first: which of the two applies depends on all lines", "anchors": ["pdr/loaders/table.py: read_table, _interpret_as_ascii, _read_table_from_stringio, _read_fwf_with_colspecs", "pdr/loaders/queries.py: parse_table_structure"]}
{"id": "C82", "title": "Delimited text tables and spreadsheets show the fields of their lines", "statement": "Reading a text TABLE or SPREADSHEET whose lines that are not blank have as many fields as the label has columns gives those columns, with the names of the label: the k-th shows the k-th field of every line (comma, vertical bar, semicolon or tab as FIELD_DELIMITER says), also when fields are quoted and then contain separators or doubled quotes, lines end with LF or CRLF, or a line is too short (nothing in its last columns). Texts lose the padding around them; numbers are scaled as the label says. If the fields are also where the label says, texts are exactly the trimmed characters at the label's bytes.", "quantifier": "for every label of regular columns or fields, every file, every part of it by bytes or by rows, all four delimiters, every number of lines and fields, every choice of pandas' types", "why_tests_cant": "the tokenizer is a state machine over arbitrary text; that its fields are those of the lines must hold for every combination of quotes, separators, blanks and line ends", "anchors": ["pdr/loaders/table.py: read_table, _read_as_delimited, _read_table_from_stringio", "pdr/loaders/_helpers.py: check_explicit_delimiter"]}
{"id": "C83", "title": "Limit: text tables whose fields, names or delimiters are not as expected", "statement": "If the lines of a text table have as many fields as the label has columns, START_BYTE and BYTES are ignored: two labels with the same names give the same table. A FIELD_DELIMITER other than COMMA, VERTICAL_BAR, SEMICOLON and TAB is a KeyError. A text table without anything but blank lines (such as ROWS = 0) is a ValueError, not an empty table. A SPREADSHEET with BYTES whose lines do not fit is a KeyError, so is one with several columns RESERVED, and one with a column whose name contains, but does not begin with, PLACEHOLDER is a ValueError when the lines have one field less for each such name.", "quantifier": "for every label and text of the stated kinds", "why_tests_cant": "the failing inputs are families of unbounded size", "anchors": ["pdr/loaders/table.py: _read_as_delimited, _read_table_from_stringio, read_table", "pdr/loaders/_helpers.py: check_explicit_delimiter"]}
{"id": "C84", "title": "FITS files: every HDU is listed once and its data and header can be had by name", "statement": "A FITS file opened without a label is opened exactly if every header card can be read; its HDUs are then listed each once, by their names, with _0, _1, ... appended if several share a name, in file order but equal names together, and the metadata hold each header under its listed name: the cards in order, value under the keyword (None if undefined), comment under keyword_comment, blank cards left out. As long as the names do not clash (no name twice after numbering, none that is another followed by _HEADER, no numbered name containing HEADER; e.g. when no name contains HEADER or ends in a digit), then after any history of loads, look-ups, reloads, deletions and load-all, asking for a listed name gives that HDU's data (an empty array for a stub), the header is then under the name followed by _HEADER unless deleted, and load-all succeeds and loads all. Through a label: the start byte of a header gives the header alone, that of data the data and the header (mended or without the bad cards if need be), any other a KeyError; with a PDS4 label the header that comes with an array is stored under the name of the label's header object that ends where the data begin, otherwise under the array's name followed by _HEADER.", "quantifier": "All files (any number of HDUs, any names, cards and locations), all histories of operations, all start bytes, all lists of PDS4 structures", "why_tests_cant": "The numbering, the dictionary keyed by start byte (where the later entry wins) and the values after arbitrary histories range over unbounded inputs.", "anchors": ["pdr/loaders/handlers.py: handle_fits_file, hdu_byte_index, handle_fits_header, unpack_fits_headers", "pdr/pdr.py: Data._load_primary_fits, Data._init_primary_format, Data._find_fits_header_pds4_id, Data._load_pds4"]}
{"id": "C85", "title": "Limit: FITS names and headers that clash, bad cards", "statement": "One unreadable card in any header stops a FITS file from being opened without a label (VerifyError), although through start bytes each HDU loads; HDUs that share a name containing HEADER give only their headers, never their data; if two HDUs are listed by the same name (A, A and A_0), it always stands for the one whose own name appears later and the other cannot be had; if HDUs are listed as A and A_HEADER, loading A replaces the data of A_HEADER by the header of A; a header is not listed and cannot be had before its HDU is loaded, cannot be reloaded and cannot be had again once deleted (KeyError); with a PDS4 label, a header object whose name (spaces as underscores) is the key of the array it precedes replaces the array.", "quantifier": "All FITS files and states of the product that meet the named condition", "why_tests_cant": "They hold for every file and history of the kind, not for sample files.", "anchors": ["pdr/loaders/handlers.py: handle_fits_file, unpack_fits_headers", "pdr/pdr.py: Data.load, Data._load_pds4"]}
{"id": "C86", "title": "Opening: which file, which label and which standard; where an object's file is", "statement": "Opening a product by a file name: text that begins with http:, https: or ftp: is a ValueError; the file is the one asked for if it exists or existence is not checked, otherwise the first entry of its directory that matches loosely (C19), otherwise FileNotFoundError. The label is the one named, the file itself if its name is that of a label, or base.xml, base.lbl, base.lblx beside it in this order. The name of the label, or of the file if there is none, decides how the product is read: as FITS exactly if it ends in .fits, .fit, .fits.gz, .fit.gz or .fz in any letter case; as a picture exactly if one of its suffixes is that of a picture and pillow finds a supported format; as PDS4 exactly if a label has the name of a PDS4 label (.xml, .lblx in small letters, Chang'e labels); otherwise as PDS3, with an attached label if there is none. The file of an object is the product's own unless its pointer is a file name or a sequence that begins with one: then it is in the first search path that has it under any matching name, and it is remembered; nothing is remembered if none is found. If a label names a compressed and an uncompressed file for an object and there is anything for just one of the names, it is found in whichever order they are tried.", "quantifier": "All file systems (any directories and entries in any order), file names, labels, search paths and pointers; all answers of pillow", "why_tests_cant": "The result depends on the whole directory contents and on suffix rules over arbitrary names.", "anchors": ["pdr/pdr.py: Data.__init__, Data._object_to_filename, Data._check_compressed_file_pointer, Data._target_path", "pdr/utils.py: check_primary_fmt, associate_label_file, check_cases", "pdr/loaders/utility.py: looks_like_this_kind_of_file"]}
{"id": "C87", "title": "Limit: labels and files that are found but read as something else", "statement": "A PDS4 label whose name ends in .XML, .LBLX or any spelling but .xml and .lblx is found, but the product is never opened as PDS4 (it is read as PDS3); so are Chang'e labels of level 3 or in small letters. A FITS file compressed as .bz2 or .zip is found when the FITS file is asked for, but without a label is not read as FITS. If a label names a compressed and an uncompressed file and both are there, which is read depends on the order of a set, which differs from run to run. A pointer that is an empty sequence is an IndexError instead of a missing file.", "quantifier": "All products, file systems and options that meet the named condition", "why_tests_cant": "They hold for every file of the kind; the set order depends on the hash seed of the process.", "anchors": ["pdr/pdr.py: Data.__init__, Data._check_compressed_file_pointer, Data._object_to_filename", "pdr/utils.py: check_primary_fmt"]}
{"id": "C88", "title": "Text arrays are read number by number", "statement": "For an ARRAY whose INTERCHANGE_FORMAT is not BINARY, in a file that holds nothing but numbers in plain notation (a sign or none, digits, a decimal point with digits or none), separated by blanks, line ends or commas: with as many numbers as AXIS_ITEMS asks for the array has that shape and element [i][j]... is the number at its place (last index fastest), correctly rounded to double precision, exactly where it is a double and infinite beyond the largest one; with a DATA_TYPE of integers or 8-byte reals whole numbers below 2^53 are kept; with more or fewer numbers reading stops with a ValueError. Only INTERCHANGE_FORMAT = BINARY makes it a binary array.", "quantifier": "all lists of numbers in plain notation, all separators, all shapes, all start bytes, all ways to round ties", "why_tests_cant": "numbers, separators and shapes are unbounded", "anchors": ["pdr/loaders/table.py: read_array", "pdr/loaders/queries.py: parse_array_structure"]}
{"id": "C89", "title": "Limit: text arrays with exponents, without leading digits, of words, or after a label", "statement": "In text ARRAYs numbers in exponent notation are taken for two numbers each, so that reading stops with a ValueError; numbers without a digit before the point (.25, -.25) are silently read as the whole number after the point, without the sign; elements that are words are never shown; the start byte is ignored, so that an array after an attached label cannot be read; and with DATA_TYPE ASCII_REAL, ASCII_INTEGER, CHARACTER, DATE or TIME the elements are texts cut off after BYTES characters.", "quantifier": "all numbers in these notations, all texts before the array, all start bytes and shapes", "why_tests_cant": "tests show single texts; the limits hold for all of them", "anchors": ["pdr/loaders/table.py: read_array", "pdr/datatypes.py: sample_types"]}
{"id": "C90", "title": "Uniformly sampled fields of PDS4 tables have the values their label describes", "statement": "A Uniformly_Sampled field has one value for each record. Linear sampling (also without a scale, in any letter case): record j has first + j*interval - rounded once where both are integers (exact up to 2^53; exact without limit where first and last value are beyond 64 bits), exact where all these numbers are doubles, and otherwise within j*2^(e-53) if they stay below 2^(e-1). Logarithmic: first*interval^j (for integers rounded once), ending at the last value if the interval is the root of last/first; exponential: base^x_j = base^first + j*interval, both in exact arithmetic. The type is double unless first and last are integers beyond 64 bits. In tables with records of fixed length these fields are the first columns, under their names.", "quantifier": "all first values, intervals, bases and numbers of records, all ways to round ties; for other than integer logarithmic, and for exponential sampling: real numbers instead of floats", "why_tests_cant": "values and numbers of records are unbounded, and rounding errors add up", "anchors": ["pdr/pds4_tools/reader/read_tables.py: _make_uniformly_sampled_field, read_table_data", "pdr/pds4_tools/reader/data_types.py: get_min_integer_numpy_type"]}
{"id": "C91", "title": "Limit: uniformly sampled fields with small steps, large integers, other scales, or no records", "statement": "Linear sampling with an interval below half a unit in the last place of the first value shows the first value in all records; odd integers above 2^53 are not shown as they are unless first and last value are beyond 64 bits, and integers beyond all doubles stop the table from being read (OverflowError); a scale that is none of the three names (also with a blank before it) gives, without an error, whatever the memory held; a table with no records and such a field cannot be read.", "quantifier": "all numbers of records, first values and intervals of this kind, all other scales", "why_tests_cant": "no test covers all values, and memory contents depend on the machine", "anchors": ["pdr/pds4_tools/reader/read_tables.py: _make_uniformly_sampled_field", "pdr/pds4_tools/utils/helpers.py: xml_to_dict"]}
{"id": "C92", "title": "The metadata of a PDS4 product show its whole label", "statement": "For every PDS4 label (an XML document with any nesting), the metadata are one entry for the root element. An element is shown under its name - without prefix if it is in the PDS4 namespace or none, as disp: or sp: for these dictionaries, else with the prefix first declared for its namespace. An element with children is a mapping with all children and nothing else: those of one name together, in the order of the document, names in the order in which they first occur (so the order of the document exactly if equal names are adjacent); its own text, if not blank, is under _text. An element without children has its text, words of a single line joined with single blanks and texts of several lines unchanged, or None (an empty mapping if it has attributes) if there is none. Searching for a name finds exactly the elements of that name. The meta_data of a structure have for each child name its values in order, numbers for texts that are numbers except under name, title, description, local_identifier.", "quantifier": "all XML documents: any depth, any number of children, any texts, namespaces and prefixes", "why_tests_cant": "unbounded nesting and interleaving of names, arbitrary texts and namespaces", "anchors": ["pdr/pds4_tools/utils/helpers.py: xml_to_dict, cast_int_float_string", "pdr/pds4_tools/reader/read_label.py: read_label, _non_blank_line_count, _normalize", "pdr/pds4_tools/reader/label_objects.py: Label.to_dict", "pdr/pds4_tools/reader/general_objects.py: Meta_Class._load_keys_from_xml", "pdr/parselabel/pds4.py: reformat_pds4_tools_label"]}
{"id": "C93", "title": "Limit: what the metadata of a PDS4 product do not show", "statement": "Attributes, such as the units of quantities, are not in the metadata, whatever they are. If elements of one name have another element between them, the metadata do not have the order of the document. Elements of two namespaces that share a prefix, or of the PDS4 namespace and one without a prefix, have the same names. Label.to_dict with cast_values and skip_attributes=False leaves out the text of elements with attributes or children whose text is the number zero. A child named _text is replaced by the text of its parent.", "quantifier": "all such documents", "why_tests_cant": "needs particular combinations of names, namespaces and values", "anchors": ["pdr/pds4_tools/utils/helpers.py: xml_to_dict", "pdr/pds4_tools/reader/label_objects.py: Label.to_dict, get_namespace_map", "pdr/pds4_tools/reader/read_label.py: read_label"]}
{"id": "C94", "title": "Bit columns of binary tables show the bits of their bytes at the label's positions, other columns their values", "statement": "For every binary table with BIT_COLUMNs in some of its columns (any number of rows >= 1, items, containers, row prefix and suffix; compressed or not), reading it gives the columns of the table in label order: a column without BIT_COLUMNs shows its values, scaled exactly where that is possible, as if there were no bit columns; in each row of a column with BIT_COLUMNs there is the list of the fields these declare, in label order, each being the BITS (or ITEM_BITS) bits from START_BIT on of the bytes at the value's place in the file, read in the byte order of MSB_/LSB_BIT_STRING, which is the DATA_TYPE or, if that is not a bit string, follows the integer type of the first BIT_COLUMN.", "quantifier": "all labels whose columns can be placed, with any BIT_COLUMN definitions that fit into their column; all files that hold the rows; all instruments and special cases for bit columns (except the JIRAM correction, see C09)", "why_tests_cant": "The bits come out of a chain of label parsing, offset computation, structured reading, void conversion, word factoring and slicing; tests look at single columns of single products.", "anchors": ["pdr/bit_handling.py: expand_bit_strings", "pdr/bit_handling.py: set_bit_string_data_type", "pdr/loaders/handlers.py: add_bit_column_info", "pdr/loaders/table.py: _interpret_as_binary", "pdr/loaders/table.py: read_table"]}
{"id": "C95", "title": "Limit: bit columns in tables without rows, of other bit string types, in columns of numbers, or with scaling", "statement": "A table with a bit column cannot be read at all if there is no row to read (ROWS = 0, or the file ends before the first row does), if the bit column has an OFFSET or a SCALING_FACTOR that is not an integer, if the DATA_TYPE of the column says BIT_STRING but is not MSB_BIT_STRING or LSB_BIT_STRING, or if the column has a type for numbers and its first BIT_COLUMN a type for bytes. And if a column has a type for numbers and its first BIT_COLUMN has an integer type, the byte order of the column's own DATA_TYPE makes no difference to the result. With an integer SCALING_FACTOR n, the list in each row repeats all fields n times (if the table can be read).", "quantifier": "all tables with such columns, whatever their other columns and their files are", "why_tests_cant": "That an empty selection or an unusual but legal type name makes a whole table unreadable shows only with products that have them.", "anchors": ["pdr/bit_handling.py: convert_byte_column_to_bits", "pdr/bit_handling.py: set_bit_string_data_type", "pdr/datatypes.py: sample_types"]}
{"id": "C96", "title": "What the values in a label mean", "statement": "A value in a PDS3 label is read as what it says. Integers (without leading zeros, with or without sign) are that integer; decimal numbers with a point, an exponent or both are the real number they write; texts in double or single quotes (without backslashes) are the text between the quotes, whatever else is in it; sequences of two or more values in parentheses and sets of one or more values in braces, nested up to 200 deep (no sets in sets), with any blanks around the commas, are the sequence or set of their values in order; radix integers, also in sequences and sets, are that integer; words and texts that begin with a word, dates and times are kept as text, and sequences and sets of words are sequences and sets of texts; a number with units in angle brackets is the number together with its units, also in sequences with other values, such as (\"A.DAT\", 1000 <BYTES>).", "quantifier": "all texts of these kinds, of any length (integers up to 4300 digits) and nesting depth up to 200; quoted texts without backslashes and line breaks; # as second or third character only in radix integers or in texts in double quotes; quantities without plus signs in the number, without commas and # ; words other than None, True, False and set", "why_tests_cant": "The space of texts is infinite: tests sample a few labels, and an error in the grammar (a sign, an exponent, a nested bracket) shows only for particular combinations.", "anchors": ["pdr/parselabel/pds3.py:literalize_pvl", "pdr/parselabel/pds3.py:parse_pvl_quantity_statement", "pdr/parselabel/pds3.py:parse_pvl_quantity_object", "pdr/parselabel/pds3.py:parse_unusual_collection", "pdr/parselabel/pds3.py:parse_non_base_10"]}
{"id": "C97", "title": "Limit: values in labels that are not read as they are written", "statement": "One word in a sequence or set makes all its parts texts: quoted texts keep their quotes and numbers are not converted. A sequence of a single number, text, sequence or set is read as that value instead of a sequence. A set with a set in it is an error that makes the whole label unreadable. Integers with leading zeros stay texts. The words None, True and False become Python's constants. Backslashes in quoted texts are escapes (C:\\temp gets a tab), and a quoted text that ends with a backslash keeps its quotes. An exponent with a plus sign is dropped from quantities: 1.5E+3 <km> is read as 1.5 km, although 1.5E+3 without units is 1500. Quoted texts one after the other (also on consecutive lines) are joined with nothing between them.", "quantifier": "all such sequences, sets, integers, texts and quantities", "why_tests_cant": "Tests can show single cases; that these happen for every such value is a statement about infinitely many texts.", "anchors": ["pdr/parselabel/pds3.py:literalize_pvl", "pdr/parselabel/pds3.py:parse_unusual_collection", "pdr/parselabel/pds3.py:PVL_QUANTITY_VALUE"]}
{"id": "C98", "title": "A label file says what its text says", "statement": "Reading a PDS3 label (a file of its own, or the beginning of a data file) gives exactly what is written in it. The label part of the file is decoded from UTF-8, which gives back every encoded text. From the text, comments that end on the line they begin on, spaces around lines, empty lines and the END statement are dropped; what is left gives the tree of parameters and blocks in the order in which they are written, each parameter with the value its text means (numbers, texts, words, dates, radix integers, sequences, sets and quantities), and the list of all its names. Pointers that occur more than once and the objects they point to are numbered. What is not UTF-8 makes a strict reading fail; files named .lbl or .fmt and readings that are not strict get U+FFFD for one to three such bytes instead. Chang'e 1-3 labels are decoded from GB 18030 and Venus Express magnetometer labels from Latin-1.", "quantifier": "all texts, trees, values of the kinds of C96, file names, contents after the label, size limits and both decoding policies; labels without duplicate pointers or with ones that C05 covers; the GB 18030 codec is arbitrary", "why_tests_cant": "It is the composition of trimming, decoding, uncommenting, statement splitting, block parsing, numbering and interpretation, each over unbounded texts; tests compare a few labels.", "anchors": ["pdr/parselabel/pds3.py:read_pvl", "pdr/parselabel/pds3.py:parse_pvl", "pdr/parselabel/pds3.py:looks_pvl", "pdr/parselabel/utils.py:trim_label", "pdr/formats/checkers.py:check_special_label", "pdr/formats/change.py:special_label", "pdr/formats/vex_mag.py:special_label"]}
{"id": "C99", "title": "Limit: one bad value or a surplus object makes a label unreadable; special labels ignore options", "statement": "A label cannot be read at all if one of its values, anywhere in it, is a set in a set (or another value whose interpretation fails), or if a duplicated pointer has more object definitions of its name than it occurs (IndexError). For Chang'e 1-3 and Venus Express magnetometer products, the label size limit and the decoding policy that were asked for make no difference.", "quantifier": "all such labels, whatever else is in them; all file names of these products, limits and policies", "why_tests_cant": "Tests see single labels; that one value is enough, wherever it is, is a statement about all labels.", "anchors": ["pdr/parselabel/pds3.py:parse_pvl", "pdr/parselabel/pds3.py:literalize_pvl_block", "pdr/parselabel/pds3.py:index_duplicate_pointers", "pdr/formats/change.py:special_label", "pdr/formats/vex_mag.py:special_label"]}
{"id": "C100", "title": "Products without special cases are read by the general rules alone", "statement": "For every product whose data set, host, spacecraft and instrument are none of those with special cases and whose FILE_NAME contains none of seven words, every object starts where its pointer says (C12), is placed as the general table rule says, has samples as SAMPLE_TYPE and SAMPLE_BITS say (C10), is looked for in the files the general rule gives, is read by the general reader with the definition the label gives, unmodified, and is loaded by the loader its name and file select.", "quantifier": "every set of identifying values meeting the condition, every object name, definition, pointer, file size and list of HDUs", "why_tests_cant": "there are some 150 mission-specific checks, each testing substrings of identifiers; no test suite enumerates the identifiers of the products outside them", "anchors": ["pdr/formats/checkers.py:check_special_offset", "pdr/formats/checkers.py:check_special_position", "pdr/formats/checkers.py:check_special_sample_type", "pdr/formats/checkers.py:check_special_block", "pdr/formats/checkers.py:check_special_fn", "pdr/formats/checkers.py:check_trivial_case", "pdr/formats/checkers.py:check_special_table_reader", "pdr/formats/checkers.py:check_special_structure", "pdr/formats/checkers.py:check_special_fits_start_byte", "pdr/func.py:specialize"]}
{"id": "C101", "title": "Limit: seven words in FILE_NAME override the pointers of products of any mission", "statement": "A product of any mission whose FILE_NAME contains STRIP, VISIBL, IMAGE, IR_, TIME, SUN or SOLAR has every object start ROWS*(ROW_BYTES+1) bytes before the end of the file, whatever its pointers say; if the label gives no ROW_BYTES outside an object the answer is a TypeError. (The rule is meant for the Huygens DISR: `and` binds tighter than `or` in its condition.)", "quantifier": "every product with such a FILE_NAME other than CHEMIN, THEMIS and Clementine RSS ones, every pointer, definition and file size", "why_tests_cant": "the rule depends on a substring of a keyword and is silent: a test needs a product of an unrelated mission with such a name", "anchors": ["pdr/formats/checkers.py:check_special_offset", "pdr/formats/cassini.py:get_offset"]}
{"id": "C102", "title": "Corrections of definitions are made once", "statement": "For every object except those of C103, reading its definition any number of times gives the same corrected definition as reading it once; correcting an object changes the definition of no other object; and the values the corrections replace are exactly the listed ones, every other value being that of the label.", "quantifier": "every product, object, label and number of readings", "why_tests_cant": "get_scaled, show and load read definitions again and again, and corrections work in place on the shared metadata: idempotence is a statement about all sequences of readings", "anchors": ["pdr/formats/checkers.py:check_special_block", "pdr/pdr.py:Data.metablock_", "pdr/loaders/datawrap.py:ReadImage", "pdr/loaders/datawrap.py:ReadTable"]}
{"id": "C103", "title": "Limit: three corrections of definitions are made again at each use", "statement": "Each reading of the definition of a WFF/ATM image (PRODUCT_ID S...) exchanges LINES and LINE_SAMPLES, so an even number of readings leaves them as in the label; each reading of that of a Phoenix wet chemistry table moves columns 13 and 14 back by one and two bytes more; each reading of that of a Voyager 2 PRA table of Saturn, Uranus or Neptune adds four more to ITEM_BYTES of the sweep columns.", "quantifier": "every such product and every number of readings", "why_tests_cant": "the outcome depends on how often the definition was read before, that is on the history of the Data object, which no single test fixes", "anchors": ["pdr/formats/checkers.py:check_special_block", "pdr/formats/ground.py:wff_atm_special_block", "pdr/formats/phoenix.py:wcl_edr_special_block", "pdr/formats/voyager.py:pra_special_block"]}
{"id": "C104", "title": "Limit: THEMIS files named .gz are not looked for", "statement": "For every THEMIS object whose pointer names a file ending in gz, the files to look for are not computed: the answer is a ValueError; for every other file name, that file and the one with .gz added are looked for.", "quantifier": "every THEMIS object, file name and label", "why_tests_cant": "a test exercises single file names; the claim is about every name with that ending", "anchors": ["pdr/formats/checkers.py:check_special_fn", "pdr/formats/themis.py:check_gzip_fn"]}
{"id": "C105", "title": "Special tables are as long as their missions say", "statement": "The tables of the listed data sets start where the general rule says and have this length: MARSIS TEC tables 143 bytes a record, Cassini RPWS tables FILE_RECORDS*ROW_BYTES, LRO tracking tables ROWS*(ROW_BYTES+1), the occultation geometry series ROWS*(ROW_BYTES+2), CRISM tables ROWS*RECORD_BYTES, and SPIRIT headers the whole file.", "quantifier": "every product of those data sets, every number of rows and bytes, file size, pointer and name", "why_tests_cant": "the products differ in sizes and names without bound, and the rules are tried in an order that lets an earlier one win", "anchors": ["pdr/formats/checkers.py:check_special_position"]}
{"id": "C106", "title": "Special samples are read as their missions say", "statement": "The samples of every LROC EDR are unsigned bytes and those of every JIRAM RDR little-endian four-byte reals, whatever the label says; integers of one to eight bytes that the label of a Cassini ISS image calls little-endian are read big-endian, signed and unsigned; and bit strings and samples without a type of the listed CRaTER, NIMS and Ulysses products are read as samples of the listed types.", "quantifier": "every such product, every SAMPLE_TYPE and SAMPLE_BITS", "why_tests_cant": "the rules must hold for every label of those products and must not be shadowed by others", "anchors": ["pdr/formats/checkers.py:check_special_sample_type", "pdr/formats/juno.py:jiram_rdr_sample_type", "pdr/formats/lroc.py:lroc_edr_sample_type", "pdr/formats/cassini.py:line_prefix_sample_type"]}
{"id": "C107", "title": "Special objects start where their missions say", "statement": "Objects of the listed instruments and data sets start at the listed byte: CheMin histograms and housekeeping tables, Clementine tables (whose pointer is a text with a record number), THEMIS qubes whose number of records is the number of bytes, Cassini ISS images of one period (one record earlier), CRaTER tables, Phoenix opacity and wet chemistry tables, and MSL camera images.", "quantifier": "every product of those data sets outside C101, every pointer, number, file name and file size", "why_tests_cant": "the rules are tried in order and read different parts of the label; each must hold for all values in the label", "anchors": ["pdr/formats/checkers.py:check_special_offset", "pdr/formats/msl_cmn.py:get_offset", "pdr/formats/clementine.py:get_offset", "pdr/formats/themis.py:get_qube_offset", "pdr/formats/cassini.py:coiss_1006_offset"]}
{"id": "C108", "title": "Special objects of FITS files are in the HDU their missions say", "statement": "Images and headers of the listed data sets are the data and the header of the first HDU; each object of a Juno UVS product is in the HDU of its number in the order of the mission, headers where the header starts and others where the data do; those of a LAMP RDR are in the first HDU of the listed name in any case, and one whose data are empty raises; and every object of a Mars Express VMC RDR, headers too, is the data of the second HDU.", "quantifier": "every FITS file and every such product and object name", "why_tests_cant": "the HDUs of a file vary in number, names and sizes without bound", "anchors": ["pdr/formats/checkers.py:check_special_fits_start_byte", "pdr/formats/juno.py:uvs_rdr_start_byte", "pdr/formats/juno.py:uvs_edr_start_byte", "pdr/formats/lro.py:lamp_rdr_hdu_start_byte", "pdr/formats/mex.py:vmc_rdr_hdu_selection", "pdr/formats/galileo.py:mdis_fits_start_byte"]}
{"id": "C109", "title": "Special readers are used for the tables of their data sets", "statement": "The listed tables are read by readers of their own, the columns of the listed objects are found by rules of their own, and the listed objects are not loaded, whatever the other identifying values, the file and the definition are.", "quantifier": "every product of those data sets, every file name and definition", "why_tests_cant": "some thirty rules are tried in order and an earlier one may raise; the claim is that none does or pre-empts", "anchors": ["pdr/formats/checkers.py:check_special_table_reader", "pdr/formats/checkers.py:check_special_structure", "pdr/formats/checkers.py:check_trivial_case"]}
{"id": "C110", "title": "Special files are looked for beside the label", "statement": "The tables of Cassini CDA, New Horizons and Voyager PPS products of the listed data sets are looked for in the file beside the label that has the name of the label and the listed extension, whatever file the pointer names.", "quantifier": "every label name and directory, every pointer", "why_tests_cant": "a test covers single names; names with several dots are the ones that go wrong", "anchors": ["pdr/formats/checkers.py:check_special_fn", "pdr/formats/cassini.py:cda_table_filename", "pdr/formats/nh.py:get_fn", "pdr/formats/voyager.py:get_fn"]}
{"id": "C111", "title": "FITS tables become data frames field by field", "statement": "Reading a table of a FITS file gives a data frame with, in the order of the file, one column for each field with one element, under its name, and for a field with a row or rectangle of elements one column for each element, under its name with _0, _1, ... appended (the last index fastest); fields that share a name are numbered first (C27). In every record, each column shows exactly the element that the file has there, integers, reals and complex numbers in the byte order of the machine.", "quantifier": "every binary and ASCII table with at least one field and any number of records, fields of zero to two dimensions (not rows of one element, see C112), all types and byte orders; field names that are different after numbering. What astropy affords as the fields is taken for what the file has", "why_tests_cant": "A test has tables with a few fields; which fields stand beside each other decides how they are put together", "anchors": ["pdr/loaders/handlers.py: _convert_fits_table_to_df, reindex_dupe_names", "pdr/pd_utils.py: structured_array_to_df, rectified_rec_df", "pdr/np_utils.py: enforce_order_and_object"]}
{"id": "C112", "title": "Limit: FITS tables with elements of three dimensions, rows of one element, or names that clash", "statement": "A FITS table with a field of three or more dimensions cannot be read (NotImplementedError), nor one with a field of one dimension that has exactly one element (NumPy takes the 1 for no dimension). If a field has several elements and another is called like one of the columns for them, the data frame has two columns of that name.", "quantifier": "every table with such a field, whatever the other fields are", "why_tests_cant": "the rest of the table is unbounded", "anchors": ["pdr/loaders/handlers.py: _convert_fits_table_to_df", "pdr/pd_utils.py: structured_array_to_df"]}
{"id": "C113", "title": "Line prefix tables show the prefixes of the lines of their image", "statement": "For an image whose label names a structure for its line prefixes without defining a table, the table NAME_LINE_PREFIX_TABLE has one row for each line, and the value in each row and column is the one whose bytes lie, according to the structure, in the prefix of that line of the image in the file.", "quantifier": "every number of lines, samples and bytes per sample, every structure whose columns can be placed (as in C62) and end with the prefix (or whose ROW_BYTES is LINE_PREFIX_BYTES), no line suffix, one band; all files", "why_tests_cant": "the table and the image interleave; tests look at single products", "anchors": ["pdr/loaders/queries.py: get_block, _fix_up_line_prefix_table_block", "pdr/pd_utils.py: compute_offsets", "pdr/loaders/table.py: read_table"]}
{"id": "C114", "title": "Limit: line prefix tables that do not fill the prefix, or lines with a suffix", "statement": "pdr takes the rows of such a table from the file in steps of the end of the last column (or ROW_BYTES) plus the samples, whatever LINE_PREFIX_BYTES, LINE_SUFFIX_BYTES and BANDS say: if the columns end before the prefix does, or there is a line suffix, every row after the first shows bytes that lie before the prefix of its line, without an error. If LINES (and ROWS), SAMPLE_BITS or LINE_SAMPLES is missing, the table is a KeyError. ROWS and ROW_SUFFIX_BYTES given by the structure itself are used as they are.", "quantifier": "every image and structure as in C113 with unused prefix bytes or a suffix", "why_tests_cant": "lines, structures and contents are unbounded", "anchors": ["pdr/loaders/queries.py: _fix_up_line_prefix_table_block", "pdr/pd_utils.py: compute_offsets"]}
{"id": "C115", "title": "Histograms show their items", "statement": "A binary HISTOGRAM of n items becomes a table with one row and n columns. Their names are the NAME of the histogram (or the name of the object), followed by an underscore and the number of the item from 0 if there are several. Column number i shows the value stored in the ITEM_BYTES bytes from the start of the object plus i times ITEM_BYTES, as DATA_TYPE says; multiplied with SCALING_FACTOR and shifted by OFFSET if they are given.", "quantifier": "every number of items, item size and type (IBM and VAX reals: one item only, see C116), start byte and file that holds all items, compressed or not; INTERCHANGE_FORMAT not ASCII, neither START_BYTE nor ROWS, BYTES absent or the size of all items; scaling where numbers are exact as in C63", "why_tests_cant": "items and file contents unbounded", "anchors": ["pdr/loaders/queries.py: get_histogram_fields, read_table_structure, parse_table_structure, _fill_empty_byte_rows", "pdr/pd_utils.py: insert_sample_types_into_df, fmtdef_to_dtype, reindex_df_values", "pdr/loaders/table.py: read_table"]}
{"id": "C116", "title": "Limit: histograms with START_BYTE, as text, of IBM reals, or without sizes", "statement": "A HISTOGRAM of INTERCHANGE_FORMAT ASCII is refused (NotImplementedError), one with START_BYTE is a KeyError, a binary one without BYTES and without ITEMS or ITEM_BYTES a ValueError, one of several 4-byte IBM reals an OverflowError. Without ITEM_BYTES, each of the items is taken to be as long as BYTES says, which is the size of all of them.", "quantifier": "every such histogram and every file (IBM reals: one that holds all items)", "why_tests_cant": "labels and files unbounded", "anchors": ["pdr/loaders/queries.py: get_histogram_fields, parse_table_structure, _fill_empty_byte_rows", "pdr/pd_utils.py: compute_offsets, convert_ibm_reals, insert_sample_types_into_df"]}
{"id": "C117", "title": "Arrays of records", "statement": "For a BINARY ARRAY whose subobjects are ELEMENTs and COLLECTIONs (repeated or not) of values that follow each other without gaps, in a compressed or plain file, pdr returns a structured array of shape AXIS_ITEMS; the record at each index has one field for each value of the definition, with the names a table would have, and each field is the value whose bytes lie at the place that the label gives it within the record with that number, last axis fastest.", "quantifier": "all such definitions, types, axes, files and start bytes", "why_tests_cant": "The number of elements, collections, repetitions and axes is not bounded, and a wrong place still gives numbers.", "anchors": ["pdr/loaders/queries.py:parse_array_structure", "pdr/loaders/table.py:read_array", "pdr/pd_utils.py:insert_sample_types_into_df", "pdr/pd_utils.py:fmtdef_to_dtype"]}
{"id": "C118", "title": "Limit: gaps in records and ARRAYs in ARRAYs", "statement": "The START_BYTEs of ELEMENTs and COLLECTIONs and the BYTES of COLLECTIONs of a BINARY ARRAY do not matter: pdr takes the values of a record, and the records, one directly after the other, so that after a gap all values are taken from wrong places, without an error. An ARRAY whose subobject is an ARRAY with AXIS_ITEMS and ELEMENTs is not read at all: there is a KeyError, because byte offsets are never computed for ARRAYs.", "quantifier": "all definitions with columns that have a type, all files", "why_tests_cant": "A test with dense records passes; the claim is about all layouts.", "anchors": ["pdr/loaders/queries.py:parse_array_structure", "pdr/pd_utils.py:construct_nested_array_format", "pdr/pd_utils.py:fmtdef_to_dtype"]}
{"id": "C119", "title": "From the label to the values of a table", "statement": "For the text of a PDS3 label with a TABLE-like block of a binary table (columns and containers of columns with NAME, START_BYTE, BYTES, DATA_TYPE, ITEMS, ITEM_BYTES, ITEM_OFFSET, SCALING_FACTOR, OFFSET, BIT_COLUMNs; any of them in format files, which may point to further format files) and a pointer to it: opening the label and asking for the table gives a table whose columns have the names of the label, in the order of the label, and which holds in row r the value that the file encodes, in the column's DATA_TYPE, at the place the label gives: the start the pointer gives (byte, record, file or file and place; records of the RECORD_BYTES of the block or else of the label), plus r records of the table, plus the column's offset in the record; scaled by SCALING_FACTOR and OFFSET; for a column with BIT_COLUMNs, the bits that these declare. This remains so after any number of metadata lookups. Format files stand for their contents (a single TABLE: for the contents of that), in place.", "quantifier": "every label text with such a block, every file at least as long as the label demands, every assignment of values to fields, every sequence of lookups before the table is read", "why_tests_cant": "It composes label parsing, literal reading, lookups, locating, format definitions, and decoding; tests try single products", "anchors": ["pdr/pdr.py Data.load", "pdr/loaders/queries.py get_block, get_target, data_start_byte, read_table_structure, parse_table_structure, check_explicit_delimiter", "pdr/loaders/table.py read_table", "pdr/parselabel/pds3.py read_pvl"]}
{"id": "C120", "title": "From the label to the values of an image", "statement": "For the text of a PDS3 label with an IMAGE-like block (LINES, LINE_SAMPLES, SAMPLE_BITS, SAMPLE_TYPE, optionally BANDS, BAND_STORAGE_TYPE, LINE_PREFIX_BYTES, LINE_SUFFIX_BYTES) and a pointer to it: opening the label and asking for the image gives an array of the shape of the label which holds at every line and sample (and band) the number that the file encodes, in the SAMPLE_TYPE, at the place the label gives: the start the pointer gives plus the position of the sample among the stored samples; objects named after the prefix or suffix get the prefixes or suffixes of the lines. This remains so after any number of metadata lookups.", "quantifier": "every label text with such a block, every file at least as long as the label demands, every line, sample and band, every sequence of lookups before the image is read", "why_tests_cant": "It composes label parsing, literal reading, lookups, locating, image properties, and decoding; tests try single products", "anchors": ["pdr/pdr.py Data.load", "pdr/loaders/queries.py get_block, get_target, data_start_byte, get_image_properties", "pdr/loaders/image.py read_image, process_single_band_image, process_multiband_image", "pdr/parselabel/pds3.py read_pvl"]}
{"id": "C121", "title": "From the label to the values of text tables and spreadsheets", "statement": "For the text of a PDS3 label with a TABLE-like block of a text table, or a SPREADSHEET with FIELDs, and a pointer to it: opening the label and asking for it gives a table with the columns of the label, taken from the text the label gives: from the byte the pointer gives, BYTES bytes, or as many records (RECORDS, ROWS) of RECORD_BYTES, of ROW_BYTES and ROW_SUFFIX_BYTES, or of the label's RECORD_BYTES, or all that follows; for STREAM labels that say nothing about bytes, and an object that is the file or starts in its first line, so many lines. The lines are split at the FIELD_DELIMITER (a comma, if there is none); if every line has one field per column, the columns show the fields, and otherwise the characters at the places of the label. Numbers are scaled by SCALING_FACTOR and OFFSET. Format files stand for their contents, and it remains so after any number of metadata lookups.", "quantifier": "every label text with such a block, every file, every sequence of lookups before the table is read; every way pandas can understand fields as numbers, dates or text", "why_tests_cant": "It composes label parsing, lookups, locating, format definitions and the text readers; tests try single products", "anchors": ["pdr/pdr.py Data.load", "pdr/loaders/queries.py get_block, get_target, data_start_byte, table_position, read_table_structure, parse_table_structure, check_explicit_delimiter", "pdr/loaders/table.py read_table, _interpret_as_ascii, _read_as_delimited, _read_fwf_with_colspecs"]}
{"id": "C122", "title": "A product on disk: what pdr.read gives, and what every later access shows", "statement": "For a product in files with a PDS3 label, attached or beside the data or opened by its label, whose directory has a file of the given name (in any letter case, or compressed): pdr.read(name) succeeds, the object for a pointer in the label is in its list of objects, and after any later history of loads, accesses, dump-free metadata lookups and attribute reads, asking for that object gives the same value, which is the one the bytes of its file encode according to the label. The file is the one the pointer names, looked for in any letter case in the directory of the product and then in the given search paths, or that of the product. This holds for binary tables with or without bit columns, images with one band or several, delimited and fixed width text tables and spreadsheets; format files named in the block of a table are found in the same directories and read as labels.", "quantifier": "every directory listing, label text, label, file content, search path list, object name and history of accesses; names that start or end with a dot, labels about compressed files and special cases are left out", "why_tests_cant": "The claim spans the whole path from a file name to values: the choice of label, the text of the label, the values in it, the file of the object, the reader, and the caching of loaded objects. Tests can only run it for some products and some histories.", "anchors": ["pdr/pdr.py:Data.__init__", "pdr/pdr.py:Data._target_path", "pdr/pdr.py:Data.load", "pdr/pdr.py:Data.load_from_pointer", "pdr/loaders/dispatch.py:pointer_to_loader", "pdr/loaders/queries.py:load_format_file", "pdr/loaders/datawrap.py:ReadTable", "pdr/loaders/datawrap.py:ReadImage"]}
{"id": "C123", "title": "Browse files of a product", "statement": "dump_browse over the loaded objects of a product: if the browse files of every listed and loaded object can be made and opened, no such object has the name of another one followed by _scaled, _unscaled, a band number or _nested_recarray, and the image format has no dot, then nothing fails; at the end each browse file (csv for tables, flat recarrays and one-dimensional arrays, pkl for nested recarrays, xml, txt, and pictures of images, whose bands are chosen by rgb_channels, by band_ix, one by one, as colors or from the middle, scaled as asked) holds its content under outpath/prefix_object, and no other path is touched; the list of objects stays the same; with purge all listed objects are deleted from memory, without it all are unchanged. If it fails, it is at the first object whose files cannot be made: those before it are completely dealt with, that object is still loaded, and those after it and all paths of other objects are untouched.", "quantifier": "all products (any objects in any order, loaded or not), all arguments of dump_browse, all behaviours of drawing, scaling and the file system, and all points of failure", "why_tests_cant": "the number of objects, their kinds, the names and the point at which something fails range over everything; tests dump a few products", "anchors": ["pdr/pdr.py: Data.dump_browse", "pdr/browsify.py: browsify, _browsify_recarray, _browsify_array, _render_array, _format_multiband_image, _format_as_rgb, _format_as_single_band"]}
{"id": "C124", "title": "Limit: what dump_browse silently loses", "statement": "Without an error: the picture of band k of an object A dumped with band_ix='burst' and the picture of an object named A_k go to the same file, and the last one wins; objects that were not loaded are not dumped (right after pdr.read dump_browse does nothing, whatever its arguments); an object that is None has no file and with purge is deleted all the same; a table with one row is written with rows and columns exchanged; images of FITS files with scaled=False or 'both' have only files called _scaled. An unknown scaled argument raises ValueError only at the first image, after the objects before it were written and, with purge, deleted; without images it is never noticed.", "quantifier": "all products, names and arguments of these kinds", "why_tests_cant": "the clash depends on names of objects of a product; the other effects leave no error that a test could see", "anchors": ["pdr/pdr.py: Data.dump_browse", "pdr/browsify.py: browsify, _browsify_array"]}
{"id": "C125", "title": "PDS4 arrays from the XML label to the values", "statement": "For a PDS4 label whose root is a Product and whose structures are complete, pdr.read lists as keys the structures of all file areas (observational, supplemental, ancillary, browse, inventory areas, in this order), named by local_identifier, else by name, else by kind and number, with spaces as underscores, and then 'label'. The value of a key of an array that no later structure shares is an array of the shape that the Axis_Array elements give by sequence number (in whatever order they stand), with the values that the bytes of the file named first in its file area (relative to the label) have from the array's offset on in its data_type; with a bit_mask, the same values with only the bits of the mask.", "quantifier": "every XML label with any elements, namespaces of the PDS4 dictionary, texts with white space and structures of other kinds; every array in it of a binary integer or IEEE real type, without bit mask or with one of full width and no special constants; every directory and every content of the files; data files not named like FITS files and no product with a special reader", "why_tests_cant": "labels nest without bound, axes may come in any order, names may repeat and may be made up from counters over all file areas; tests use a few labels of real products", "anchors": ["pdr/pdr.py:_init_pds4", "pdr/pdr.py:_load_pds4", "pdr/pds4_tools/reader/core.py:read_structures", "pdr/pds4_tools/reader/array_objects.py:Meta_ArrayStructure.from_label", "pdr/pds4_tools/reader/read_arrays.py:new_array", "pdr/pds4_tools/reader/general_objects.py:Meta_Class._load_keys_from_xml"]}
{"id": "C126", "title": "Limit: one incomplete element makes a whole PDS4 product unreadable", "statement": "pdr.read of a PDS4 label fails, so that nothing of the product can be read, if any array in any file area has no offset, axes, Axis_Array or Element_Array, if any of its Axis_Arrays has no axis_name, elements or sequence_number, if its Element_Array has no data_type, if any file area has no file_name (even if it describes no data), or if the name of the root does not contain 'Product'.", "quantifier": "every XML label with such an element anywhere among its file areas, whatever else is in it; every object that is asked for; every content of the files", "why_tests_cant": "the incomplete element may be in any place of labels of any size, beside any number of complete structures", "anchors": ["pdr/pds4_tools/reader/core.py:read_structures", "pdr/pds4_tools/reader/core.py:pds4_read", "pdr/pds4_tools/reader/array_objects.py:Meta_ArrayStructure.from_label", "pdr/pds4_tools/reader/general_objects.py:Meta_Class._check_keys_exist", "pdr/pdr.py:_init_pds4"]}
{"id": "C127", "title": "PDS4 tables from the XML label to the columns", "statement": "For a PDS4 label that can be opened (C125), the value of a key of a Table_Character or Table_Binary that no later structure shares is a table whose columns are those of the Field_ elements of its record in document order, the fields of a Group_Field_ element once per repetition at any depth of groups; every column has the values that the bytes of the file named first in the file area have at the field's place in each record, in its data_type; the names come from the field_name/name elements as in C72. Elements may carry the field_ and group_ prefixes or not, and stand in any order within their field.", "quantifier": "every XML label with any elements and structures of other kinds; every table with records of fixed length in it, of any number of fields and nesting of groups, without Uniformly_Sampled fields; every directory and every content of the files that holds all records; data files not named like FITS files and no product with a special reader", "why_tests_cant": "groups nest without bound, elements may come in any order and with or without prefixes; tests use a few labels of real products", "anchors": ["pdr/pds4_tools/reader/table_objects.py:TableStructure.from_label", "pdr/pds4_tools/reader/table_objects.py:Meta_Field.from_label", "pdr/pds4_tools/reader/table_objects.py:Meta_TableStructure.from_label", "pdr/pds4_tools/reader/read_tables.py:read_table", "pdr/pds4_tools/reader/read_tables.py:read_table_data", "pdr/pdr.py:_load_pds4"]}
{"id": "C128", "title": "Limit: incomplete tables of PDS4 products", "statement": "pdr.read of a PDS4 label fails for every object if any table in any file area has no record, no offset or no records, or if its record has no fields or groups count or, with fixed length, no record_length, or if it is delimited and has no field_delimiter or record_delimiter. A table is unreadable, also all its other columns, if one of its fields, at any depth of groups, has no name or data_type, has no location or length in a table that is not delimited, or has a field_format that is a number, as 12 for %12s.", "quantifier": "every XML label with such an element in any table, whatever else is in it; every content of the files", "why_tests_cant": "the incomplete element may be in any place of labels of any size, beside any number of complete structures", "anchors": ["pdr/pds4_tools/reader/core.py:read_structures", "pdr/pds4_tools/reader/table_objects.py:Meta_TableStructure.from_label", "pdr/pds4_tools/reader/table_objects.py:Meta_Field.from_label", "pdr/pds4_tools/reader/general_objects.py:Meta_Class._check_keys_exist", "pdr/pds4_tools/reader/read_tables.py:read_table_data"]}
{"id": "C129", "title": "PDS4 delimited tables from the XML label to the columns", "statement": "For a PDS4 label that can be opened (C125), the value of a key of a delimited table that no later structure shares is a table whose columns are those of the Field_Delimited elements of its record in document order, the fields of a Group_Field_Delimited element once per repetition; every column has in every row the value that is written in its place in that record of the file named first in the file area, from the table's offset on, with or without quotes, between the delimiters that the label names in any case of letters; nothing that was in memory before shows.", "quantifier": "every XML label with any elements and structures of other kinds; every delimited table in it with any number of fields and records, in groups up to depth two, without Uniformly_Sampled fields and missing numbers, with or without object_length and maximum_record_length; every directory and every content of the files; data files not named like FITS files and no product with a special reader", "why_tests_cant": "labels nest without bound, records have any text, and start positions come from arrays that are not initialized; tests use a few labels of real products", "anchors": ["pdr/pds4_tools/reader/table_objects.py:TableStructure.from_label", "pdr/pds4_tools/reader/table_objects.py:Meta_FieldDelimited.from_label", "pdr/pds4_tools/reader/read_tables.py:_read_table_byte_data", "pdr/pds4_tools/reader/read_tables.py:read_table_data", "pdr/pds4_tools/reader/read_tables.py:_get_delimited_records_and_start_bytes", "pdr/pdr.py:_load_pds4"]}
{"id": "C130", "title": "PDS4 headers from the XML label to the bytes", "statement": "For a PDS4 label that can be opened (C125), the value of a key of a header that no later structure shares is the bytes of the file named first in its file area, from the header's offset on, object_length of them, and no others; fewer, without an error, only if the file ends before.", "quantifier": "every XML label with any elements and structures of other kinds; every header in it with a sum of offset and object_length above 0; every directory and every content of the files; data files not named like FITS files and no product with a special reader", "why_tests_cant": "labels nest without bound, offsets and lengths are any numbers, files may be shorter than the label says; tests use a few labels of real products", "anchors": ["pdr/pds4_tools/reader/header_objects.py:Meta_HeaderStructure.from_label", "pdr/pds4_tools/reader/read_headers.py:_read_header_byte_data", "pdr/pds4_tools/reader/core.py:read_byte_data", "pdr/pdr.py:_load_pds4"]}
{"id": "C131", "title": "Limit: incomplete and empty headers of PDS4 products", "statement": "pdr.read of a PDS4 label fails for every object if any header in any file area has no offset, object_length or parsing_standard_id. A header of 0 bytes at offset 0 is read as the whole file.", "quantifier": "every XML label with such a header, whatever else is in it; every content of the files", "why_tests_cant": "the incomplete element may be in any place of labels of any size, beside any number of complete structures", "anchors": ["pdr/pds4_tools/reader/header_objects.py:Meta_HeaderStructure.from_label", "pdr/pds4_tools/reader/core.py:read_structures", "pdr/pds4_tools/reader/core.py:read_byte_data", "pdr/pds4_tools/reader/general_objects.py:Meta_Class._check_keys_exist"]}
{"id": "C132", "title": "XML packets in the metadata of desktop images", "statement": "When pdr.read opens a TIFF or JPEG with an XML packet in its tags, the metadata have under XMLPacket, at the place that the names of the packet's elements (without namespaces) give, every attribute and every text, without white space at its ends, and no others; children stay in the order of the document, repeated ones are kept, elements without any text or attribute in or below them are left out; text and attributes of an element with both are under 'text' and 'attrib'.", "quantifier": "every XML document of any depth and size, with namespaces or without, with any texts and attributes, but without texts beside children and without attributes of an element that only differ in namespaces", "why_tests_cant": "packets nest without bound and may be anything; tests use a few images", "anchors": ["pdr/pil_utils.py:unpack_xml", "pdr/pil_utils.py:pick_text_attrib", "pdr/pil_utils.py:get_image_metadata", "pdr/pdr.py:read_metadata"]}
{"id": "C133", "title": "Limit: XML packets in desktop images that are mixed, or have one attribute in two namespaces", "statement": "pdr.read fails (SyntaxError), so that also the image cannot be read, if any element of an XML packet has a text beside children. Of the attributes of an element that only differ in namespaces only the last is in the metadata.", "quantifier": "every XML document with such an element anywhere in it, whatever else is in it", "why_tests_cant": "the element may be in any place of a packet of any size", "anchors": ["pdr/pil_utils.py:unpack_xml", "pdr/pil_utils.py:pick_text_attrib", "pdr/pil_utils.py:strip_ns", "pdr/pdr.py:Data.__init__"]}
{"id": "C134", "title": "Tables of Mars Climate Sounder", "statement": "The TABLE of an MRO MCS DDR product (not V1.0) has 92 columns and one row for every data row of the file, in the order of the file: the 77 values of the metadata row of its record and its own 15. White space around a field, quotation marks and blanks in them are not part of the value. A record may lack one of its rows, the last record any number; a line feed at the end of the file does not matter.", "quantifier": "every file of any number of records, with any content of the fields without commas and line feeds in ASCII; every number of REPETITIONS; every place of the table in the file; every way of converting texts to types", "why_tests_cant": "the place of each record is found by counting from those before it, over files of any length; tests use a few files", "anchors": ["pdr/formats/mro.py:mcs_ddr_table_loader", "pdr/formats/checkers.py:check_special_table_reader"]}
{"id": "C135", "title": "Limit: tables of Mars Climate Sounder with incomplete records", "statement": "The search for the next metadata row in the tables of Mars Climate Sounder does not find it: if one data row has not 15 fields (and none of its record 77), or a record lacks two rows or more and another record follows, nothing of the table can be read, whatever is in the rest of the file.", "quantifier": "every file with such a record after any number of complete ones, and anything after it; every number of REPETITIONS", "why_tests_cant": "the record may be at any place of files of any size", "anchors": ["pdr/formats/mro.py:mcs_ddr_table_loader"]}
{"id": "C136", "title": "Printing metadata", "statement": "str(metadata) and repr(metadata) show every entry of the label, in order and inside the braces of the blocks it is in: but for white space, the text is the label on one line. Every entry whose value is not a string of more than 70 characters stands in it as it is (name, colon, blank, value, comma); of longer strings every character but white space. A label that fits in 70 characters is printed on one line.", "quantifier": "every label of any size and depth, any names and values, with no string of more than 70 characters that is only white space or inside more than 22 blocks; every way of wrapping lines that keeps the characters in order", "why_tests_cant": "the text is made twice for every block that does not fit, at indents that depend on the depth; tests use a few labels", "anchors": ["pdr/utils.py:prettify_multidict", "pdr/pdr.py:Metadata.__str__", "pdr/pdr.py:Metadata.__repr__"]}
{"id": "C137", "title": "Limit: metadata that cannot be printed", "statement": "str(metadata) raises an exception if the label has, anywhere, a string of more than 70 characters that is only white space, or a string with more than 70 other characters inside 23 or more blocks.", "quantifier": "every label with such a string at any place and depth, whatever else is in it", "why_tests_cant": "the string may be at any place of labels of any size", "anchors": ["pdr/utils.py:prettify_multidict", "pdr/pdr.py:Metadata.__str__", "pdr/pdr.py:Metadata.__repr__"]}
{"id": "C138", "title": "Metadata by names that are not exact", "statement": "metaget_fuzzy(text) gives what metaget (with its warning) gives for a name of the label to which no other is closer: twice the length of the longest common subsequence over the sum of the lengths is greatest. For a name of the label this is that name; for a label without names, None.", "quantifier": "every label, every history of the metadata object, every text and name, every order of the set of names", "why_tests_cant": "over all texts and sets of names, whose order differs from run to run", "anchors": ["pdr/pdr.py:Metadata.metaget_fuzzy", "pdr/pdr.py:Metadata.metaget"]}
{"id": "C139", "title": "Text tables of Halley and ICE products without line ends", "statement": "The TABLE of a Halley (MSN, PPN, IRSN V1.0) or ICE trajectory product whose rows follow each other without line ends has the columns of the label but placeholders, in order, and a row for every row of the file: each column shows the characters at its bytes, without the padding around them, as pandas understands them. Nothing of what follows the last row is in it; ROWS may be greater than the number of rows that the file has.", "quantifier": "every file of any number of rows of any length, with anything before and after them; every list of columns at any bytes; rows without line ends in them and with something to be seen in a column", "why_tests_cant": "over files of any length and all definitions of columns; tests use a few products", "anchors": ["pdr/formats/ihw.py:add_newlines_table_loader", "pdr/formats/checkers.py:check_special_table_reader"]}
{"id": "C140", "title": "Magellan occultation profiles", "statement": "In a Magellan occultation profile any rows may have a line feed too many somewhere within them: the TABLE has the columns of the label but PLACEHOLDER_0, in order, and a row for every row of the file, as if these line feeds were not there. FILE_RECORDS may be greater than the number of rows that the file has.", "quantifier": "every file of any number of rows, each of ROW_BYTES bytes with its line end (LF or CRLF) and at most one line feed more, at any place but directly before a line feed; every list of columns with a column PLACEHOLDER_0; rows with something to be seen in a column", "why_tests_cant": "the place of each row depends on all line feeds before it; tests use a few products", "anchors": ["pdr/formats/mgn.py:occultation_loader", "pdr/formats/checkers.py:check_special_table_reader"]}
{"id": "C141", "title": "Chang'e 4 tables divided at white space", "statement": "The table of a Chang'e 4 product (ASAN, LND) read without the positions of its label has the columns of the label in order: its fields, then name_1, name_2, \u2026 for every group (Group_1, \u2026 if it has no name). Each column shows the word at its place of every line that has words, whatever white space is between them; shorter lines have missing values at their end. A label file's last L is taken off to find the data. Limits, also shown: if the lines have more words than the label has columns (groups with several fields), all columns are shifted; two groups with the same name, or none, are an error.", "quantifier": "every file of any number of lines of any words with any white space; every list of two or more fields with any groups; every way pandas could understand the cells", "why_tests_cant": "over all files and labels; tests use a few products", "anchors": ["pdr/formats/change.py:read_table_using_spaces", "pdr/formats/checkers.py:check_special_pds4_cases"]}
{"id": "C142", "title": "Tables of Phoenix AFM scans", "statement": "A Phoenix AFM file has four lines of header, then tables of 512 lines, in the order forward error, forward height, backward error, backward height. Each table of the label (and the header) shows its own lines only, whatever byte positions the label states: under the k-th name that is no placeholder the field at place k of each line. If the first line has another number of fields than there are such names there is an error and no table.", "quantifier": "every file with a header of four lines and any number of tables of 512 lines, with anything after them; every list of names; fields with or without quotes; every way pandas could understand the cells", "why_tests_cant": "over all contents of the lines before, within and after a table; tests use a few products", "anchors": ["pdr/formats/phoenix.py:afm_table_loader", "pdr/formats/checkers.py:check_special_table_reader"]}
{"id": "C143", "title": "ASPERA IMA tables with commas too many", "statement": "The SPREADSHEET of a Mars Express ASPERA IMA product has a column for each name of its definition, in order, and a row for every line of the file that is not blank: each column shows the field at its place. Fields after the last name (the commas too many of MODE rows) are left out, however many each line has; shorter lines have missing values at their end. A first line with fewer fields than there are names is an error.", "quantifier": "every file of any number of lines with any numbers of fields, with or without quotes, LF or CRLF; every list of names; every way pandas could understand the cells", "why_tests_cant": "over all numbers of fields in all lines; tests use a few products", "anchors": ["pdr/formats/mex.py:aspera_table_loader", "pdr/formats/checkers.py:check_special_table_reader"]}
{"id": "C144", "title": "Cassini spreadsheets", "statement": "The table of a Cassini MIMI, RADAR or RPWS spreadsheet starts after seven lines (four if the file name has FULL in it, none for RADAR summaries) whatever they say; its columns have the names of the label in order, and each shows the field at its place of every line that follows. Uncalibrated products, and CHEMS products with FULL in the name, have the names in their first line instead; for the latter the three lines after it are left out.", "quantifier": "every file of any lines before, within and after the header; every list of different names; lines with no more fields than there are names; every way pandas could understand the cells", "why_tests_cant": "over all contents of skipped lines and of the table; tests use a few products", "anchors": ["pdr/formats/cassini.py:spreadsheet_loader", "pdr/formats/checkers.py:check_special_table_reader"]}
{"id": "C145", "title": "Text tables divided at white space", "statement": "The table of a Halley light curve, an Odyssey map, a Voyager LECP sector, a Mars Express radio science (ODF) or a Ulysses GAS product does not depend on the byte positions in its label: the columns have the names of the label (for GAS all, for ODF those that do not start with PLACEHOLDER, else those without PLACEHOLDER) in order, and each shows the word at its place of every line that has words; for GAS the first 17 lines are left out. If the first line has another number of words than there are names there is an error and no table.", "quantifier": "every file of any number of lines of words with any blanks and tabs between them (no quotes); every list of names; every way pandas could understand the cells", "why_tests_cant": "over all files and lists of names; tests use a few products", "anchors": ["pdr/formats/ihw.py:curve_table_loader", "pdr/formats/odyssey.py:map_table_loader", "pdr/formats/ulysses.py:gas_table_loader", "pdr/formats/voyager.py:lecp_table_loader", "pdr/formats/mex.py:mrs_l1b_odf_table_loader"]}
{"id": "C146", "title": "Text tables divided at commas under the names of the label", "statement": "A MER UHFD spreadsheet has every line of its file, whatever number of rows the label states, and a Magellan geometry table is not changed by null bytes anywhere in its file: under the names of the label (for Magellan without placeholders) each column shows the field at its place of every line.", "quantifier": "every file of any number of lines of fields with or without quotes, with null bytes at any places; every list of names; every way pandas could understand the cells", "why_tests_cant": "over all files and all places of null bytes; tests use a few products", "anchors": ["pdr/formats/mer.py:rss_spreadsheet_loader", "pdr/formats/mgn.py:geom_table_loader"]}
{"id": "C147", "title": "Viking seismometer tables", "statement": "A summary table of the Viking 2 seismometer is divided at white space, its columns have the names of the label without placeholders and SEISMIC_TIME_SOLS, and in tables of events and winds ORIGINAL_LINES_COUNT in the eighth place. Tables of events are divided at commas and their columns have the names without SEISMIC_SOL; high-rate tables have all names. Each column shows the field at its place of every line. Only the name of the file decides, not directories, and not capital letters; other names are an error.", "quantifier": "every path; every file of any lines; every list of names; every way pandas could understand the cells", "why_tests_cant": "over all paths, files and lists of names; tests use a few products", "anchors": ["pdr/formats/viking.py:seis_table_loader"]}
{"id": "C148", "title": "REMS tables in one file", "statement": "A REMS EDR file has several tables one after the other, in lines of 399 bytes. A TABLE whose pointer gives a byte at the start of a line shows the next ROWS lines and nothing of the other tables: under the names of the label without placeholders each column shows the field at its place of every line. Which data the other tables have does not matter.", "quantifier": "every file with any number of lines of 399 bytes (LF or CRLF) before the table, any number of lines in it and any lines after it; every list of names; every way pandas could understand the cells", "why_tests_cant": "over all positions and all contents of the other tables; tests use a few products", "anchors": ["pdr/formats/msl_rems.py:edr_table_loader", "pdr/formats/checkers.py:check_special_table_reader"]}
{"id": "C149", "title": "Tables whose first lines are not data", "statement": "Mini-RF housekeeping tables have three columns even if their first line has only one field. Tables of places of the Curiosity rover have their names in the first line, those of the Galileo plasma wave experiment (divided at semicolons) in the second: these lines are not shown, and the columns have the names of the label; each shows the field at its place of every line that follows. If the header has another number of fields than the label has names there is an error and no table.", "quantifier": "every file of any number of lines with any fields, with or without quotes; every list of names; lines with no more fields than there are names; every way pandas could understand the cells", "why_tests_cant": "over all files and lists of names; tests use a few products", "anchors": ["pdr/formats/lro.py:mini_rf_spreadsheet_loader", "pdr/formats/msl_places.py:spreadsheet_loader", "pdr/formats/galileo.py:pws_table_loader"]}
{"id": "C150", "title": "Voyager tables with header lines among the data", "statement": "In the SPREADSHEET of a Voyager 1 LECP product of Saturn, lines that begin with VOYAGER are left out, wherever they are in the file, and of other lines what follows a V. The first line that is left is a header, with as many fields as the label has names without placeholders; the columns have the names of the label, and each shows the field at its place of every line after the header.", "quantifier": "every file of any number of lines without quotes, with comments at any places; every list of names; lines with no more fields than there are names; every way pandas could understand the cells", "why_tests_cant": "over all places of header lines in files of any length; tests use a few products", "anchors": ["pdr/formats/voyager.py:lecp_vg1_sat_table_loader", "pdr/formats/checkers.py:check_special_table_reader"]}
