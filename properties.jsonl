{"id": "C01", "title": "Rounding up to an alignment", "statement": "align(value, alignment) with a power-of-two alignment returns the least multiple of alignment that is not below value; with any other alignment (0 included) it panics; the only other way it fails is that value + alignment does not fit in 64 bits.", "quantifier": "every 64-bit value and every 64-bit alignment", "why_tests_cant": "the input space is 2^128; the bit-mask form is only right for powers of two and away from the top of the range", "anchors": ["src/core/util.rs:align (L82-85)"]}
{"id": "C02", "title": "Bit width of a tag", "statement": "required_bits(v) is the least k with v < 2^k, so k bits can store every tag 0..=v and k-1 bits cannot.", "quantifier": "every 64-bit value", "why_tests_cant": "2^64 inputs; off-by-one at each power of two", "anchors": ["src/core/util.rs:required_bits (L123-131)"]}
{"id": "C03", "title": "Exact base-2 logarithm", "statement": "log2(v) returns k exactly when v = 2^k and panics for every other v.", "quantifier": "every 64-bit value", "why_tests_cant": "2^64 inputs", "anchors": ["src/core/util.rs:log2 (L149-154)"]}
{"id": "C04", "title": "Raw field store/load", "statement": "Writing a fixed-size value at an offset of a buffer and reading at the same offset gives the value back, every byte outside the written range is unchanged, the buffer keeps its length, and the call panics exactly when the range does not lie in the buffer.", "quantifier": "every buffer, offset and 32-bit value", "why_tests_cant": "unbounded buffers and offsets", "anchors": ["src/core/util.rs:set_value, get_value (L156-174)"]}
{"id": "C05", "title": "A page is a list of rows", "statement": "Starting from initialize_page, after any history of append_row, insert_row and remove_row calls that do not panic, and that never add an empty row to a page without room for one more slot, num_rows and get_row report exactly the list obtained by doing the same operations on a plain list of byte strings.", "quantifier": "every page size, every power-of-two row alignment, every finite history of calls with every row content", "why_tests_cant": "a corrupted neighbour shows only for particular lengths, orders and alignments; the histories are unbounded", "anchors": ["src/core/nsm.rs:PageFormat::append_row, insert_row, remove_row, get_row, num_rows (L39-168)"]}
{"id": "C06", "title": "The room reported is exactly the room there is", "statement": "max_insert_row_size equals page length minus the aligned lengths of the stored rows minus the aligned slot directory with one more slot (0 if negative), and a non-empty row is accepted by append_row (and by insert_row at any index up to num_rows) if and only if its length is at most that number.", "quantifier": "every page reached by any history, every row, every index", "why_tests_cant": "depends on the sum of all earlier row lengths and alignment remainders", "anchors": ["src/core/nsm.rs:max_insert_row_size, append_row, insert_row (L75-187)"]}
{"id": "C07", "title": "No accepted write corrupts a stored row", "statement": "Whenever append_row or insert_row returns, every row stored before is still readable with the same bytes - including when the row added is empty and the page is full.", "quantifier": "every page reached by any history, every row (empty rows included)", "why_tests_cant": "only arises for the empty row on an exactly full page", "anchors": ["src/core/nsm.rs:append_row, insert_row, max_insert_row_size (L75-187)"]}
{"id": "C08", "title": "Remove undoes insert", "statement": "Inserting a row at an index and removing the row at that index gives back the same rows and the same reported room.", "quantifier": "every reachable page, row and index", "why_tests_cant": "needs exact byte accounting in every state", "anchors": ["src/core/nsm.rs:insert_row, remove_row (L98-168)"]}
{"id": "C09", "title": "Rows are aligned", "statement": "Every stored row starts at a byte offset that is a multiple of the row alignment, rows do not overlap each other or the slot directory.", "quantifier": "every page reached by any history", "why_tests_cant": "depends on history and lengths", "anchors": ["src/core/nsm.rs:append_row, insert_row, remove_row, aligned_row_offset (L75-203)"]}
{"id": "C10", "title": "Bad page calls are refused", "statement": "get_row and remove_row panic for every index that is not below num_rows; insert_row panics for every index above num_rows; append_row and insert_row panic for every row longer than max_insert_row_size; for in-range arguments none of them panics.", "quantifier": "every reachable page and every index and row", "why_tests_cant": "all indices, all histories", "anchors": ["src/core/nsm.rs:get_row, insert_row, remove_row (L64-203)"]}
{"id": "C11", "title": "Path comparison is a total order", "statement": "The ordering on paths is a total order (antisymmetric, transitive, total), agrees with equality, and places every proper prefix before its extensions.", "quantifier": "all paths of any length", "why_tests_cant": "sorted maps and binary searches need the laws for all triples", "anchors": ["src/core/types/mod.rs:impl Ord for Path, PartialOrd (L247-275)"]}
{"id": "C12", "title": "Prefix tests", "statement": "is_prefix_of holds exactly when the other path continues this one; is_proper_prefix_of holds exactly when additionally the two differ.", "quantifier": "all pairs of paths", "why_tests_cant": "all lengths; the proper variant is wrong only by a self-comparison that tests never hit", "anchors": ["src/core/types/mod.rs:Path::is_prefix_of, is_proper_prefix_of (L183-197)"]}
{"id": "C13", "title": "Qualified names resolve to the component they name", "statement": "If resolve_qualified_name(name) returns a path then extract on that path does not panic, and the component it returns is the one reached by following the dot separated labels (tuple positions by number, struct fields and enum cases by label) from the root type.", "quantifier": "all types of any nesting and all name strings", "why_tests_cant": "nesting is unbounded, name strings are unbounded", "anchors": ["src/core/types/mod.rs:Path::resolve_qualified_name (L203-244), Type::extract (L151-166)"]}
{"id": "C14", "title": "Every component has a name", "statement": "In a type whose labels are distinct within each struct and enum and contain no dot, every component path is the resolution of some qualified name, and two different paths never have the same name.", "quantifier": "all such types and all component paths", "why_tests_cant": "unbounded nesting", "anchors": ["src/core/types/mod.rs:Path::resolve_qualified_name, find_field_index, find_case_index (L114-244)"]}
{"id": "C15", "title": "Parsed types are well formed", "statement": "Every type returned by the type parser has only non-empty tuples, structs and enums and only identifier labels, so that building a layout for it does not panic.", "quantifier": "all input strings", "why_tests_cant": "infinite input space", "anchors": ["src/core/types/parser.lalrpop (L29-105)", "src/core/marshaller.rs:unroll_type (L127-202)"]}
{"id": "C16", "title": "Every well-formed type can be written down", "statement": "Each type with non-empty aggregates and identifier labels has a textual form which the type parser maps back to that type.", "quantifier": "all types", "why_tests_cant": "unbounded nesting", "anchors": ["src/core/types/parser.lalrpop (L29-105)"]}
{"id": "C17", "title": "The type grammar is unambiguous", "statement": "A token sequence has at most one parse: no two different types are derivable from the same token sequence, and the parser returns a type exactly when the grammar derives it.", "quantifier": "all token sequences and all types", "why_tests_cant": "infinite", "anchors": ["src/core/types/parser.lalrpop (L29-105)"]}
{"id": "C18", "title": "Layout construction never panics on well-formed types", "statement": "Layout::new returns a layout for every type whose tuples, structs and enums are non-empty.", "quantifier": "all types", "why_tests_cant": "unbounded nesting; internal sorting, searching and indexing could fail for particular shapes", "anchors": ["src/core/marshaller.rs:Layout::new, calculate_layout, unroll_type, allocate_bitfields (L116-407)"]}
{"id": "C19", "title": "Fixed-size fields never overlap", "statement": "In every layout the byte ranges of the primitive and length fields and of the tag containers are pairwise disjoint, the bit ranges of tags sharing a container are pairwise disjoint and inside the container, and all of it lies below the start of the variable part.", "quantifier": "all types and all nested case layouts", "why_tests_cant": "combinatorial in the number and kinds of fields", "anchors": ["src/core/marshaller.rs:calculate_layout, allocate_bitfields (L220-381)"]}
{"id": "C20", "title": "Fixed-size fields are naturally aligned", "statement": "Each fixed-size field's offset is a multiple of its size, the layout alignment is a power of two that is a multiple of each field's size, and the variable part starts at a multiple of its alignment.", "quantifier": "all types", "why_tests_cant": "combinatorial", "anchors": ["src/core/marshaller.rs:calculate_layout (L262-381)"]}
{"id": "C21", "title": "Nested values are aligned too", "statement": "For a value stored at an aligned address, every primitive - also one inside an enum case - is stored at an address that is a multiple of its size.", "quantifier": "all types and all values", "why_tests_cant": "needs particular choices of cases with smaller alignment before a case with larger alignment", "anchors": ["src/core/marshaller.rs:encode_with_source, variable_field_offset (L409-666)"]}
{"id": "C22", "title": "Encoded size is predicted exactly", "statement": "encode_with_source returns exactly the number encoding_size_with_source computes beforehand, and encoding_size of the written bytes computes the same number; it is a multiple of the alignment.", "quantifier": "all types whose enums have a representable number of cases (C26 is about the others), all values with strings below 4 GiB, all buffers that are large enough", "why_tests_cant": "unbounded types and values", "anchors": ["src/core/marshaller.rs:encode_with_source, encoding_size, encoding_size_with_source (L485-666)"]}
{"id": "C23", "title": "Encoding stays inside the announced size", "statement": "With a buffer of at least the announced size, encoding neither panics nor touches memory outside the buffer, and leaves all bytes from the announced size on unchanged.", "quantifier": "all types whose enums have a representable number of cases (C26 is about the others), all values with strings below 4 GiB, all buffers", "why_tests_cant": "memory safety over all inputs; the writes are raw pointer writes", "anchors": ["src/core/marshaller.rs:encode_with_source, copy_bytes (L514-680)"]}
{"id": "C24", "title": "A short buffer is refused, not overrun", "statement": "With a buffer shorter than the announced size, encoding panics before writing outside the buffer.", "quantifier": "all types, values and buffers", "why_tests_cant": "needs an adversarial buffer length; the overrun is silent", "anchors": ["src/core/marshaller.rs:copy_bytes (L669-680), encode_with_source (L514-666)"]}
{"id": "C25", "title": "Marshalling round trip", "statement": "After encoding a value, reading each primitive, string, string length and case tag that belongs to the value through the Marshaller returns exactly what was encoded.", "quantifier": "all types whose enums have a representable number of cases (C26 is about the others), all values with strings below 4 GiB, all initial buffer contents", "why_tests_cant": "unbounded nesting and contents", "anchors": ["src/core/marshaller.rs:encode_with_source, Marshaller::get_primitive, get_bytes, get_case_tag, get_length (L514-923)"]}
{"id": "C26", "title": "Any number of enum cases works", "statement": "The marshalling round trip holds for enums with any number of cases.", "quantifier": "all case counts", "why_tests_cant": "fails only when the tag width equals a machine width, e.g. 129 to 256 cases, or when a single-case enum lands behind a full container", "anchors": ["src/core/marshaller.rs:encode_with_source tag masks (L558-640), allocate_bitfields (L220-260)"]}
{"id": "C27", "title": "Re-encoding a decoded value is the identity", "statement": "Encoding from a MarshallerDataSource over encoded bytes into the same initial buffer yields the same bytes again.", "quantifier": "all types whose enums have a representable number of cases (C26 is about the others), all values with strings below 4 GiB, all buffers", "why_tests_cant": "unbounded", "anchors": ["src/core/marshaller.rs:MarshallerDataSource, encode_with_source (L514-976)"]}
{"id": "C28", "title": "The encoding is determined by the value", "statement": "Two data sources that present the same value produce identical bytes from identical initial buffers, whatever else they contain.", "quantifier": "all pairs of sources", "why_tests_cant": "unbounded", "anchors": ["src/core/marshaller.rs:encode_with_source (L514-666)"]}
{"id": "C29", "title": "Readers refuse inactive cases", "statement": "Reading a field of an enum case that is not the stored case is refused.", "quantifier": "all types, values and inactive paths", "why_tests_cant": "requires crossing value and path choice", "anchors": ["src/core/marshaller.rs:Marshaller::get_primitive, get_bytes, get_case_tag, get_length (L705-923)"]}
{"id": "C30", "title": "Labels do not influence the binary format", "statement": "Two types that differ only in field and case labels have the same layout.", "quantifier": "all pairs of types", "why_tests_cant": "unbounded", "anchors": ["src/core/marshaller.rs:unroll_type, calculate_layout (L127-381)"]}
{"id": "C31", "title": "IntermediateDataSource is a map", "statement": "After any sequence of add_* and clear calls each getter returns the last value added for that path since the last clear when its kind matches, and panics otherwise.", "quantifier": "all call sequences, all paths", "why_tests_cant": "unbounded histories", "anchors": ["src/core/data_source.rs:IntermediateDataSource (L66-143)"]}
{"id": "C32", "title": "JSON strings round trip", "statement": "A string written by the JSON encoder is valid UTF-8 and is read back by the tokenizer as the same string.", "quantifier": "all strings", "why_tests_cant": "1.1 million code points in any combination; failures are at rarely tested code points", "anchors": ["src/core/json/encoder.rs:write_ch, emit_utf8_string (L33-92)", "src/core/json/tokenizer.rs:match_string, string_control_char (L226-297)"]}
{"id": "C33", "title": "JSON integers round trip", "statement": "Every value of every integer type is written as a number token that parses back to the same value.", "quantifier": "all values of u8..u128 and i8..i128", "why_tests_cant": "2^128 values", "anchors": ["src/core/json/encoder.rs:number emitters (L98-249)", "src/core/json/decoder.rs:parse_primitive_number (L291-310)", "src/core/json/tokenizer.rs:match_number (L309-354)"]}
{"id": "C34", "title": "JSON document round trip", "statement": "For a value of a type, JsonEncoder::encode followed by JsonDecoder::parse for the same type succeeds and yields a data source that contains exactly the leaves of the value.", "quantifier": "all types, all values", "why_tests_cant": "unbounded nesting and contents", "anchors": ["src/core/json/encoder.rs:JsonEncoder (L255-420)", "src/core/json/decoder.rs:JsonDecoder (L457-538)"]}
{"id": "C35", "title": "Decoder output conforms to the type", "statement": "If JsonDecoder::parse returns Ok, the data source holds exactly the leaves of some value of the type: all components of the active cases, with the right kinds, and nothing else.", "quantifier": "all types, all input strings", "why_tests_cant": "infinite input space", "anchors": ["src/core/json/decoder.rs:parser_for_type, StructParser, EnumParser, TupleParser, PrimitiveParser (L89-538)"]}
{"id": "C36", "title": "Field order and white space do not matter", "statement": "Two documents that differ only in the order of struct fields or in white space between tokens decode to the same data.", "quantifier": "all types, documents and permutations", "why_tests_cant": "factorially many orders", "anchors": ["src/core/json/decoder.rs:StructParser (L89-151)", "src/core/json/tokenizer.rs:skip_whitespace (L170-180)"]}
{"id": "C37", "title": "Missing, duplicate and unknown fields are rejected", "statement": "A struct document is accepted only if it assigns every field exactly once and no other name.", "quantifier": "all struct types and all documents", "why_tests_cant": "all subsets and multisets of fields", "anchors": ["src/core/json/decoder.rs:StructParser, BitSet (L64-151)"]}
{"id": "C38", "title": "The decoder never panics", "statement": "JsonDecoder::parse returns Ok or Err for every type and every input.", "quantifier": "all types, all strings", "why_tests_cant": "needs a surrogate escape or a struct with 64 or more fields", "anchors": ["src/core/json/tokenizer.rs:string_control_char (L226-267)", "src/core/json/decoder.rs:BitSet (L64-81)"]}
{"id": "C39", "title": "Only complete documents are accepted", "statement": "JsonDecoder::parse accepts an input only if nothing but white space follows the document.", "quantifier": "all strings", "why_tests_cant": "all suffixes", "anchors": ["src/core/json/decoder.rs:JsonDecoder::parse (L518-538)"]}
{"id": "C40", "title": "Malformed escapes are rejected", "statement": "A string containing \\u not followed by four hexadecimal digits is rejected.", "quantifier": "all strings", "why_tests_cant": "all malformed variants", "anchors": ["src/core/json/tokenizer.rs:string_control_char (L226-267)"]}
{"id": "C41", "title": "The tokenizer makes progress", "statement": "Each call to next either consumes at least one character, reports end of input, or returns an error; tokenizing terminates on every input.", "quantifier": "all strings", "why_tests_cant": "infinite", "anchors": ["src/core/json/tokenizer.rs:JsonTokenizer::next (L368-404)"]}
{"id": "C42", "title": "Accepted numbers follow the number grammar", "statement": "Every number token is an optional minus, an integer part without leading zeros, an optional fraction and an optional exponent.", "quantifier": "all strings", "why_tests_cant": "infinite", "anchors": ["src/core/json/tokenizer.rs:match_number (L309-354)"]}
{"id": "C43", "title": "JSON to binary to JSON", "statement": "Parsing a JSON document, marshalling the result into a buffer, and emitting JSON from the buffer gives the same text as emitting JSON from the parsed data directly.", "quantifier": "all types, all accepted documents", "why_tests_cant": "composition of three unbounded components", "anchors": ["src/core/json/decoder.rs:JsonDecoder", "src/core/marshaller.rs:encode_with_source, MarshallerDataSource", "src/core/json/encoder.rs:JsonEncoder"]}
{"id": "C44", "title": "Location packing is lossless", "statement": "A Location built from a volume index and an in-range offset returns the same two parts, distinct pairs give distinct locations, and an offset that does not fit is refused by a panic.", "quantifier": "all volume indices and all 64-bit offsets", "why_tests_cant": "2^72 pairs", "anchors": ["src/storage/mod.rs:Location (L218-255)"]}
{"id": "C45", "title": "File block counts", "statement": "calc_file_blocks returns the least number of blocks that holds the given number of bytes.", "quantifier": "all sizes and block sizes", "why_tests_cant": "2^128 pairs", "anchors": ["src/storage/utils.rs:calc_file_blocks (L23-27)"]}
{"id": "C46", "title": "Buffer lists behave as sequences", "statement": "On any set of well-formed disjoint buffer lists, push_front, push_back and remove change exactly the list concerned, as cons, append and erase of a sequence would, forward and backward links stay consistent, and other lists are unaffected.", "quantifier": "all pool sizes, all list contents, all finite histories", "why_tests_cant": "pointer structure invariants over unbounded histories", "anchors": ["src/storage/mod.rs:BufferList::list_push_front, list_push_back, list_remove (L1153-1205)"]}
{"id": "C47", "title": "A new pool has every buffer available once", "statement": "BufferPool::new makes an available list that contains each buffer exactly once and no other list contains any.", "quantifier": "all pool sizes", "why_tests_cant": "all sizes; overflow at index 0", "anchors": ["src/storage/mod.rs:BufferPool::new (L802-846)"]}
{"id": "C48", "title": "A location always denotes the same buffer", "statement": "Once a location has been given a buffer, every later access to that location is given the same buffer.", "quantifier": "all access and release histories", "why_tests_cant": "unbounded histories", "anchors": ["src/storage/mod.rs:BufferPool::buffer_access (L929-1002)"]}
{"id": "C49", "title": "Different live locations never share a buffer", "statement": "Two handles that are outstanding at the same time for different locations refer to different buffers.", "quantifier": "all access and release histories", "why_tests_cant": "requires reuse after eviction", "anchors": ["src/storage/mod.rs:BufferPool::buffer_access (L929-1002)"]}
{"id": "C50", "title": "Acquire and release keep the free list intact", "statement": "After any history of accesses and releases the available, dirty and in-use lists partition the buffers.", "quantifier": "all pool sizes, all histories", "why_tests_cant": "unbounded histories", "anchors": ["src/storage/mod.rs:buffer_access, release_read_only, release_read_write (L929-1118)"]}
{"id": "C51", "title": "An exhausted pool waits", "statement": "When every buffer is in use an access to a new location waits for a release instead of panicking.", "quantifier": "all pool sizes", "why_tests_cant": "needs exhaustion", "anchors": ["src/storage/mod.rs:buffer_access (L929-1002)"]}
{"id": "C52", "title": "Written data is not lost while buffered", "statement": "Data written through a read-write handle and released is what the next access to the same location sees.", "quantifier": "all histories", "why_tests_cant": "needs release followed by re-access before write back", "anchors": ["src/storage/mod.rs:access_read_only, access_read_write (L860-927), buffer_access"]}
{"id": "C53", "title": "Handle counts are exact", "statement": "A buffer's recorded number of handles always equals the number of outstanding handles on it, the lock is returned to the free locks exactly when it reaches zero, and releasing never underflows.", "quantifier": "all histories of accesses and releases", "why_tests_cant": "unbounded histories", "anchors": ["src/storage/mod.rs:buffer_access, release_read_only, release_read_write (L929-1118)"]}
{"id": "C54", "title": "Lock hand-over is safe under concurrency", "statement": "In every interleaving of concurrent accesses and releases, a lock taken from the free locks is not held by anyone, so taking it for initialisation does not fail, and a read-write handle excludes all other handles of that buffer.", "quantifier": "all interleavings", "why_tests_cant": "schedules", "anchors": ["src/storage/mod.rs:buffer_access, BufferAccessRead/Write::release (L929-1285)"]}
{"id": "C55", "title": "Volume metadata regions are disjoint", "statement": "The header block, file table, file table mirror and allocation bitmap written by volume creation occupy disjoint, block aligned byte ranges inside the volume.", "quantifier": "all volume parameters", "why_tests_cant": "all sizes", "anchors": ["src/storage/mod.rs:VolumeManager::create (L394-608)"]}
{"id": "C56", "title": "The allocation bitmap marks exactly the free blocks", "statement": "In the bitmap written by volume creation the bit of a block is set exactly when the block exists and is not used by metadata.", "quantifier": "all volume sizes and metadata sizes", "why_tests_cant": "bit boundaries in every combination", "anchors": ["src/storage/mod.rs:VolumeManager::create bitmap loop (L520-590)"]}
{"id": "C57", "title": "Default parameters have the documented sizes", "statement": "Volumes created with default parameters use 4096-byte blocks.", "quantifier": "all sizes passed to new_with_defaults", "why_tests_cant": "a constant computed with an off-by-one", "anchors": ["src/storage/mod.rs:VolumeParameters::new_with_defaults, LOG_BLOCK_SIZE (L31-216)"]}
{"id": "C58", "title": "Volume indices are unique", "statement": "Indices handed out by a manager are distinct, and when all 255 are taken the request fails with an error.", "quantifier": "all histories", "why_tests_cant": "needs 256 creations", "anchors": ["src/storage/mod.rs:next_volume (L381-391)"]}
{"id": "C59", "title": "Names compare without regard to case", "statement": "Name equality is an equivalence, ordering is a total order consistent with it, and both depend only on the upper-case form.", "quantifier": "all strings, any upper-casing function", "why_tests_cant": "all Unicode strings", "anchors": ["src/sql/symbols.rs:Name (impl PartialEq, Ord)"]}
{"id": "C60", "title": "Schema catalogue", "statement": "After any sequence of create_schema calls a schema exists exactly if its name was created up to case, creating an existing one fails and changes nothing, the catalogue holds each exactly once, and describe returns the columns of exactly the existing objects.", "quantifier": "all call sequences", "why_tests_cant": "unbounded histories", "anchors": ["src/sql/schema.rs:Database::create_schema, describe (L42-93)"]}
{"id": "C61", "title": "Table names resolve to the nearest definition", "statement": "A one-part name resolves to the common table expression of that name if there is one and otherwise to the default schema; a two-part name resolves in the named schema only; other names and unknown tables are errors. The row type of a table of the catalogue has its columns in order with their names and types, and a column can be NULL exactly if it is not NOT NULL.", "quantifier": "all contexts and names", "why_tests_cant": "unbounded contexts", "anchors": ["src/sql/ast/typing.rs:SetContext::resolve_table_name (L856-903), RowType::from (L753-783)"]}
{"id": "C62", "title": "Scalar type inference is sound for values", "statement": "If an expression is given a scalar type, then in every environment whose columns hold values of their declared types every value the expression can produce has that type, and it is never NULL if the type is marked not null.", "quantifier": "all expressions, contexts and environments", "why_tests_cant": "unbounded expressions and data", "anchors": ["src/sql/ast/typing.rs:Expression::infer_type, ScalarType::unify, is_compatible (L35-655)"]}
{"id": "C63", "title": "CASE conditions are checked", "statement": "An accepted CASE expression has only logical conditions.", "quantifier": "all expressions", "why_tests_cant": "unbounded", "anchors": ["src/sql/ast/typing.rs:Expression::infer_type Case arm (L540-640)"]}
{"id": "C64", "title": "Type inference never panics", "statement": "infer_type returns Ok or Err for every expression and context.", "quantifier": "all expressions and contexts", "why_tests_cant": "needs CASE with tuple bodies, an empty IN list, or a missing default schema", "anchors": ["src/sql/ast/typing.rs:Expression::infer_type (L242-655), SetSpecification::infer_type (L1250-1289)"]}
{"id": "C65", "title": "Accepted UPDATE statements are safe", "statement": "An accepted UPDATE names an existing table and distinct existing columns, each new value has the type of its column and is not nullable for a NOT NULL column, and the WHERE clause is logical.", "quantifier": "all statements and schemas", "why_tests_cant": "unbounded", "anchors": ["src/sql/ast/typing.rs:UpdateStatement::validate_type (L1446-1512)"]}
{"id": "C66", "title": "Accepted INSERT statements are safe", "statement": "An accepted INSERT names an existing table; each target column exists and is given once; the source has a value for each target of its type; every NOT NULL column receives a non-null value.", "quantifier": "all statements and schemas", "why_tests_cant": "unbounded", "anchors": ["src/sql/ast/typing.rs:InsertStatement::validate_type (L1362-1444)"]}
{"id": "C67", "title": "Result columns have distinct names", "statement": "The columns of a SELECT result have pairwise different names (up to case).", "quantifier": "all column lists", "why_tests_cant": "needs a generated name that collides with an explicit one", "anchors": ["src/sql/ast/typing.rs:generate_column_name, ResultColumns::infer_type (L1093-1197)"]}
{"id": "C68", "title": "Set operations and VALUES require equal arity", "statement": "UNION, INTERSECT, EXCEPT and VALUES are accepted only when all operands have the same number of columns with compatible types.", "quantifier": "all statements", "why_tests_cant": "unbounded", "anchors": ["src/sql/ast/typing.rs:SetExpression::infer_type (L925-1091)"]}
{"id": "C69", "title": "Accepted DELETE statements are safe", "statement": "An accepted DELETE names an existing table and has a logical WHERE clause over its columns.", "quantifier": "all statements and schemas", "why_tests_cant": "unbounded", "anchors": ["src/sql/ast/typing.rs:DeleteStatement::validate_type (L1514-1539)"]}
{"id": "C70", "title": "Identifier case is irrelevant to type checking", "statement": "Changing the case of identifiers in a statement does not change whether it is accepted or the inferred types.", "quantifier": "all expressions and respellings", "why_tests_cant": "unbounded", "anchors": ["src/sql/ast/typing.rs:infer_type", "src/sql/symbols.rs:Name"]}
{"id": "C71", "title": "A text has one reading", "statement": "The type lexer splits a text into terminals in the only way in which each terminal is as long as possible and white space is ignored between terminals, and the type parser returns a type exactly when these terminals are derived from it.", "quantifier": "all texts", "why_tests_cant": "infinite input space; keyword prefixes and digits in words", "anchors": ["src/core/types/parser.lalrpop (L29-105)"]}
{"id": "C72", "title": "Storage alignment functions round up", "statement": "align_u8, align_u16, align_u32, align_u64, align_usize and align_u128 return the least multiple of a power of two that is not below the value, unless the sum of the two does not fit, which panics with overflow checks.", "quantifier": "all widths, values and alignments", "why_tests_cant": "2^256 pairs", "anchors": ["src/storage/utils.rs (L27-49)"]}
{"id": "C73", "title": "Volume creation completes", "statement": "VolumeManager::create returns an index for parameters it accepts when the file can be created.", "quantifier": "all parameters and buffer pools", "why_tests_cant": "there is no test; needs a buffer of exactly 48 bytes", "anchors": ["src/storage/mod.rs:VolumeManager::create (L394-608)", "src/storage/mod.rs:init_file_header (L257-347)"]}
{"id": "C74", "title": "File headers describe the file size", "statement": "The number of used blocks and of bytes used in the last block stored in a file header determine the size of the file.", "quantifier": "all sizes and block sizes", "why_tests_cant": "boundary at full blocks", "anchors": ["src/storage/mod.rs:init_file_header (L275-276)"]}
{"id": "C75", "title": "Timestamps represent the clock", "statement": "A file header can be made at every time of the clock, and its timestamp has the seconds in the upper 48 bits and the fraction in the lower 16 bits.", "quantifier": "all times", "why_tests_cant": "depends on the clock", "anchors": ["src/storage/mod.rs:init_file_header (L277-282)"]}
{"id": "C76", "title": "The pool panics only in the listed situations", "statement": "In every state that any interleaving of accesses, loads, writes, releases and drops can reach, the next step panics exactly if a new location is wanted while the last available buffer is still in use, or the free lock to be taken is still held by a task that has not dropped its guard yet, or fetching the block fails; releasing never panics.", "quantifier": "all pool sizes, all interleavings of fewer than 2^32 tasks", "why_tests_cant": "schedules and unbounded histories", "anchors": ["src/storage/mod.rs:buffer_access, release_read_only, release_read_write, list operations (L929-1205)"]}
{"id": "C77", "title": "Query results have the inferred row type", "statement": "Every row that a query returns has, column by column, values of the types inferred for the result, and no NULL in a column marked not null, if the tables hold values of their declared types.", "quantifier": "all queries, engines, catalogues and table contents", "why_tests_cant": "unbounded queries and data; needs an evaluator", "anchors": ["src/sql/ast/typing.rs:SelectStatement, SetExpression, TableExpression, ResultColumns::infer_type (L925-1248, L1335-1360)"]}
{"id": "C78", "title": "Accepted statements keep tables well typed", "statement": "Executing an accepted INSERT, UPDATE or DELETE on a table whose rows match its declared columns leaves a table whose rows match them.", "quantifier": "all statements, engines, catalogues and table contents", "why_tests_cant": "unbounded data; there is no execution to test", "anchors": ["src/sql/ast/typing.rs:InsertStatement, UpdateStatement, DeleteStatement::validate_type (L1362-1539)"]}
{"id": "C79", "title": "Names in a query denote columns of its relations", "statement": "A FROM clause is accepted exactly if its tables exist and its relations have different names; in the rest of the query an unqualified name has a type exactly if one column has that name, a qualified name exactly if the relation has that column, and it is the type of that column.", "quantifier": "all FROM clauses and names", "why_tests_cant": "unbounded clauses; collisions between relation and column names", "anchors": ["src/sql/ast/typing.rs:ScalarContext::add_relation, infer_type (L151-239), TableExpression::infer_type (L1199-1248)"]}
{"id": "C80", "title": "IN accepts operands of the same type", "statement": "An IN expression whose left side has the type of the only column of its right side is accepted.", "quantifier": "all expressions and sets", "why_tests_cant": "the accepted cases hide the rejected ones", "anchors": ["src/sql/ast/typing.rs:Expression::infer_type In arm (L612-640), ScalarType::is_compatible (L35-76)"]}
{"id": "C81", "title": "WITH names can be used in the query", "statement": "A query can select from the common table expressions defined by its WITH clause, and later ones from earlier ones.", "quantifier": "all contexts and queries", "why_tests_cant": "needs queries from common table expressions; a table of the same name hides the fault", "anchors": ["src/sql/ast/typing.rs:SelectStatement::infer_type (L1335-1360), SetContext::initialize (L906-922)"]}
{"id": "C82", "title": "ORDER BY can use the columns of the query", "statement": "A term of an ORDER BY clause can name a column of the result.", "quantifier": "all queries", "why_tests_cant": "all names are rejected", "anchors": ["src/sql/ast/typing.rs:SelectStatement::infer_type (L1345-1352), Ordering::validate_type (L1541-1552)"]}
{"id": "C83", "title": "Columns of a subquery can be used", "statement": "The columns of a subquery in FROM are known in the rest of the query, under the alias of the subquery if it has one.", "quantifier": "all subqueries and names", "why_tests_cant": "all names are rejected", "anchors": ["src/sql/ast/typing.rs:TableExpression::infer_type Select arm (L1226-1232)"]}
{"id": "C84", "title": "Join conditions are checked", "statement": "An accepted join has a logical ON condition over known columns, and USING names columns of both sides.", "quantifier": "all joins", "why_tests_cant": "conditions are never looked at", "anchors": ["src/sql/ast/typing.rs:TableExpression::infer_type Join arm (L1233-1246)"]}
{"id": "C85", "title": "Column lists of common table expressions rename", "statement": "The column list of a common table expression names the columns of its query in order.", "quantifier": "all queries and column lists", "why_tests_cant": "works when the names are the same", "anchors": ["src/sql/ast/typing.rs:CommonTableExpression::infer_type (L1588-1620)"]}
{"id": "C86", "title": "relation.* lists the columns of the relation in order", "statement": "The columns that relation.* contributes to a result are those of the relation, with their types, in the order of the table.", "quantifier": "all FROM clauses", "why_tests_cant": "works when the columns are in alphabetical order", "anchors": ["src/sql/ast/typing.rs:ResultColumns::infer_type (L1134-1160)"]}
{"id": "C87", "title": "The SQL parser always returns", "statement": "SqlStatementParser::parse returns for every text, without panic, after a number of rounds of its state machine that is linear in the number of words.", "quantifier": "all texts", "why_tests_cant": "infinite input space; a cycle of reductions needs particular state and lookahead", "anchors": ["src/sql/parser.rs:SqlStatementParser::parse (L1972-1987), __reduce (L1988-3550), __action, __goto"]}
{"id": "C88", "title": "The SQL parser accepts exactly its grammar", "statement": "A text is parsed successfully exactly if its words are a statement of the grammar in parser.lalrpop, and the result is the value the grammar gives it.", "quantifier": "all texts and statements", "why_tests_cant": "infinite input space; 329 states and 224 productions", "anchors": ["src/sql/parser.rs:parser tables and __action functions", "src/sql/parser.lalrpop"]}
{"id": "C89", "title": "The SQL grammar is unambiguous", "statement": "A sequence of words has at most one value as a statement.", "quantifier": "all sequences of words", "why_tests_cant": "infinite input space", "anchors": ["src/sql/parser.lalrpop"]}
{"id": "C90", "title": "Syntax errors are reported at the right word", "statement": "The reported word is the first at which the text is no longer the beginning of any statement; the end of the text is reported exactly if the text is a proper beginning of a statement; a character is reported as no word only if everything before it is the beginning of a statement.", "quantifier": "all texts", "why_tests_cant": "infinite input space; quantifies over all continuations", "anchors": ["src/sql/parser.rs:SqlStatementParser::parse (L1972-1987)"]}
{"id": "C91", "title": "A SQL text has one division into words", "statement": "The lexer divides a text into the longest words, keywords before identifiers, with white space between them; texts and offsets of the words are those in the text.", "quantifier": "all texts", "why_tests_cant": "infinite input space", "anchors": ["src/sql/parser.rs:__intern_token::new_builder (L7443-7531)"]}
{"id": "C92", "title": "The list of expected words is right", "statement": "The list of expected words of a syntax error names exactly the kinds of words with which the text before the error can go on.", "quantifier": "all texts", "why_tests_cant": "needs a reduction with a merged lookahead", "anchors": ["src/sql/parser.rs:__expected_tokens (L1655-1764)"]}
{"id": "C93", "title": "Keyword case, white space and identifier case", "statement": "Texts whose words differ only in the spelling of keywords and in the white space between the words are the same statement; if identifiers differ in case only, both are statements and validation has the same outcome.", "quantifier": "all texts", "why_tests_cant": "infinite input space", "anchors": ["src/sql/parser.rs:SqlStatementParser::parse (L1972-1987), __intern_token::new_builder (L7443-7531)", "src/sql/parser.lalrpop"]}
{"id": "C94", "title": "No text panics", "statement": "Parsing any text and validating the statement it is returns without panic if the context has its default schema.", "quantifier": "all texts and contexts", "why_tests_cant": "infinite input space; needs an empty IN list or a tuple after THEN", "anchors": ["src/sql/parser.rs:SqlStatementParser::parse (L1972-1987)", "src/sql/ast/typing.rs:SqlStatement::validate_type"]}
{"id": "C95", "title": "Operators accept exactly operands of their types", "statement": "An expression has a type exactly if the rules of its operators give it one: arithmetic on numbers, concatenation and LIKE on strings, AND, OR and NOT on truth values, equality on the same types, order and BETWEEN on the same type with an order; LIMIT and OFFSET are numbers that cannot be NULL.", "quantifier": "all expressions and contexts", "why_tests_cant": "unbounded expressions", "anchors": ["src/sql/ast/typing.rs:Expression::infer_type (L242-655), Limit::validate_type (L1554-1586)"]}
{"id": "C96", "title": "Statements can be written as text and read back", "statement": "Every statement has a text that the parser maps back to it, and different statements have different texts.", "quantifier": "all statements of the syntax tree", "why_tests_cant": "unbounded statements; priorities of operators in every combination", "anchors": ["src/sql/parser.lalrpop", "src/sql/parser.rs:SqlStatementParser::parse (L1972-1987)"]}
{"id": "C97", "title": "DESCRIBE, ATTACH and EXPLAIN", "statement": "The words of DESCRIBE and ATTACH FILE give the name and the path of the statement, the name always has one or two parts so that schema_name and table_name do not panic, DESCRIBE is accepted exactly if the table exists, and EXPLAIN of a statement is accepted exactly if the statement is.", "quantifier": "all texts and contexts", "why_tests_cant": "infinite input space", "anchors": ["src/sql/parser.lalrpop", "src/sql/ast/mod.rs:AttachStatement, DescribeStatement (L127-200)", "src/sql/ast/typing.rs:SqlStatement::validate_type (L1291-1333)"]}
{"id": "C98", "title": "File headers have their own places", "statement": "The header with a given index in a file table occupies the bytes at index times the header size from the start of the table, is written within one block, and shares no byte with another header of the table or of its mirror.", "quantifier": "all volume parameters and indices", "why_tests_cant": "all sizes", "anchors": ["src/storage/mod.rs:init_file_header (L257-273)"]}
{"id": "C99", "title": "Buffers do not share memory", "statement": "The slices of the buffers of a pool are inside the mapped memory, have the size of a buffer and have no byte in common, and every byte of the memory belongs to a buffer.", "quantifier": "all buffer sizes and numbers of buffers", "why_tests_cant": "all sizes; the wrapped product needs 2^64 bytes", "anchors": ["src/storage/mod.rs:BufferPool::new (L808), total_size (L853-856), writable_slice, readable_slice (L1132-1142)"]}
{"id": "C100", "title": "No name, number or string of a text is lost", "statement": "The names, numbers and strings of a text, in their order, are those of the statement it is parsed to.", "quantifier": "all texts", "why_tests_cant": "infinite input space; needs two texts of the same statement", "anchors": ["src/sql/parser.lalrpop:Statement, InsertStatement, DeleteStatement, UpdateStatement (L144-170)", "src/sql/parser.rs:SqlStatementParser::parse (L1972-1987)"]}
{"id": "C101", "title": "Synonyms and optional words make no difference", "statement": "Leaving out OUTER, INNER and ASC, writing IS NULL for ISNULL, IS NOT NULL for NOTNULL, and a comma for OFFSET, everywhere in a text, gives a text of the same statement.", "quantifier": "all texts", "why_tests_cant": "infinite input space", "anchors": ["src/sql/parser.lalrpop", "src/sql/parser.rs:SqlStatementParser::parse (L1972-1987)"]}
{"id": "C102", "title": "Assignability is inclusion of values", "statement": "An attribute is assignable to another exactly if every value of the first, NULL included, is a value of the second.", "quantifier": "all attributes and engines", "why_tests_cant": "needs the meaning of types", "anchors": ["src/sql/ast/typing.rs:Attribute::is_assignable_to (L741-743)"]}
{"id": "C103", "title": "Damaged pages do not cause accesses outside the page", "statement": "Whatever bytes a page holds, initialize_page, num_rows, get_row, max_insert_row_size, append_row, insert_row and remove_row return or panic and never access memory outside the page, rows that are read lie in the page, and the length of the page is kept.", "quantifier": "all byte contents, page sizes, alignments and calls", "why_tests_cant": "pages written by the code itself never show it; a bad offset can be anything", "anchors": ["src/core/nsm.rs:insert_row, remove_row (unsafe blocks L114-118, L159-163), get_row, append_row (L39-207)"]}
{"id": "C104", "title": "Damaged records do not cause accesses outside them", "statement": "Whatever bytes are read as an encoded value of a type, the readers and encoding_size return or panic and never access memory outside the bytes, and what they return is a value of the type.", "quantifier": "all types, byte strings and paths", "why_tests_cant": "encoded values never show it; lengths and tags can be anything", "anchors": ["src/core/marshaller.rs:get_primitive, get_bytes, get_case_tag, get_length, variable_field_offset, encoding_size (L409-490, L705-923; unsafe blocks)"]}
{"id": "C105", "title": "Overflow checks only turn results into panics", "statement": "Whatever a function computes in the debug build, it computes in the release build as well: with overflow checks it either panics or does exactly the same as without them, be it a result, an error, a panic or undefined behaviour.", "quantifier": "all functions that calculate with machine integers, all arguments, histories and schedules", "why_tests_cant": "the release build is not tested, and results that differ need values at the edge of a machine word", "anchors": ["src/core/nsm.rs", "src/core/marshaller.rs", "src/core/json/decoder.rs", "src/core/json/encoder.rs", "src/storage/mod.rs", "src/storage/utils.rs"]}
{"id": "C106", "title": "Records on a page", "statement": "Values that are encoded and stored as rows of a page are read back from the page: after any history of append_row, insert_row and remove_row calls that have room, the rows read through the Marshaller are the values that a list would hold, their fields are aligned if the alignment of the page is a multiple of that of the layout, and JSON documents stored in this way are written as they would be without the page.", "quantifier": "all types that can be encoded, all values, page sizes and histories", "why_tests_cant": "composition of unbounded components", "anchors": ["src/core/nsm.rs:append_row, insert_row, remove_row, get_row (L39-207)", "src/core/marshaller.rs:encode_with_source, Marshaller (L514-923)", "src/core/json/decoder.rs:JsonDecoder", "src/core/json/encoder.rs:JsonEncoder"]}
{"id": "C107", "title": "The numbers in a page decide what the calls do", "statement": "Whatever bytes a page holds, the number of rows and the offsets stored in it decide exactly when get_row, max_insert_row_size, append_row, insert_row and remove_row return; get_row, max_insert_row_size and append_row do the same with and without overflow checks and their results are the bytes at the stored offsets.", "quantifier": "all byte contents of pages below 2^63 bytes, power-of-two alignments and calls", "why_tests_cant": "pages written by the code itself never show it; every offset can be anything", "anchors": ["src/core/nsm.rs:get_row, append_row, insert_row, remove_row, max_insert_row_size (L64-187)"]}
{"id": "C108", "title": "The writer gets the whole document", "statement": "Whatever writer JsonEncoder::encode is given, when it returns Ok the writer has taken the whole document, and an interrupted call is tried again.", "quantifier": "all types, data sources, and writers, that is all sequences of results of write", "why_tests_cant": "the tests write to a Vec<u8>, which takes everything at once", "anchors": ["src/core/json/encoder.rs:write_ch, emit_utf8_string (L33-92), JsonEncoder::encode (L404-406)"]}
{"id": "C109", "title": "Writing ends and keeps the order", "statement": "Whatever the writer, JsonEncoder::encode returns Ok only if every field could be read and panics only if reading a field does; it asks the writer at most once for each byte of the document, apart from interrupted calls; with a writer that takes what it is offered, the bytes written when an error is returned are a beginning of the document, and a Vec<u8> gets the document.", "quantifier": "all types, data sources and writers", "why_tests_cant": "needs writers that fail at every possible place", "anchors": ["src/core/json/encoder.rs:JsonEmitter implementations (L94-249), JsonEncoder::encode (L404-406)"]}
{"id": "C110", "title": "Page functions follow aligned pointers", "statement": "Whatever slice of bytes the functions for pages are given, the pointers to machine words that they follow are aligned.", "quantifier": "all page contents, addresses, alignments and calls", "why_tests_cant": "a test passes if the allocator or the machine is lenient", "anchors": ["src/core/util.rs:set_value, get_value (L156-174)", "src/core/nsm.rs:initialize_page, num_rows, get_row, append_row, insert_row, remove_row, max_insert_row_size (L39-207)"]}
{"id": "C111", "title": "The Marshaller follows aligned pointers", "statement": "Whatever type and bytes encode_with_source, encoding_size and the readers of the Marshaller are given, the pointers to machine words that they follow are aligned; in particular when the bytes are a row of a page in a buffer.", "quantifier": "all types, data sources, byte strings, addresses and paths", "why_tests_cant": "a test passes if the allocator or the machine is lenient; needs two enums with cases of different alignments", "anchors": ["src/core/marshaller.rs:encode_with_source, encoding_size, variable_field_offset (L409-666), Marshaller (L705-976)", "src/core/nsm.rs:get_row (L64-73)", "src/storage/mod.rs:writable_slice, readable_slice (L1132-1142)"]}
{"id": "C112", "title": "The JSON tokenizer keeps to its text", "statement": "Tokenizer::value never panics, whatever calls of next came before and whether they returned Ok or Err; what it returns for a string or a number is the text of the token, and otherwise a part of the input; the text that is left is always the end of the input.", "quantifier": "all texts and sequences of calls of next", "why_tests_cant": "the byte positions need characters of several bytes and errors in every place", "anchors": ["src/core/json/tokenizer.rs:Tokenizer::new, next, value (L139-404)"]}
{"id": "C113", "title": "The JSON tokenizer after an error", "statement": "After next has returned Err the token is Error, value returns the text at fault, and further calls of next come to the end of the input.", "quantifier": "all texts and sequences of calls of next", "why_tests_cant": "the callers in the crate stop at the first error", "anchors": ["src/core/json/tokenizer.rs:match_keyword, string_control_char, match_string, match_number, next (L193-404)"]}
{"id": "C114", "title": "A failed parse leaves the data source alone", "statement": "When JsonDecoder::parse returns Err, the data source is as it was before the call.", "quantifier": "all types, texts and earlier contents of the data source", "why_tests_cant": "the tests look at the data source only after Ok", "anchors": ["src/core/json/decoder.rs:JsonDecoder::parse, parser_for_type and all parsers (L89-537)", "src/core/data_source.rs:IntermediateDataSource (L119-142)"]}
{"id": "C115", "title": "A task that ends early does not disturb the others", "statement": "When a task panics or is dropped while it waits for a buffer, loads it or holds a handle, the buffer pool stays consistent for the other tasks: handle counts, exclusion of writers, the buffer of a location, the contents of buffers and the situations in which a step panics are as if the task had released what it had.", "quantifier": "all interleavings of any number of tasks, with panics and drops at any point, and all results of fetch", "why_tests_cant": "cancellation and unwinding at every await point are not reached by unit tests", "anchors": ["src/storage/mod.rs:BufferPool::access_read_only, access_read_write, access_initialize (L860-927)", "src/storage/mod.rs:BufferPool::buffer_access (L929-1002)", "src/storage/mod.rs:Drop for ReadOnlyBufferHandle, ReadWriteBufferHandle (L1237-1243, L1279-1285)"]}
{"id": "C116", "title": "The encoder accepts exactly the sources that present a value of the type", "statement": "encode_with_source succeeds for some buffer if and only if the answers of the data source are those for a value of the type whose strings are shorter than 4 GiB (and, with overflow checks, whose tags fit their place in the container). With overflow checks, what it wrote into a buffer of the announced size reads back as this value.", "quantifier": "all types, all data sources with any answers whatever, all buffers", "why_tests_cant": "a data source is any implementation of the trait; tests use one", "anchors": ["src/core/marshaller.rs:encode_with_source, copy_bytes (L514-680)"]}
{"id": "C117", "title": "The JSON tokenizer takes the longest token", "statement": "Tokenizer::next returns a token and leaves a rest exactly when the text is white space, a text of the token and the rest, where the rest does not begin with a letter or digit after null, true and false, and not with a character that could continue a number after a number; every text has at most one such token, and otherwise next returns an error (or panics at an escaped surrogate).", "quantifier": "all texts", "why_tests_cant": "unbounded texts; the follow conditions differ for every part of a number", "anchors": ["src/core/json/tokenizer.rs:next, match_keyword, match_number, match_string (L177-404)"]}
{"id": "C118", "title": "Slices of a buffer do not conflict", "statement": "In every state of every execution there are no two slices of the same buffer, obtained with buffer_ref or buffer_mut, of which one is mutable, and what is seen through a slice changes only through this slice.", "quantifier": "all pools, all tasks, all interleavings, also with tasks that panic or are dropped", "why_tests_cant": "the conflict needs a slice that is used after its handle was released, and another task that holds the buffer at that time", "anchors": ["src/storage/mod.rs:buffer_ref (L1221-1223, L1258-1260)", "src/storage/mod.rs:buffer_mut (L1263-1265)", "src/storage/mod.rs:writable_slice, readable_slice (L1132-1142)"]}
{"id": "C119", "title": "Waiting for a buffer ends", "statement": "In every state of every execution in which some task waits for, loads or holds a buffer, some task can go on; a waiting task can be let in by what the others do to return their handles; and if tasks only go on with what they are doing, then after at most three events for each of them all are without a handle.", "quantifier": "all pools, all numbers of tasks, all interleavings, also with tasks that have panicked or were dropped and with any behaviour of fetch", "why_tests_cant": "a deadlock shows up as a test that hangs in one interleaving; that there is none is a statement about all of them", "anchors": ["src/storage/mod.rs:access_read_only, access_read_write, access_initialize (L860-927)", "src/storage/mod.rs:buffer_access (L929-1002)", "src/storage/mod.rs:release_read_only, release_read_write (L1005-1118)", "src/storage/mod.rs:release (L1226-1235, L1268-1277)"]}
{"id": "C120", "title": "Only the tables that are named matter", "statement": "Whether a statement is accepted, its row type, and the error or panic otherwise, depend only on what the table names in the statement and its common table expressions resolve to: with two catalogues of which describe says the same about these tables the outcome is the same. In particular a new schema or table changes nothing for the statements that do not name it.", "quantifier": "all statements, all pairs of catalogues", "why_tests_cant": "a test has one catalogue; an accidental look at another table shows up only when a second one differs just there", "anchors": ["src/sql/ast/typing.rs:SetContext::resolve_table_name (L856-903)", "src/sql/ast/typing.rs:SetContext::initialize (L906-922)", "src/sql/ast/typing.rs:validate_type (L1291-1539)", "src/sql/schema.rs:Database::describe (L74-93)"]}
{"id": "C121", "title": "Encoding writes exactly the bits of the value", "statement": "Encoding a value sets a fixed set of bits, the same for all buffers and sources, and leaves all other bits of the buffer as they were, also inside the encoding. There are as many as the value has: the sizes of its numbers, 32 bits and the bytes for each string, and for each enum the bits that tell its cases apart. Encoding again changes nothing, and readers see the value in exactly those bytes that encoding it would not change. So two encodings of one value are equal if and only if no bits are left over; in general they differ.", "quantifier": "all types and values that fit, all buffers of sufficient size, all bytes to read from", "why_tests_cant": "what is left of the old contents shows only if the buffer is not zero, and tests start from zeroed buffers; that readers look at no other bit is a statement about all other contents", "anchors": ["src/core/marshaller.rs:encode_with_source, copy_bytes (L514-680)", "src/core/marshaller.rs:Marshaller::get_primitive, get_bytes, get_case_tag, get_length (L705-923)"]}
{"id": "C122", "title": "File records have the documented header and attributes", "statement": "init_file_header returns, and the record it wrote has the header of the file at the documented positions, followed by a list of attributes that a reader of the documented format reads as the name of the file and its extent, if it has one.", "quantifier": "all volume parameters, record sizes, names, sizes, extents and previous contents of the record", "why_tests_cant": "the only file names and record sizes a test would use are the few of a new volume; where the extent lands depends on the length of the name, and whether a reader sees it on what was in the record before", "anchors": ["src/storage/mod.rs:init_file_header (L257-348)", "src/storage/mod.rs:FileHeader, Extent and attribute codes (L95-170)"]}
{"id": "C123", "title": "The mirror copies the file table, and the bitmap blocks hold the bitmap", "statement": "Copying the file table makes every block of the mirror equal to the block of the table and changes nothing else. Writing the allocation bitmap puts bit j of the bitmap into bit j of its blocks, leaves the rest of their buffers alone and changes no other block.", "quantifier": "all volume parameters that do not overflow, all volumes, all contents of the buffers", "why_tests_cant": "that no other block changes, and that blocks do not overwrite each other, is a statement about all blocks and all sizes; tests use one size", "anchors": ["src/storage/mod.rs:VolumeManager::create (L540-605)", "src/storage/mod.rs:Location::new (L240-245)"]}
{"id": "C124", "title": "Validation needs a bounded stack", "statement": "There is a number of nested calls that is enough to validate every statement; with less room than a statement needs validation overflows the stack, and otherwise the room makes no difference.", "quantifier": "all texts, statements, contexts and limits of the number of nested calls", "why_tests_cant": "a test has statements of a few levels; the stack overflows only at a depth that no test tries, and then the process is killed", "anchors": ["src/sql/ast/typing.rs:infer_type of all implementations (L243-673, L926-1290, L1336-1361, L1589-1620)", "src/sql/ast/typing.rs:validate_type (L1291-1560)", "src/sql/parser.rs:SqlStatementParser::parse (L1972-1987)"]}
{"id": "C125", "title": "Validation takes a number of calls linear in the text", "statement": "To validate a statement, infer_type and validate_type are called at most once for each part of the statement, and at most twice for each word of its text and three times more.", "quantifier": "all texts, statements and contexts", "why_tests_cant": "a test sees an outcome, not the work; a part that is looked at twice at every level makes the work exponential in the depth, which shows only with deep statements", "anchors": ["src/sql/ast/typing.rs:infer_type of Expression, SetSpecification, SelectStatement, SetExpression, TableExpression (L924-1290, L1560-1700)", "src/sql/ast/typing.rs:validate_type (L1291-1560)", "src/sql/parser.rs:SqlStatementParser::parse (L1972-1987)"]}
{"id": "C126", "title": "Queries have few columns", "statement": "If no table that a query can name has more than w columns, the query has at most w columns for each place that columns come from, and so at most w for every two words of its text.", "quantifier": "all texts, queries and contexts whose tables have at most w columns", "why_tests_cant": "a test has few columns; a rule that doubles the columns at each level shows only in deep queries, where it exhausts the memory", "anchors": ["src/sql/ast/typing.rs:SetExpression::infer_type (L924-1091)", "src/sql/ast/typing.rs:ResultColumns::infer_type (L1114-1197)", "src/sql/ast/typing.rs:TableExpression::infer_type (L1199-1248)", "src/sql/ast/typing.rs:SelectStatement::infer_type (L1335-1360)", "src/sql/ast/typing.rs:ScalarContext::add_relation (L151-201)"]}
{"id": "C127", "title": "The decoder nests its calls no deeper than the type", "statement": "For every text the calls of parse are nested no deeper than the type, there are at most as many of them as a document of the type has values, and at most one token more is read than such a document has; a text that begins with a document takes exactly one call for each value in it, nested as the values are, and one token more than the document has.", "quantifier": "all types, texts, and builds", "why_tests_cant": "a text can be nested arbitrarily deep; a test shows only that some depth does not exhaust the stack", "anchors": ["src/core/json/decoder.rs:StructParser::parse (L89-151)", "src/core/json/decoder.rs:EnumParser::parse (L158-225)", "src/core/json/decoder.rs:TupleParser::parse (L231-265)", "src/core/json/decoder.rs:JsonDecoder::parse (L522-537)"]}
{"id": "C128", "title": "Encoding asks the data source only for what the value has", "statement": "Of a source that presents a value, encode_with_source asks for each number once, for the bytes of each string once, and for the length of each string and the tag of each enum twice and once more for each enum around it; encoding_size_with_source asks for each length and each tag once; neither asks for anything else, such as parts of cases that are not chosen. Each enum is written once and measured once for each enum around it, so that n nested enums take (n+1)(n+2)/2 calls.", "quantifier": "all types, values, sources, buffers (also too small ones), and builds", "why_tests_cant": "whether a source was asked for something does not show in the bytes; a test with a shallow value does not show that the number of calls grows with the square of the nesting", "anchors": ["src/core/marshaller.rs:Layout::encoding_size_with_source (L492-512)", "src/core/marshaller.rs:Layout::encode_with_source (L514-666)", "src/core/marshaller.rs:copy_bytes (L669-680)"]}
{"id": "C129", "title": "Every error of type checking has its reason", "statement": "If validation reports an error, then some part of the statement, other than a WHEN part, has a flaw that this error is for: a name that does not stand for a table or column, operands whose types do not fit, a column that is missing, assigned twice or of another type, and so on for each of the errors. Conversely a statement with such a part is not accepted, so that the statements accepted are exactly those without such a part and without a part at which validation panics. Four of the errors that the code can construct are never reported.", "quantifier": "all contexts, statements, and errors", "why_tests_cant": "a test checks one error for one statement; that no statement gets an error that does not apply to it, and that none with a flaw gets through, are statements about all of them", "anchors": ["src/sql/ast/typing.rs:infer_type of all implementations (L203-673, L926-1290, L1336-1361, L1589-1620)", "src/sql/ast/typing.rs:SetContext::resolve_table_name (L856-903)", "src/sql/ast/typing.rs:validate_type (L1291-1560)"]}
{"id": "C130", "title": "What follows a record does not matter", "statement": "Whatever is read from bytes, and the size found for them, is the same if further bytes follow. If bytes are found to have a size and are not fewer, then all other bytes that begin like them, up to this size, are found to have this size, the same parts are stored in them, and every question for one of these parts has the same outcome.", "quantifier": "all layouts and bytes; for the second part all types with fewer than 2^29 nodes, whatever the bytes are", "why_tests_cant": "a reader that looks beyond the record, or whose answers depend on how long the buffer is, gives the right answers as long as records are tested on their own", "anchors": ["src/core/marshaller.rs:variable_field_offset, encoding_size (L409-490)", "src/core/marshaller.rs:get_primitive, get_bytes, get_case_tag, get_length (L705-923)"]}
{"id": "C131", "title": "What type checking does not look at", "statement": "Two statements have the same outcome of type checking, acceptance, error or panic, if they differ at most in the contents of literals, the choice among operators of one kind (arithmetic; AND, OR; =, <>; <, <=, >, >=), the kind and condition of joins, ALL or DISTINCT, the set operator, collation and direction of ORDER BY, the alias of a subquery in FROM, a table alias equal to its name, EXPLAIN QUERY PLAN, and what ATTACH attaches. For literals and operators nothing more can be ignored.", "quantifier": "all statements, contexts and kinds of names", "why_tests_cant": "a test has one statement at a time; that no difference of some kind ever matters, also deep inside nested queries and together with other differences, is a statement about all pairs", "anchors": ["src/sql/ast/typing.rs:Expression::infer_type (L242-736)", "src/sql/ast/typing.rs:SqlStatement, Statement, SelectStatement, SetExpression, TableExpression (L925-1552)"]}
{"id": "C132", "title": "Declaring columns NOT NULL does not make statements wrong", "statement": "If columns of the catalogue that may be NULL are declared NOT NULL, a statement that was accepted is still accepted (for INSERT and UPDATE: if the table written to is unchanged), and the columns of a query keep their names and types, and no more of them can be NULL.", "quantifier": "all pairs of catalogues that differ in this way, all statements", "why_tests_cant": "the nullability of a column flows through every expression and nested query; tests try a few schemata, not all changes of one under all statements", "anchors": ["src/sql/ast/typing.rs:Expression::infer_type, ScalarType::is_compatible (L34-655)", "src/sql/ast/typing.rs:validate_type, infer_type of statements and queries (L740-1620)"]}
{"id": "C133", "title": "Adding cases to an enum keeps documents", "statement": "If cases with new labels are added at the end of enums of a type, every JSON document accepted before is accepted with the same data stored, no document becomes acceptable unless it holds an added case, and every value of the old type is written as the same text.", "quantifier": "all types, all ways of adding cases at any depth, all texts and values", "why_tests_cant": "a test adds a case to one type and tries a few documents", "anchors": ["src/core/json/decoder.rs:parser_for_type, EnumParser (L89-538)", "src/core/json/encoder.rs:JsonEncoder (L255-420)"]}
{"id": "C134", "title": "The alignment of a layout is its widest word", "statement": "The alignment computed for the layout of a type is the size of the widest machine word among its numbers, string lengths and tags, in all its cases, and every encoding takes a multiple of that many bytes.", "quantifier": "all types with fewer than 2^59 nodes, all data sources", "why_tests_cant": "the alignment comes out of two sorts and the packing of tags into containers; tests look at some layouts", "anchors": ["src/core/marshaller.rs:calculate_layout (L262-381)", "src/core/marshaller.rs:allocate_bitfields (L220-260)"]}
{"id": "C135", "title": "Adding cases to an enum keeps stored data", "statement": "If cases are added at the end of enums of a type, values without these cases are encoded as the same bytes, and data stored before is read alike.", "quantifier": "all pairs of types that differ in this way, all data sources, buffers and stored bytes", "why_tests_cant": "the layouts of the two types are computed independently of each other; a test compares a few values for one pair of types", "anchors": ["src/core/marshaller.rs:calculate_layout, unroll_type (L127-381)", "src/core/marshaller.rs:Layout::encode_with_source (L514-666)", "src/core/marshaller.rs:Marshaller::get_primitive, get_bytes, get_case_tag, get_length (L705-923)"]}
{"id": "C136", "title": "Grouping of components does not influence the binary format", "statement": "If two types consist of the same words, texts and choices in the same order, however these are grouped into tuples and structs and named, then values with the same contents are encoded as the same bytes, and what is stored for the one type is read as the value of the other.", "quantifier": "all pairs of types that differ in this way, at any depth and inside enum cases, all values, data sources and buffers", "why_tests_cant": "fields are found through a table sorted by path, and paths change with the grouping; a test compares a few types", "anchors": ["src/core/marshaller.rs:calculate_layout, unroll_type (L127-381)", "src/core/marshaller.rs:Layout::encode_with_source (L514-666)"]}
{"id": "C137", "title": "The order of operands does not matter to type checking", "statement": "Exchanging the operands of binary operators, the sides of comparisons (with the mirrored operator), the bounds of BETWEEN, the elements of lists after IN, the rows of VALUES (if they have the same length), at any depth, changes neither whether a statement is accepted nor the types of its results; exchanging the operands of a set operation changes only the names of its columns.", "quantifier": "all statements, catalogues and exchanges", "why_tests_cant": "the rules for the two sides are written out separately, and nullability is combined from both; a test checks one order", "anchors": ["src/sql/ast/typing.rs:Expression::infer_type (L242-655)", "src/sql/ast/typing.rs:ScalarType::is_compatible, unify (L35-119)", "src/sql/ast/typing.rs:SetExpression::infer_type (L925-1091)"]}
{"id": "C138", "title": "The order of tables, assignments and columns does not matter to type checking", "statement": "A query with the same tables and subqueries in its FROM clause, in any order and joined in any way, has the same columns (with SELECT * the same types in another order); an UPDATE is accepted in any order and grouping of its assignments, and an INSERT of rows in any order of its columns with the values in the same order.", "quantifier": "all catalogues, queries, and reorderings; for UPDATE and INSERT tables with distinct column names", "why_tests_cant": "the symbol table is built relation by relation and later ones change the entries of earlier ones (conflicts, hidden columns); the sets of assigned and missing columns are built step by step", "anchors": ["src/sql/ast/typing.rs:ScalarContext::add_relation (L151-201)", "src/sql/ast/typing.rs:TableExpression::infer_type (L1199-1248)", "src/sql/ast/typing.rs:InsertStatement::validate_type, UpdateStatement::validate_type (L1362-1512)"]}
{"id": "C139", "title": "Other names for tables and columns make no difference to type checking", "statement": "If the schemata, tables, columns and aliases are given other names throughout, in the catalogue and in a statement, where different names stay different, then the statement is accepted or rejected as before, with the same error, and the columns of a query have the same types and the new names.", "quantifier": "all catalogues, statements, and renamings that keep names (but for case) apart, keep the names given to unnamed columns, and rename a name with a number appended like the name", "why_tests_cant": "names are keys of ordered maps, so that other names mean other orders of all symbol tables; tests use a few fixed names", "anchors": ["src/sql/ast/typing.rs:ScalarContext::add_relation, infer_type (L151-239)", "src/sql/ast/typing.rs:generate_column_name (L1093-1112)", "src/sql/ast/typing.rs:ResultColumns (L1114-1197)", "src/sql/symbols.rs:Name (L30-80)"]}
{"id": "C140", "title": "Encodings are dense", "statement": "The encoding of a value takes no less than its contents, that is the bytes of its numbers and strings and four bytes for the length of every string; and at most that, one machine word for the tag of every enum value in it, and fewer bytes than the widest word of the type once and twice more for every enum value. A value without enums takes exactly its contents, rounded up to a multiple of the widest word.", "quantifier": "all types with fewer than 2^59 nodes, all values of them, all data sources that present the value", "why_tests_cant": "padding depends on the sizes of all fields, on how tags share containers, and on the alignment of nested cases; tests compare a few sizes, not a bound over all types", "anchors": ["src/core/marshaller.rs:allocate_bitfields (L220-260)", "src/core/marshaller.rs:calculate_layout (L262-381)", "src/core/marshaller.rs:encoding_size_with_source (L492-512)", "src/core/util.rs:align (L82-85)"]}
{"id": "C141", "title": "The order of components does not matter to the size of records", "statement": "If the components of tuples, the fields of structs and the cases of enums are declared in another order, at any depth, then the encoding of the corresponding value takes the same number of bytes.", "quantifier": "all pairs of types and values that differ in the order of components, all data sources that present them, all buffers", "why_tests_cant": "the layout sorts fields, shares containers between tags and pads nested cases, so that the size comes from a greedy algorithm that looks at fields one by one; tests compare a few orders", "anchors": ["src/core/marshaller.rs:allocate_bitfields (L220-260)", "src/core/marshaller.rs:calculate_layout (L262-381)", "src/core/marshaller.rs:encoding_size_with_source (L492-512)"]}
{"id": "C142", "title": "Whether records fit into a page can be told from their contents", "statement": "Records can be appended to a page and read back if the page has room for the contents of the values, one machine word for every tag and the padding of C140, each padded to the alignment of the page, and for a directory of four bytes for every row and four more. They are refused if the page has no room for the contents alone and the directory.", "quantifier": "all types, all lists of values within the limits of the format, all page sizes and alignments", "why_tests_cant": "the room depends on the layout of the type, on every value and on the rows before; tests fill a page with a few rows of fixed sizes", "anchors": ["src/core/marshaller.rs:encode_with_source (L514-679)", "src/core/nsm.rs:append_row (L75-96)"]}
{"id": "C143", "title": "Values of the same form are written to the same bits", "statement": "All values of a type that differ in numbers and in the letters of strings only, with strings as long and the same cases of enums, are encoded in as many bytes and written to the same bits. So a value encoded over another one of the same form leaves nothing of it behind, and encoding the first value again restores the bytes there were, bit for bit.", "quantifier": "all types, all pairs of values of the same form within the limits of the format, all buffers and data sources", "why_tests_cant": "which bits are written follows from the layout at every depth and the lengths and tags before; tests compare a few encodings into empty buffers", "anchors": ["src/core/marshaller.rs:encode_with_source (L514-679)", "src/core/marshaller.rs:encoding_size_with_source (L492-512)"]}
{"id": "C144", "title": "Encodings differ in as many bits as the values", "statement": "The encodings of two values of the same form in the same buffer differ in exactly as many bits as the numbers and letters of the values. Encoding a value where another one of the same form is read changes exactly these bits and no byte behind the encoding. Two values of the same form are encoded alike if and only if they differ in no bit.", "quantifier": "all types, all pairs of values of the same form within the limits of the format, all buffers and data sources", "why_tests_cant": "a bit written twice, or to a place that also depends on other values, would show up only for some pairs of values; tests compare single encodings", "anchors": ["src/core/marshaller.rs:encode_with_source (L514-679)"]}
{"id": "C145", "title": "Encodings can be told apart", "statement": "Bytes that begin with the encoding of a value are read as this value of the type and as no other one, whatever follows. No encoding begins with the encoding of another value of the type. Where encodings of values of one type follow one another, none of them empty, the bytes tell how many there are and which value each stores. Two values are encoded alike in a buffer with room for both if and only if they are the same. Pages with the same bytes, however they came about, hold the same values in the same order.", "quantifier": "all types, all values within the limits of the format, all lists of encodings, all buffers and data sources", "why_tests_cant": "a type with two values that share an encoding, or an encoding that continues another one, is a statement about all pairs of values; tests read back what they wrote", "anchors": ["src/core/marshaller.rs:encode_with_source (L514-679)", "src/core/marshaller.rs:get_primitive, get_bytes, get_case_tag, get_length (L705-923)", "src/core/nsm.rs:get_row, append_row, insert_row, remove_row (L64-168)"]}
{"id": "C146", "title": "Documents tell values apart", "statement": "Two values of a type are written as the same JSON document if and only if they are the same, from data sources and from records. The data of an accepted document present exactly one value of the type.", "quantifier": "all types, all pairs of values, all data sources, all texts", "why_tests_cant": "two values with the same text are a statement about all pairs of values; tests write and read single documents", "anchors": ["src/core/json/encoder.rs:JsonEncoder (L255-420)", "src/core/json/decoder.rs:JsonDecoder (L457-538)"]}
{"id": "C147", "title": "The rows of a page can be put on another page", "statement": "Rows can be brought on a page by some history of calls, none of which adds an empty row without room for its slot, if and only if the page has room for the padded rows and four bytes for each of them and four more. So the rows of a page can be appended in any order to a fresh page that is not shorter and has no larger alignment; the new page shows them in this order and, if it is of the same kind, reports the same room. Records read from a page and appended to another one are read as the same values. Pages of the same length and alignment with the same rows have the same directory and the same bytes at the same places for the rows.", "quantifier": "every page size and alignment, every history, every permutation of the rows, all types and values", "why_tests_cant": "whether the rows left by insertions and removals fit when written again depends on every padding in the history", "anchors": ["src/core/nsm.rs:initialize_page, num_rows, get_row, append_row, insert_row, remove_row, max_insert_row_size (L39-207)"]}
{"id": "C148", "title": "Rows can be replaced", "statement": "Removing a row and inserting another one in its place succeeds if and only if the page has room for the padded rows and four bytes for each of them and four more; so a row can always be replaced by one that is not longer. If the rows are as long as each other, the directory and all other rows keep their bytes and places. In particular the record of a value can be replaced by that of any value of the same form, and is then read as this value and no other.", "quantifier": "every page reached by any history, every index and row, all types and values", "why_tests_cant": "needs exact accounting of padding in every state; a row moved by one byte and back shows only in the bytes", "anchors": ["src/core/nsm.rs:insert_row, remove_row, max_insert_row_size (L98-187)"]}
